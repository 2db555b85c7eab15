import Verif.Proofs.BigIntProduct

/-! # Exactly when an operation on multi-word integers leaves the right number -/

namespace Grisu
namespace Big

/-- What `operator--` leaves, `k` being the index of the lowest nonzero element. -/
theorem decrement_run (cfg : Cfg) {size a k : Nat} {x : Big} (hsz : size < 2 ^ 64) (hx : Rep size a x) (ha : a ≠ 0)
    (hk : 2 ^ (64 * k) ∣ a) (hd : a / 2 ^ (64 * k) % 2 ^ 64 ≠ 0) :
    decrement cfg x = .ok ⟨(bigOf size (a - 1)).elements,
      if a / 2 ^ (64 * k) % 2 ^ 64 = 1 ∧ k ≠ 0 then topDigit a - 1 else topDigit a,
      if a / 2 ^ (64 * k) % 2 ^ 64 = 1 ∧ k ≠ 0 then 64 else bitLength (a / 2 ^ (64 * k) % 2 ^ 64 - 1)⟩ := by
  have hs : 0 < size := lt_of_le_of_lt (Nat.zero_le _) hx.pos
  have hpx := hx.pos
  have hxl := hx.len
  have hxv := hx.val
  have ht : topDigit a = x.element_pos := topDigit_eq hx.lt' hx.ge
  have hex : el x.elements x.element_pos ≠ 0 := by
    rcases hx.top with h | h
    · intro h0
      have := part_eq_val (l := x.elements) (k := 1) fun i hi => hx.above i (by omega)
      rw [part_succ, part_zero, hxv] at this
      rw [h] at h0
      rw [h0] at this
      simp at this
      exact ha this.symm
    · exact h
  obtain ⟨els, j, e1, e2, e3, e4, e5, e6, e7, e8, e9, e10⟩ := decrement_loop_spec cfg x.element_pos
    (x.elements.length + 1) 0 x.element_pos x.elements hx.lim (by omega) le_rfl (by omega) hex (by omega)
  have hdk : el x.elements k = a / 2 ^ (64 * k) % 2 ^ 64 := by rw [el_eq_digit hx.lim, hxv]
  have hjk : j = k := by
    rcases Nat.lt_trichotomy j k with h | h | h
    · exfalso
      apply e7
      rw [el_eq_digit hx.lim, hxv]
      obtain ⟨c, rfl⟩ := hk
      obtain ⟨d, rfl⟩ : ∃ d, k = j + 1 + d := ⟨k - j - 1, by omega⟩
      rw [show 64 * (j + 1 + d) = 64 * j + (64 + 64 * d) by ring, pow_add, Nat.mul_assoc,
        Nat.mul_div_cancel_left _ (Nat.two_pow_pos _), pow_add, Nat.mul_assoc, Nat.mul_mod_right]
    · exact h
    · exact absurd (e8 k (Nat.zero_le _) h) (by rw [hdk]; exact hd)
  subst hjk
  have hj : j < els.length := by omega
  have hjel : el els j = el x.elements j := e9 j (by omega)
  unfold decrement
  simp only [e1, Exec.ok_bind, rd_eq hj, wr_eq hj]
  have v := val_set (el els j - 1) hj
  have e : (el els j - 1) * 2 ^ (64 * j) + 2 ^ (64 * j) = el els j * 2 ^ (64 * j) := by
    rw [← Nat.succ_mul]; congr 1; omega
  simp only [Nat.mul_zero, pow_zero] at e4
  have hv : val (els.set j (el els j - 1)) = a - 1 := by omega
  have hlim : Lim (els.set j (el els j - 1)) := e3.set hj (by have := e3 j; omega)
  have r := rep_bigOf (v := a - 1) hs (by have := hx.lt; omega)
  have he : els.set j (el els j - 1) = (bigOf size (a - 1)).elements :=
    val_inj hlim r.lim (by rw [r.len]; simp; omega) (by rw [r.val, hv])
  rw [he, hjel, hdk, ← ht]
  generalize hg : a / 2 ^ (64 * j) % 2 ^ 64 = d at *
  have hd64 : d < 2 ^ 64 := by rw [← hg]; exact Nat.mod_lt _ (by norm_num)
  by_cases h1 : d = 1
  · subst h1
    by_cases h0 : j = 0
    · subst h0; simp [bitLength]
    · have : 1 ≤ topDigit a := by omega
      simp [h0, subw_of_le (w := 64) (a := topDigit a) (b := 1) (by omega) (by omega)]
  · rw [if_neg (by omega), if_neg (by omega), if_neg (by omega), log2p1_eq (by omega)]

/-- The product with 0. -/
theorem mulE_zero (cfg : Cfg) {size a : Nat} {x : Big} (hx : Rep size a x) :
    mulE cfg x 0 = .ok ⟨(bigOf size 0).elements, topDigit a, 0⟩ := by
  have hs : 0 < size := lt_of_le_of_lt (Nat.zero_le _) hx.pos
  have hpx := hx.pos
  have hxl := hx.len
  have hav : part x.elements (x.element_pos + 1) = a := by
    rw [part_eq_val fun i hi => hx.above i (by omega), hx.val]
  obtain ⟨els, c, e1, e2, e3, e4, e5, e6⟩ := mul_loop_spec cfg (show (0 : Nat) < 2 ^ 64 by norm_num) x.elements
    (x.element_pos + 1) 0 x.elements 0 hx.lim (by norm_num) (by omega) (fun i _ => rfl)
  rw [Nat.zero_add, hav, part_zero, hx.val] at e5
  simp only [Nat.mul_zero, Nat.zero_mul, Nat.add_zero] at e5
  have hP := Nat.two_pow_pos (64 * (x.element_pos + 1))
  have hc : c = 0 := by
    by_contra hne
    have h1 := hx.lt'
    have h2 : 1 * 2 ^ (64 * (x.element_pos + 1)) ≤ c * 2 ^ (64 * (x.element_pos + 1)) :=
      Nat.mul_le_mul_right _ (Nat.pos_of_ne_zero hne)
    omega
  subst hc
  have hv : val els = 0 := by omega
  have r := rep_bigOf (v := 0) hs (Nat.two_pow_pos _)
  have he : els = (bigOf size 0).elements := val_inj e3 r.lim (by rw [r.len]; omega) (by rw [r.val, hv])
  unfold mulE
  simp only [e1, Exec.ok_bind, ne_eq, not_true_eq_false, if_false, rd_eq (show x.element_pos < els.length by omega)]
  rw [el_eq_digit e3, hv, he, topDigit_eq hx.lt' hx.ge]
  simp [log2p1_eq, bitLength]

/-- The product of which one factor is 0. -/
theorem mul_zero_run (cfg : Cfg) {size a b : Nat} {x y : Big} (hx : Rep size a x) (hy : Rep size b y)
    (h : a * b = 0) :
    mul cfg x y = .ok ⟨(bigOf size 0).elements, topDigit a + topDigit b, 0⟩ := by
  have hs : 0 < size := lt_of_le_of_lt (Nat.zero_le _) hx.pos
  have hta : topDigit a = x.element_pos := topDigit_eq hx.lt' hx.ge
  have htb : topDigit b = y.element_pos := topDigit_eq hy.lt' hy.ge
  have key : ∃ z, mul cfg x y = .ok z ∧ Weak size 0 z ∧ z.element_pos = topDigit a + topDigit b ∧
      z.bit_pos = log2p1 (el z.elements z.element_pos) := by
    have hsp : ∀ n, a * n = 0 → singlePos x.element_pos a n = x.element_pos := by
      intro n hn; unfold singlePos; rw [hn, if_pos (Nat.two_pow_pos _)]
    have hall : ∀ m, a * el y.elements m = 0 := by
      intro m
      rcases Nat.mul_eq_zero.mp h with h | h
      · rw [h, Nat.zero_mul]
      · rw [el_eq_digit hy.lim, hy.val, h]; simp
    have hsum : x.element_pos = 0 ∨ y.element_pos = 0 := by
      rcases Nat.mul_eq_zero.mp h with h | h
      · left; rw [← hta, h]; rfl
      · right; rw [← htb, h]; rfl
    obtain ⟨z, e1, e2, e3, e4⟩ := (mul_core cfg hx hy.weak (fun m hm => by
      rw [hsp _ (hall m)]; have := hx.pos; have := hy.pos; omega)).1 fun m h1 h2 => by
        unfold Kept
        rcases Nat.mul_eq_zero.mp h with h | h
        · rw [h, Nat.zero_mul]; exact Nat.two_pow_pos _
        · rw [part_mod hy.lim, hy.val, h]; simp
    refine ⟨z, e1, by rw [h] at e2; exact e2, ?_, e4⟩
    rw [e3, hsp _ (hall _)]; omega
  obtain ⟨z, e1, e2, e3, e4⟩ := key
  have r := rep_bigOf (v := 0) hs (Nat.two_pow_pos _)
  have he : z.elements = (bigOf size 0).elements :=
    val_inj e2.lim r.lim (by rw [r.len, e2.len]) (by rw [r.val, e2.val])
  have hb : z.bit_pos = 0 := by
    rw [e4, el_eq_digit e2.lim, e2.val]; simp [log2p1_eq, bitLength]
  rw [e1]
  cases z
  simp only at he hb e3
  rw [he, hb, e3]

end Big
end Grisu
