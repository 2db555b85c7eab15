import Verif.Proofs.BigIntMul

/-! # Shifts of multi-word integers, `multiply_2_until` and `multiply_5` -/

namespace Grisu
namespace Big

/-- Digit `i` in base `2 ^ 64`. -/
def dg (v i : Nat) : Nat := v / 2 ^ (64 * i) % 2 ^ 64

theorem testBit_dg {v i j : Nat} : (dg v i).testBit j = (decide (j < 64) && v.testBit (64 * i + j)) := by
  unfold dg
  rw [Nat.testBit_mod_two_pow, Nat.testBit_div_two_pow, Nat.add_comm]

theorem dg_lt {v i : Nat} : dg v i < 2 ^ 64 := Nat.mod_lt _ (by norm_num)

theorem shl_digit {v i s : Nat} (hs : s ≤ 64) :
    wrap 64 (dg v (i + 1) * 2 ^ s) ||| dg v i / 2 ^ (64 - s) = dg (v * 2 ^ s) (i + 1) := by
  apply Nat.eq_of_testBit_eq
  intro j
  unfold wrap
  rw [Nat.testBit_or, Nat.testBit_mod_two_pow, Nat.testBit_mul_two_pow, Nat.testBit_div_two_pow, testBit_dg,
    testBit_dg, testBit_dg, Nat.testBit_mul_two_pow]
  by_cases h1 : j < 64
  · by_cases h2 : s ≤ j
    · have a1 : j - s < 64 := by omega
      have a2 : ¬ (j + (64 - s) < 64) := by omega
      have a3 : s ≤ 64 * (i + 1) + j := by omega
      have a4 : 64 * (i + 1) + (j - s) = 64 * (i + 1) + j - s := by omega
      simp [h1, h2, a1, a2, a3, a4]
    · have a2 : j + (64 - s) < 64 := by omega
      have a3 : s ≤ 64 * (i + 1) + j := by omega
      have a4 : 64 * i + (j + (64 - s)) = 64 * (i + 1) + j - s := by omega
      simp [h1, h2, a2, a3, a4]
  · have a2 : ¬ (j + (64 - s) < 64) := by omega
    simp [h1, a2]

theorem shl_digit0 {v s : Nat} : wrap 64 (dg v 0 * 2 ^ s) = dg (v * 2 ^ s) 0 := by
  simp only [dg, wrap, Nat.mul_zero, pow_zero, Nat.div_one, Nat.mod_mul_mod]

theorem shr_digit {v i s : Nat} (hs : s ≤ 64) :
    dg v i / 2 ^ s ||| wrap 64 (dg v (i + 1) * 2 ^ (64 - s)) = dg (v / 2 ^ s) i := by
  apply Nat.eq_of_testBit_eq
  intro j
  unfold wrap
  rw [Nat.testBit_or, Nat.testBit_mod_two_pow, Nat.testBit_mul_two_pow, Nat.testBit_div_two_pow, testBit_dg,
    testBit_dg, testBit_dg, Nat.testBit_div_two_pow]
  by_cases h1 : j < 64
  · by_cases h2 : 64 - s ≤ j
    · have a1 : j - (64 - s) < 64 := by omega
      have a2 : ¬ (j + s < 64) := by omega
      have a4 : 64 * (i + 1) + (j - (64 - s)) = 64 * i + j + s := by omega
      simp [h1, h2, a1, a2, a4]
    · have a2 : j + s < 64 := by omega
      have a4 : 64 * i + (j + s) = 64 * i + j + s := by omega
      simp [h1, h2, a2, a4]
  · have a2 : ¬ (j + s < 64) := by omega
    simp [h1, a2]

theorem shl_loop_spec {v s : Nat} (hs : s ≤ 64) (idx : Nat) : ∀ els : List Nat, idx < els.length →
    (∀ i, i ≤ idx → el els i = dg v i) →
    ∃ els', shl_loop s idx els = .ok els' ∧ els'.length = els.length ∧
      (∀ i, 1 ≤ i → i ≤ idx → el els' i = dg (v * 2 ^ s) i) ∧
      (∀ i, i = 0 ∨ idx < i → el els' i = el els i) := by
  induction idx with
  | zero => intro els h1 h2; exact ⟨els, rfl, rfl, fun i h h' => by omega, fun _ _ => rfl⟩
  | succ idx ih =>
    intro els h1 h2
    simp only [shl_loop, rd_eq h1, rd_eq (show idx < els.length by omega), wr_eq h1, Exec.ok_bind]
    rw [h2 (idx + 1) le_rfl, h2 idx (by omega), shl_digit hs]
    obtain ⟨els', e1, e2, e3, e4⟩ := ih (els.set (idx + 1) (dg (v * 2 ^ s) (idx + 1))) (by simp; omega)
      (fun i hi => by rw [el_set h1, if_neg (by omega)]; exact h2 i (by omega))
    refine ⟨els', e1, by simpa using e2, ?_, ?_⟩
    · intro i hi hi'
      rcases Nat.eq_or_lt_of_le hi' with h | h
      · rw [h, e4 _ (by omega), el_set h1, if_pos rfl]
      · exact e3 i hi (by omega)
    · intro i hi
      rw [e4 i (by omega), el_set h1, if_neg (by omega)]

theorem shift_left_spec {v s p : Nat} {els : List Nat} (hs : 0 < s) (hs' : s < 64) (hp : p < els.length)
    (h : ∀ i, i ≤ p → el els i = dg v i) :
    ∃ els', shift_left s p els = .ok els' ∧ els'.length = els.length ∧
      (∀ i, i ≤ p → el els' i = dg (v * 2 ^ s) i) ∧ (∀ i, p < i → el els' i = el els i) := by
  obtain ⟨els', e1, e2, e3, e4⟩ := shl_loop_spec (v := v) (s := s) (by omega) p els hp h
  have h0 : 0 < els'.length := by omega
  unfold shift_left shift_ok
  simp only [hs, hs', and_self, if_true, Exec.ok_bind, e1, rd_eq h0, wr_eq h0]
  rw [e4 0 (Or.inl rfl), h 0 (by omega), shl_digit0]
  refine ⟨_, rfl, by simpa using e2, ?_, ?_⟩
  · intro i hi
    rw [el_set h0]
    split
    · rename_i hh; rw [hh]
    · exact e3 i (by omega) hi
  · intro i hi
    rw [el_set h0, if_neg (by omega), e4 i (by omega)]

theorem shr_loop_spec {v s : Nat} (hs : s ≤ 64) (count : Nat) : ∀ (idx : Nat) (els : List Nat), 1 ≤ idx →
    idx + count ≤ els.length → (∀ i, idx ≤ i → i < idx + count → el els i = dg v i) →
    el els (idx - 1) = dg v (idx - 1) / 2 ^ s → (∀ i, i < idx - 1 → el els i = dg (v / 2 ^ s) i) →
    ∃ els', shr_loop s count idx els = .ok els' ∧ els'.length = els.length ∧
      (∀ i, i < idx + count - 1 → el els' i = dg (v / 2 ^ s) i) ∧
      el els' (idx + count - 1) = dg v (idx + count - 1) / 2 ^ s ∧
      (∀ i, idx + count ≤ i → el els' i = el els i) := by
  induction count with
  | zero => intro idx els h1 h2 h3 h4 h5; exact ⟨els, rfl, rfl, h5, h4, fun _ _ => rfl⟩
  | succ count ih =>
    intro idx els h1 h2 h3 h4 h5
    have hi : idx < els.length := by omega
    have hi' : idx - 1 < els.length := by omega
    simp only [shr_loop, rd_eq hi, rd_eq hi', wr_eq hi', Exec.ok_bind]
    rw [h3 idx le_rfl (by omega), h4]
    have e : dg v (idx - 1) / 2 ^ s ||| wrap 64 (dg v idx * 2 ^ (64 - s)) = dg (v / 2 ^ s) (idx - 1) := by
      have := @shr_digit v (idx - 1) s hs
      rwa [show idx - 1 + 1 = idx by omega] at this
    rw [e, wr_eq (by simpa using hi)]
    simp only [Exec.ok_bind]
    have hi2 : idx < (els.set (idx - 1) (dg (v / 2 ^ s) (idx - 1))).length := by simpa using hi
    obtain ⟨els', e1, e2, e3, e4, e5⟩ := ih (idx + 1)
      ((els.set (idx - 1) (dg (v / 2 ^ s) (idx - 1))).set idx (dg v idx / 2 ^ s)) (by omega)
      (by simp; omega)
      (fun i h h' => by
        rw [el_set hi2, if_neg (by omega), el_set hi', if_neg (by omega)]; exact h3 i (by omega) (by omega))
      (by rw [show idx + 1 - 1 = idx by omega, el_set hi2, if_pos rfl])
      (fun i h => by
        rw [el_set hi2, if_neg (by omega), el_set hi']
        split
        · rename_i hh; rw [hh]
        · exact h5 i (by omega))
    refine ⟨els', e1, by simpa using e2, fun i h => e3 i (by omega), ?_, ?_⟩
    · rw [show idx + (count + 1) - 1 = idx + 1 + count - 1 by omega]; exact e4
    · intro i h
      rw [e5 i (by omega), el_set hi2, if_neg (by omega), el_set hi', if_neg (by omega)]

theorem shift_right_spec {v s p : Nat} {els : List Nat} (hs : 0 < s) (hs' : s < 64) (hp : p < els.length)
    (h : ∀ i, i ≤ p → el els i = dg v i) (hv : v < 2 ^ (64 * (p + 1))) :
    ∃ els', shift_right s p els = .ok els' ∧ els'.length = els.length ∧
      (∀ i, i ≤ p → el els' i = dg (v / 2 ^ s) i) ∧ (∀ i, p < i → el els' i = el els i) := by
  have h0 : 0 < els.length := by omega
  unfold shift_right shift_ok
  simp only [hs, hs', and_self, if_true, Exec.ok_bind, rd_eq h0, wr_eq h0]
  rw [h 0 (by omega)]
  obtain ⟨els', e1, e2, e3, e4, e5⟩ := shr_loop_spec (v := v) (s := s) (by omega) p 1
    (els.set 0 (dg v 0 / 2 ^ s)) le_rfl (by simp; omega)
    (fun i h1 h2 => by rw [el_set h0, if_neg (by omega)]; exact h i (by omega))
    (by rw [el_set h0, if_pos rfl]) (fun i hi => by omega)
  refine ⟨els', e1, by simpa using e2, ?_, ?_⟩
  · intro i hi
    rcases Nat.eq_or_lt_of_le hi with hh | hh
    · rw [show 1 + p - 1 = p by omega] at e4
      rw [hh, e4]
      have := @shr_digit v p s (by omega)
      rw [← this]
      have z : dg v (p + 1) = 0 := by
        unfold dg; rw [Nat.div_eq_of_lt hv]; rfl
      rw [z]; simp [wrap]
    · exact e3 i (by omega)
  · intro i hi
    rw [e5 i (by omega), el_set h0, if_neg (by omega)]

theorem geq_loop_spec {a b : List Nat} (ha : Lim a) (hb : Lim b) (k : Nat) (hka : k ≤ a.length)
    (hkb : k ≤ b.length) (h : val a + part b k = val b + part a k) :
    geq_loop a b k = .ok (decide (val b ≤ val a)) := by
  induction k with
  | zero => simp [part_zero] at h; simp [geq_loop, h]
  | succ k ih =>
    simp only [geq_loop, rd_eq (show k < a.length by omega), rd_eq (show k < b.length by omega), Exec.ok_bind]
    have pa := part_lt ha k
    have pb := part_lt hb k
    rw [part_succ, part_succ (l := a)] at h
    generalize el a k = x at *
    generalize el b k = y at *
    have key : ∀ x y : Nat, x < y → x * 2 ^ (64 * k) + 2 ^ (64 * k) ≤ y * 2 ^ (64 * k) := by
      intro x y hxy
      rw [← Nat.succ_mul]; exact Nat.mul_le_mul_right _ hxy
    split
    · rename_i hxy
      have := key y x hxy
      rw [decide_eq_true]; omega
    · split
      · rename_i _ hxy
        have := key x y hxy
        rw [decide_eq_false]; omega
      · have : x = y := by omega
        subst this
        exact ih (by omega) (by omega) (by omega)

theorem el_move {els els' : List Nat} {p off : Nat} (hp : p + off < els.length)
    (h : move_elements els p off = .ok els') :
    els'.length = els.length ∧
      ∀ i, el els' i = if i < off then 0 else if i ≤ p + off then el els (i - off) else el els i := by
  unfold move_elements at h
  rw [if_pos hp] at h
  injection h with h
  subst h
  refine ⟨by simp; omega, fun i => ?_⟩
  simp only [el, List.getD_eq_getElem?_getD]
  split
  · rename_i hi
    rw [List.append_assoc, List.getElem?_append_left (by simpa using hi)]
    simp [hi]
  · rename_i hi
    rw [List.append_assoc, List.getElem?_append_right (by simp; omega), List.length_replicate]
    split
    · rename_i hi2
      rw [List.getElem?_append_left (by simp; omega), List.getElem?_take_of_lt (by omega)]
    · rename_i hi2
      rw [List.getElem?_append_right (by simp; omega)]
      simp only [List.length_take, List.getElem?_drop]
      congr 2; omega

theorem bitLength_rep {size a : Nat} {x : Big} (hx : Rep size a x) (ha : a ≠ 0) :
    bitLength a = 64 * x.element_pos + x.bit_pos ∧ 1 ≤ x.bit_pos ∧ x.bit_pos ≤ 64 := by
  have ht : topDigit a = x.element_pos := topDigit_eq hx.lt' hx.ge
  have hb : x.bit_pos = bitLength (a / 2 ^ (64 * topDigit a)) := by
    have := hx.eq; rw [this]; rfl
  rw [bitLength_div, ht] at hb
  have h0 : bitLength a ≠ 0 := by simp [bitLength, ha]
  unfold topDigit at ht
  omega

theorem bitLength_mul_pow {a m : Nat} (ha : a ≠ 0) : bitLength (a * 2 ^ m) = bitLength a + m := by
  have h0 : bitLength a ≠ 0 := by simp [bitLength, ha]
  have e : bitLength a + m = (bitLength a - 1 + m) + 1 := by omega
  rw [e]
  apply bitLength_unique
  · exact Nat.mul_ne_zero ha (Nat.two_pow_pos m).ne'
  · rw [pow_add]; exact Nat.mul_le_mul_right _ (le_bitLength ha)
  · rw [show bitLength a - 1 + m + 1 = bitLength a + m by omega, pow_add]
    exact Nat.mul_lt_mul_of_pos_right (bitLength_lt a) (Nat.two_pow_pos m)

theorem bitLength_mono {a b : Nat} (h : a ≤ b) : bitLength a ≤ bitLength b := by
  by_cases ha : a = 0
  · subst ha; simp [bitLength]
  · have := (Nat.pow_lt_pow_iff_right (a := 2) (by norm_num)).mp
      (lt_of_le_of_lt (le_trans (le_bitLength ha) h) (bitLength_lt b))
    omega

/-- Digits up to `p` and zeros above make up the number. -/
theorem rep_digits {size v p bit : Nat} {l : List Nat} (hl : l.length = size) (hp : p < size)
    (hd : ∀ i, i ≤ p → el l i = dg v i) (ha : ∀ i, p < i → el l i = 0) (hv : v ≠ 0)
    (hbl : bitLength v = 64 * p + bit) (hb : 1 ≤ bit) (hb' : bit ≤ 64) : Rep size v ⟨l, p, bit⟩ := by
  have hlt : v < 2 ^ (64 * (p + 1)) :=
    lt_of_lt_of_le (bitLength_lt v) (Nat.pow_le_pow_right (by norm_num) (by omega))
  have hge : 2 ^ (64 * p) ≤ v :=
    le_trans (Nat.pow_le_pow_right (by norm_num) (by omega)) (le_bitLength hv)
  have hd' : ∀ i, el l i = v / 2 ^ (64 * i) % 2 ^ 64 := by
    intro i
    by_cases hi : i ≤ p
    · exact hd i hi
    · rw [ha i (by omega), Nat.div_eq_of_lt (lt_of_lt_of_le hlt (Nat.pow_le_pow_right (by norm_num) (by omega)))]
      rfl
  have lim : Lim l := fun i => by rw [hd' i]; exact Nat.mod_lt _ (by norm_num)
  apply rep_mk hl lim _ hp ha (Or.inr hge)
  · rw [log2p1_eq (lim p), hd' p, Nat.mod_eq_of_lt]
    · rw [bitLength_div]; omega
    · rw [Nat.div_lt_iff_lt_mul (Nat.two_pow_pos _), ← pow_add]
      rwa [show 64 + 64 * p = 64 * (p + 1) by ring]
  · apply val_of_el _ hd'
    rw [hl]
    exact lt_of_lt_of_le hlt (Nat.pow_le_pow_right (by norm_num) (by omega))

theorem rep_dg {size v : Nat} {x : Big} (hx : Rep size v x) (i : Nat) : el x.elements i = dg v i := by
  rw [el_eq_digit hx.lim, hx.val]; rfl

theorem multiply_2_until_spec (cfg : Cfg) {size a b c : Nat} {x n : Big} (hx : Rep size a x)
    (hn : Rep size b n) (hsz : size < 2 ^ 57) (ha : a ≠ 0) (hab : a ≤ b) (h1 : b ≤ a * 2 ^ c)
    (h2 : c = 0 ∨ a * 2 ^ (c - 1) < b) (h3 : a * 2 ^ c < 2 ^ (64 * size)) :
    multiply_2_until cfg x n = .ok (c, bigOf size (a * 2 ^ c)) := by
  have hpx := hx.pos
  have hpn := hn.pos
  have hxl := hx.len
  have hnl := hn.len
  have hb0 : b ≠ 0 := by omega
  obtain ⟨bx, bx1, bx2⟩ := bitLength_rep hx ha
  obtain ⟨bn, bn1, bn2⟩ := bitLength_rep hn hb0
  have hbl := bitLength_mono hab
  have hle : x.element_pos ≤ n.element_pos := by omega
  obtain ⟨m, hm⟩ : ∃ m, bitLength a + m = bitLength b := ⟨bitLength b - bitLength a, by omega⟩
  have blm : bitLength (a * 2 ^ m) = bitLength b := by rw [bitLength_mul_pow ha, hm]
  have ham : a * 2 ^ m ≠ 0 := Nat.mul_ne_zero ha (Nat.two_pow_pos m).ne'
  -- the number of multiplications
  have hcm : c = if b ≤ a * 2 ^ m then m else m + 1 := by
    have up : b < a * 2 ^ (m + 1) := by
      have e1 := bitLength_lt b
      have e2 := le_bitLength (Nat.mul_ne_zero ha (Nat.two_pow_pos (m + 1)).ne')
      rw [bitLength_mul_pow ha] at e2
      rw [show bitLength a + (m + 1) - 1 = bitLength b by omega] at e2
      omega
    have low : m ≠ 0 → a * 2 ^ (m - 1) < b := by
      intro hm0
      have e1 := bitLength_lt (a * 2 ^ (m - 1))
      rw [bitLength_mul_pow ha] at e1
      have e2 := le_bitLength hb0
      rw [show bitLength a + (m - 1) = bitLength b - 1 by omega] at e1
      omega
    have mono : ∀ i j : Nat, i ≤ j → a * 2 ^ i ≤ a * 2 ^ j := fun i j hij =>
      Nat.mul_le_mul_left _ (Nat.pow_le_pow_right (by norm_num) hij)
    split
    · rename_i hge
      apply le_antisymm
      · by_contra hcon
        rcases h2 with h2 | h2
        · omega
        · have := mono m (c - 1) (by omega); omega
      · by_contra hcon
        have := mono c (m - 1) (by omega)
        have := low (by omega)
        omega
    · rename_i hge
      apply le_antisymm
      · by_contra hcon
        rcases h2 with h2 | h2
        · omega
        · have := mono (m + 1) (c - 1) (by omega); omega
      · by_contra hcon
        have := mono c m (by omega)
        omega
  unfold multiply_2_until
  simp only [cassert_true (cfg := cfg) (b := decide (x.bit_pos ≠ 0)) (by simp; omega),
    cassert_true (cfg := cfg) (b := decide (x.element_pos ≤ n.element_pos)) (by simpa using hle), Exec.ok_bind]
  rw [subw_of_le hle (by omega)]
  -- element-wise shift
  have st1 : ∃ els, (if n.element_pos - x.element_pos > 0 then do
        let els ← move_elements x.elements x.element_pos (n.element_pos - x.element_pos)
        .ok (wrap 64 ((n.element_pos - x.element_pos) * 64), els,
          x.element_pos + (n.element_pos - x.element_pos))
      else .ok (0, x.elements, x.element_pos) : Exec (Nat × List Nat × Nat)) =
        .ok ((n.element_pos - x.element_pos) * 64, els, n.element_pos) ∧ els.length = size ∧
      (∀ i, i ≤ n.element_pos → el els i = dg (a * 2 ^ (64 * (n.element_pos - x.element_pos))) i) ∧
      (∀ i, n.element_pos < i → el els i = 0) := by
    by_cases hoff : n.element_pos - x.element_pos > 0
    · rw [if_pos hoff]
      have hmv : ∃ els, move_elements x.elements x.element_pos (n.element_pos - x.element_pos) = .ok els := by
        unfold move_elements; rw [if_pos (by omega)]; exact ⟨_, rfl⟩
      obtain ⟨els, hels⟩ := hmv
      obtain ⟨l1, l2⟩ := el_move (by omega) hels
      refine ⟨els, ?_, by omega, ?_, ?_⟩
      · rw [hels]
        simp only [Exec.ok_bind]
        rw [wrap_of_lt (by omega), show x.element_pos + (n.element_pos - x.element_pos) = n.element_pos by omega]
      · intro i hi
        rw [l2 i]
        split
        · rename_i h
          unfold dg
          rw [show 64 * (n.element_pos - x.element_pos) =
            64 * (n.element_pos - x.element_pos - i) + 64 * i by omega, pow_add, ← Nat.mul_assoc,
            Nat.mul_div_cancel _ (Nat.two_pow_pos _), show 64 * (n.element_pos - x.element_pos - i) =
            64 * (n.element_pos - x.element_pos - i - 1) + 64 by omega, pow_add, ← Nat.mul_assoc,
            Nat.mul_mod_left]
        · rename_i h
          rw [if_pos (by omega), rep_dg hx]
          unfold dg
          rw [show 64 * i = 64 * (i - (n.element_pos - x.element_pos)) +
            64 * (n.element_pos - x.element_pos) by omega, pow_add, Nat.mul_div_mul_right _ _ (Nat.two_pow_pos _)]
      · intro i hi
        rw [l2 i, if_neg (by omega), if_neg (by omega)]
        exact hx.above i (by omega)
    · rw [if_neg hoff]
      have e : x.element_pos = n.element_pos := by omega
      refine ⟨x.elements, ?_, hxl, ?_, ?_⟩
      · rw [e]; simp
      · intro i hi; rw [rep_dg hx, e]; simp
      · intro i hi; exact hx.above i (by omega)
  obtain ⟨els1, q1, q2, q3, q4⟩ := st1
  rw [q1]
  simp only [Exec.ok_bind]
  have hcount : subw 64 (wrap 64 ((n.element_pos - x.element_pos) * 64 + n.bit_pos)) x.bit_pos = m := by
    rw [wrap_of_lt (by omega), subw_of_le (by omega) (by omega)]; omega
  rw [hcount]
  -- bit-wise shift
  have st2 : ∃ els, (if n.bit_pos > x.bit_pos then shift_left (n.bit_pos - x.bit_pos) n.element_pos els1
      else if n.bit_pos < x.bit_pos then shift_right (x.bit_pos - n.bit_pos) n.element_pos els1
      else .ok els1 : Exec (List Nat)) = .ok els ∧ els.length = size ∧
      (∀ i, i ≤ n.element_pos → el els i = dg (a * 2 ^ m) i) ∧ (∀ i, n.element_pos < i → el els i = 0) := by
    split
    · rename_i h
      obtain ⟨els, e1, e2, e3, e4⟩ := shift_left_spec (s := n.bit_pos - x.bit_pos) (by omega) (by omega)
        (by omega) q3
      refine ⟨els, e1, by omega, ?_, fun i hi => by rw [e4 i hi]; exact q4 i hi⟩
      intro i hi
      rw [e3 i hi, Nat.mul_assoc, ← pow_add]
      congr 3; omega
    · split
      · rename_i h
        obtain ⟨els, e1, e2, e3, e4⟩ := shift_right_spec (s := x.bit_pos - n.bit_pos) (by omega) (by omega)
          (by omega) q3 (by
            refine lt_of_lt_of_le (bitLength_lt _) (Nat.pow_le_pow_right (by norm_num) ?_)
            rw [bitLength_mul_pow ha]; omega)
        refine ⟨els, e1, by omega, ?_, fun i hi => by rw [e4 i hi]; exact q4 i hi⟩
        intro i hi
        rw [e3 i hi]
        congr 1
        rw [show 64 * (n.element_pos - x.element_pos) = m + (x.bit_pos - n.bit_pos) by omega, pow_add,
          ← Nat.mul_assoc, Nat.mul_div_cancel _ (Nat.two_pow_pos _)]
      · refine ⟨els1, rfl, q2, ?_, q4⟩
        intro i hi
        rw [q3 i hi]
        congr 3; omega
  obtain ⟨els2, r1, r2, r3, r4⟩ := st2
  rw [r1]
  simp only [Exec.ok_bind]
  have rep2 : Rep size (a * 2 ^ m) ⟨els2, n.element_pos, n.bit_pos⟩ :=
    rep_digits r2 hpn r3 r4 ham (by omega) bn1 bn2
  have hgeq : geq_loop els2 n.elements (n.element_pos + 1) = .ok (decide (b ≤ a * 2 ^ m)) := by
    have := geq_loop_spec rep2.lim hn.lim (n.element_pos + 1) (by show _ ≤ els2.length; omega) (by omega) (by
      rw [part_eq_val fun i hi => hn.above i (by omega), part_eq_val fun i hi => rep2.above i hi, Nat.add_comm])
    rwa [rep2.val, hn.val] at this
  rw [hgeq]
  simp only [Exec.ok_bind]
  by_cases hge : b ≤ a * 2 ^ m
  · rw [if_pos (by simpa using hge)]
    rw [if_pos hge] at hcm
    rw [hcm, ← rep2.eq]
  · rw [if_neg (by simpa using hge)]
    rw [if_neg hge] at hcm
    have hbl1 : bitLength (a * 2 ^ (m + 1)) = bitLength b + 1 := by
      rw [bitLength_mul_pow ha]; omega
    have hne : a * 2 ^ (m + 1) ≠ 0 := Nat.mul_ne_zero ha (Nat.two_pow_pos _).ne'
    have hfit : bitLength b + 1 ≤ 64 * size := by
      rw [hcm] at h3
      have e2 := le_bitLength hne
      have := (Nat.pow_lt_pow_iff_right (a := 2) (by norm_num)).mp (lt_of_le_of_lt e2 h3)
      omega
    have fin : ∀ p bit, 64 * p + bit = bitLength b + 1 → 1 ≤ bit → bit ≤ 64 → n.element_pos ≤ p → p < size →
        (do
          let els ← shift_left 1 p els2
          .ok (wrap 64 (m + 1), ⟨els, p, bit⟩) : Exec (Nat × Big)) = .ok (c, bigOf size (a * 2 ^ c)) := by
      intro p bit f1 f2 f3 f4 f5
      obtain ⟨els, e1, e2, e3, e4⟩ := shift_left_spec (v := a * 2 ^ m) (s := 1) (p := p) (els := els2) (by norm_num)
        (by norm_num) (by omega) (fun i hi => by
          by_cases hh : i ≤ n.element_pos
          · exact r3 i hh
          · rw [r4 i (by omega)]
            have : a * 2 ^ m < 2 ^ (64 * i) := by
              refine lt_of_lt_of_le (bitLength_lt _) (Nat.pow_le_pow_right (by norm_num) ?_)
              omega
            unfold dg
            rw [Nat.div_eq_of_lt this]; rfl)
      rw [e1]
      simp only [Exec.ok_bind]
      rw [wrap_of_lt (by omega), hcm]
      rw [(rep_digits (v := a * 2 ^ (m + 1)) (by omega) f5 (fun i hi => by
        rw [e3 i hi, Nat.mul_assoc, ← pow_add]) (fun i hi => by rw [e4 i hi]; exact r4 i (by omega)) hne
        (by omega) f2 f3).eq]
    by_cases h64 : n.bit_pos = 64
    · rw [if_pos h64, cassert_true (cfg := cfg) (b := decide (n.element_pos + 1 ≠ els2.length)) (by simp; omega)]
      simp only [Exec.ok_bind]
      exact fin (n.element_pos + 1) 1 (by omega) le_rfl (by norm_num) (by omega) (by omega)
    · rw [if_neg h64]
      simp only [Exec.ok_bind]
      exact fin n.element_pos (n.bit_pos + 1) (by omega) (by omega) (by omega) le_rfl hpn

/-! ## Multiplication by five -/

theorem times_4_loop_spec {v : Nat} {els : List Nat} (idx : Nat) : ∀ t : List (Option Nat),
    idx < els.length → idx < t.length → (∀ i, i ≤ idx → el els i = dg v i) →
    ∃ t', times_4_loop els idx t = .ok t' ∧ t'.length = t.length ∧
      (∀ i, 1 ≤ i → i ≤ idx → el (filled t') i = dg (v * 4) i ∧ Def t' i) ∧
      (∀ i, i = 0 ∨ idx < i → el (filled t') i = el (filled t) i ∧ (Def t i → Def t' i)) := by
  induction idx with
  | zero =>
    intro t h1 h2 h3
    exact ⟨t, rfl, rfl, fun i h h' => by omega, fun _ _ => ⟨rfl, id⟩⟩
  | succ idx ih =>
    intro t h1 h2 h3
    have h2' : idx + 1 < (filled t).length := by rw [filled_length]; exact h2
    simp only [times_4_loop, rd_eq h1, rd_eq (show idx < els.length by omega), wru_eq h2, Exec.ok_bind]
    have e := @shl_digit v idx 2 (by norm_num)
    rw [h3 (idx + 1) le_rfl, h3 idx (by omega)]
    have e' : wrap 64 (dg v (idx + 1) * 4) ||| dg v idx / 2 ^ 62 = dg (v * 4) (idx + 1) := e
    rw [e']
    obtain ⟨t', e1, e2, e3, e4⟩ := ih (t.set (idx + 1) (some (dg (v * 4) (idx + 1)))) (by omega)
      (by simp; omega) (fun i hi => h3 i (by omega))
    refine ⟨t', e1, by simpa using e2, ?_, ?_⟩
    · intro i hi hi'
      rcases Nat.eq_or_lt_of_le hi' with h | h
      · obtain ⟨g1, g2⟩ := e4 (idx + 1) (by omega)
        rw [h, g1, filled_set, el_set h2', if_pos rfl]
        exact ⟨rfl, g2 (def_set h2 (Or.inl rfl))⟩
      · exact e3 i hi (by omega)
    · intro i hi
      obtain ⟨g1, g2⟩ := e4 i (by omega)
      rw [g1, filled_set, el_set h2', if_neg (by omega)]
      exact ⟨rfl, fun h => g2 (def_set h2 (Or.inr h))⟩

theorem add_times_4_spec {t : List (Option Nat)} (ht : Lim (filled t)) (count : Nat) : ∀ (idx : Nat)
    (els : List Nat) (carry : Nat), Lim els → carry ≤ 1 → idx + count ≤ els.length →
    (∀ i, idx ≤ i → i < idx + count → Def t i) →
    ∃ els' c, add_times_4 t count idx els carry = .ok (els', c) ∧ els'.length = els.length ∧ Lim els' ∧
      c ≤ 1 ∧
      val els' + c * 2 ^ (64 * (idx + count)) + part (filled t) idx =
        val els + carry * 2 ^ (64 * idx) + part (filled t) (idx + count) ∧
      ∀ i, i < idx ∨ idx + count ≤ i → el els' i = el els i := by
  induction count with
  | zero => intro idx els carry h1 h2 h3 h4; exact ⟨els, carry, rfl, rfl, h1, h2, rfl, fun _ _ => rfl⟩
  | succ count ih =>
    intro idx els carry h1 h2 h3 h4
    have hi : idx < els.length := by omega
    simp only [add_times_4, rd_eq hi, rdu_eq (h4 idx le_rfl (by omega)), wr_eq hi, Exec.ok_bind]
    obtain ⟨s1, s2, s3⟩ := add_step (h1 idx) (ht idx) h2
    generalize ((if wrap 64 (el els idx + carry) < el els idx then 1 else 0) |||
      if wrap 64 (wrap 64 (el els idx + carry) + el (filled t) idx) < el (filled t) idx then 1 else 0) = c1 at *
    generalize hnew : wrap 64 (wrap 64 (el els idx + carry) + el (filled t) idx) = new at *
    obtain ⟨els', c, e1, e2, e3, e4, e5, e6⟩ := ih (idx + 1) (els.set idx new) c1
      (h1.set hi s3) s2 (by simp; omega) (fun i h h' => h4 i (by omega) (by omega))
    refine ⟨els', c, e1, by simpa using e2, e3, e4, ?_, ?_⟩
    · have v := val_set new hi
      rw [part_succ, pow_step, show idx + 1 + count = idx + (count + 1) by ring] at e5
      have s1' := congrArg (· * 2 ^ (64 * idx)) s1
      simp only [add_mul] at s1'
      linarith
    · intro i hi'
      rw [e6 i (by omega), el_set hi, if_neg (by omega)]

theorem threshold_eq {bit : Nat} (h : bit ≤ 64) : (2 ^ 64 - 1) / 2 ^ (64 - bit) = 2 ^ bit - 1 := by
  interval_cases bit <;> rfl

theorem multiply_5_spec (cfg : Cfg) {size a : Nat} {x : Big} (hx : Rep size a x) (ha : a ≠ 0)
    (h : a * 5 < 2 ^ (64 * size)) : multiply_5 cfg x = .ok (bigOf size (a * 5)) := by
  have hs : 0 < size := lt_of_le_of_lt (Nat.zero_le _) hx.pos
  have hpx := hx.pos
  have hxl := hx.len
  have hxv := hx.val
  obtain ⟨bx, bx1, bx2⟩ := bitLength_rep hx ha
  have ha4 : a * 4 ≠ 0 := by omega
  have bl4 : bitLength (a * 4) = bitLength a + 2 := @bitLength_mul_pow a 2 ha
  have hfit : bitLength (a * 4) ≤ 64 * size := by
    have e2 := le_bitLength ha4
    have := (Nat.pow_lt_pow_iff_right (a := 2) (by norm_num)).mp (lt_of_le_of_lt e2 (by omega : _ < 2 ^ (64 * size)))
    omega
  unfold multiply_5
  rw [cassert_true (cfg := cfg) (b := decide (x.bit_pos ≠ 0)) (by simp; omega)]
  simp only [Exec.ok_bind]
  have st : ∃ p bit, (if x.bit_pos + 2 > 64 then do
      cassert cfg (decide (x.element_pos + 1 ≠ x.elements.length))
      .ok (x.element_pos + 1, x.bit_pos + 2 - 64)
    else .ok (x.element_pos, x.bit_pos + 2) : Exec (Nat × Nat)) = .ok (p, bit) ∧
      64 * p + bit = bitLength (a * 4) ∧ 1 ≤ bit ∧ bit ≤ 64 ∧ x.element_pos ≤ p ∧ p < size := by
    split
    · rename_i hb
      rw [cassert_true (cfg := cfg) (b := decide (x.element_pos + 1 ≠ x.elements.length)) (by simp; omega)]
      exact ⟨x.element_pos + 1, x.bit_pos + 2 - 64, rfl, by omega, by omega, by omega, by omega, by omega⟩
    · exact ⟨x.element_pos, x.bit_pos + 2, rfl, by omega, by omega, by omega, le_rfl, hpx⟩
  obtain ⟨p, bit, e0, hp1, hb1, hb2, hpge, hps⟩ := st
  rw [e0]
  simp only [Exec.ok_bind]
  have lt4 : a * 4 < 2 ^ (64 * (p + 1)) :=
    lt_of_lt_of_le (bitLength_lt _) (Nat.pow_le_pow_right (by norm_num) (by omega))
  have ge4 : 2 ^ (64 * p) ≤ a * 4 :=
    le_trans (Nat.pow_le_pow_right (by norm_num) (by omega)) (le_bitLength ha4)
  -- four times the number
  obtain ⟨t, t1, t2, t3, t4⟩ := times_4_loop_spec (v := a) (els := x.elements) p
    (List.replicate x.elements.length none) (by omega) (by simp; omega) (fun i _ => rep_dg hx i)
  have ht0 : 0 < t.length := by rw [t2]; simp; omega
  have ht0' : 0 < (filled t).length := by rw [filled_length]; exact ht0
  have hx0 : 0 < x.elements.length := by omega
  simp only [t1, rd_eq hx0, Exec.ok_bind, wru_eq ht0]
  rw [rep_dg hx 0]
  have d0 : wrap 64 (dg a 0 * 4) = dg (a * 4) 0 := @shl_digit0 a 2
  rw [d0]
  have hfel : ∀ i, el (filled (t.set 0 (some (dg (a * 4) 0)))) i = dg (a * 4) i := by
    intro i
    rw [filled_set, el_set ht0']
    split
    · rename_i hh; rw [hh]
    · by_cases hi : i ≤ p
      · exact (t3 i (by omega) hi).1
      · rw [(t4 i (by omega)).1, el_blank]
        unfold dg
        rw [Nat.div_eq_of_lt (lt_of_lt_of_le lt4 (Nat.pow_le_pow_right (by norm_num) (by omega)))]
        rfl
  have hdef : ∀ i, i ≤ p → Def (t.set 0 (some (dg (a * 4) 0))) i := by
    intro i hi
    by_cases h0 : i = 0
    · exact def_set ht0 (Or.inl h0)
    · exact def_set ht0 (Or.inr (t3 i (by omega) hi).2)
  have htlen : (t.set 0 (some (dg (a * 4) 0))).length = size := by simp [t2, hxl]
  generalize t.set 0 (some (dg (a * 4) 0)) = T at *
  have hTlim : Lim (filled T) := fun i => by rw [hfel i]; exact dg_lt
  have hTval : val (filled T) = a * 4 := val_of_el
    (by rw [filled_length, htlen]; omega) hfel
  have hTpart : part (filled T) (p + 1) = a * 4 := by
    rw [part_eq_val, hTval]
    intro i hi
    rw [hfel i]
    unfold dg
    rw [Nat.div_eq_of_lt (lt_of_lt_of_le lt4 (Nat.pow_le_pow_right (by norm_num) (by omega)))]
    rfl
  simp only [rdu_eq (hdef 0 (by omega)), hfel 0, Exec.ok_bind, wr_eq hx0]
  have st : wrap 64 (dg a 0 + dg (a * 4) 0) +
      (if wrap 64 (dg a 0 + dg (a * 4) 0) < dg (a * 4) 0 then 1 else 0) * 2 ^ 64 = dg a 0 + dg (a * 4) 0 ∧
      (if wrap 64 (dg a 0 + dg (a * 4) 0) < dg (a * 4) 0 then 1 else 0) ≤ 1 ∧
      wrap 64 (dg a 0 + dg (a * 4) 0) < 2 ^ 64 := by
    have := @dg_lt a 0
    have := @dg_lt (a * 4) 0
    unfold wrap
    split <;> omega
  obtain ⟨s1, s2, s3⟩ := st
  generalize (if wrap 64 (dg a 0 + dg (a * 4) 0) < dg (a * 4) 0 then 1 else 0) = c0 at *
  generalize wrap 64 (dg a 0 + dg (a * 4) 0) = new at *
  have v0 := val_set new hx0
  simp only [Nat.mul_zero, pow_zero, Nat.mul_one, rep_dg hx 0] at v0
  have hp1' : part (filled T) 1 = dg (a * 4) 0 := by rw [part_succ, part_zero, hfel 0]; simp
  obtain ⟨els, c, e1, e2, e3, e4, e5, e6⟩ := add_times_4_spec hTlim p 1 (x.elements.set 0 new) c0
    (hx.lim.set hx0 s3) s2 (by simp; omega) (fun i h1 h2 => hdef i (by omega))
  rw [hp1', show 1 + p = p + 1 by ring, hTpart] at e5
  simp only [Nat.mul_one] at e5
  have hel2 : els.length = size := by rw [e2]; simpa using hxl
  have hab : ∀ i, p < i → el els i = 0 := by
    intro i hi
    rw [e6 i (by omega), el_set hx0, if_neg (by omega)]
    exact hx.above i (by omega)
  have hsum : val els + c * 2 ^ (64 * (p + 1)) = a * 5 := by omega
  simp only [e1, Exec.ok_bind]
  by_cases hc : c = 0
  · subst hc
    have hpl : p < els.length := by omega
    rw [if_neg (by simp)]
    simp only [rd_eq hpl, Exec.ok_bind]
    have hv5 : val els = a * 5 := by omega
    have htop : el els p = a * 5 / 2 ^ (64 * p) := by
      have lt5 : a * 5 < 2 ^ (64 * (p + 1)) := by
        have := part_lt e3 (p + 1)
        rwa [part_eq_val fun i hi => hab i (by omega), hv5] at this
      rw [el_eq_digit e3, hv5, Nat.mod_eq_of_lt]
      rw [Nat.div_lt_iff_lt_mul (Nat.two_pow_pos _), ← pow_add]
      rwa [show 64 + 64 * p = 64 * (p + 1) by ring]
    have hbl5 : bitLength (el els p) = bitLength (a * 5) - 64 * p := by rw [htop, bitLength_div]
    have lo : bitLength (a * 4) ≤ bitLength (a * 5) := bitLength_mono (by omega)
    have hi5 : bitLength (a * 5) ≤ bitLength (a * 4) + 1 := by
      have := @bitLength_mono (a * 5) (a * 4 * 2 ^ 1) (by omega)
      rwa [bitLength_mul_pow ha4] at this
    have hthr := threshold_eq hb2
    have hbit : (if el els p > (2 ^ 64 - 1) / 2 ^ (64 - bit) then bit + 1 else bit) = bitLength (el els p) := by
      rw [hthr]
      have l1 := bitLength_lt (el els p)
      have hposb := Nat.two_pow_pos bit
      split
      · rename_i hgt
        have : bit < bitLength (el els p) :=
          (Nat.pow_lt_pow_iff_right (by norm_num)).mp (lt_of_le_of_lt (by omega : 2 ^ bit ≤ el els p) l1)
        omega
      · rename_i hgt
        have hne : el els p ≠ 0 := by
          rw [htop]; exact (Nat.div_pos (by omega) (Nat.two_pow_pos _)).ne'
        have l2 := le_bitLength hne
        have : bitLength (el els p) - 1 < bit :=
          (Nat.pow_lt_pow_iff_right (by norm_num)).mp (lt_of_le_of_lt l2 (by omega))
        omega
    have hle64 : bitLength (el els p) ≤ 64 := by
      by_contra hcon
      have hne : el els p ≠ 0 := by
        rw [htop]; exact (Nat.div_pos (by omega) (Nat.two_pow_pos _)).ne'
      have l2 := le_bitLength hne
      have := e3 p
      have : 2 ^ 64 ≤ 2 ^ (bitLength (el els p) - 1) := Nat.pow_le_pow_right (by norm_num) (by omega)
      omega
    rw [hbit, cassert_true (cfg := cfg) (b := decide (p ≠ els.length)) (by simp; omega),
      cassert_true (cfg := cfg) (b := decide (bitLength (el els p) ≤ 64)) (by simpa using hle64)]
    simp only [Exec.ok_bind]
    rw [(rep_mk (size := size) hel2 e3 hv5 hps hab (Or.inr (by omega)) (log2p1_eq (e3 p)).symm).eq]
  · have hc1 : c = 1 := by omega
    subst hc1
    have hms : p + 1 < size := by
      by_contra hcon
      have : p + 1 = size := by omega
      rw [this] at hsum; omega
    have hi : p + 1 < els.length := by omega
    rw [if_pos (by simp)]
    simp only [wr_eq hi, Exec.ok_bind]
    have vs := val_set 1 hi
    rw [hab (p + 1) (by omega)] at vs
    rw [cassert_true (cfg := cfg) (b := decide (p + 1 ≠ (els.set (p + 1) 1).length)) (by simp; omega),
      cassert_true (cfg := cfg) (b := decide (1 ≤ 64)) (by simp)]
    simp only [Exec.ok_bind]
    rw [(rep_mk (size := size) (v := a * 5) (by simpa using hel2) (e3.set hi (by norm_num)) (by omega) hms
      (fun i hi' => by rw [el_set hi, if_neg (by omega)]; exact hab i (by omega))
      (Or.inr (by omega)) (by rw [el_set hi, if_pos rfl]; rfl)).eq]

/-! ## Construction -/

theorem el_zeros {size i : Nat} : el (List.replicate size 0) i = 0 := by
  by_cases h : i < size <;> simp [el, h]

theorem val_zeros {size : Nat} : val (List.replicate size 0) = 0 := by
  have := part_eq_val (l := List.replicate size 0) (k := 0) fun i _ => el_zeros
  rw [← this, part_zero]

theorem lim_zeros {size : Nat} : Lim (List.replicate size 0) := fun i => by rw [el_zeros]; norm_num

theorem ofElement_spec {size x : Nat} (hs : 0 < size) (hx : x < 2 ^ 64) :
    ofElement size x = .ok (bigOf size x) := by
  have hi : 0 < (List.replicate size 0).length := by simpa using hs
  unfold ofElement
  rw [wr_eq hi]
  simp only [Exec.ok_bind]
  have v := val_set x hi
  rw [el_zeros, val_zeros] at v
  rw [(rep_mk (size := size) (v := x) (p := 0) (by simp) (lim_zeros.set hi hx) (by omega) hs
    (fun i hi' => by rw [el_set hi, if_neg (by omega)]; exact el_zeros) (Or.inl rfl)
    (by rw [el_set hi, if_pos rfl])).eq]

theorem power_of_2_spec (cfg : Cfg) {size e : Nat} (he : e < 64 * size) :
    power_of_2 cfg size e = .ok (bigOf size (2 ^ e)) := by
  have hi : e / 64 < (List.replicate size 0).length := by simp; omega
  unfold power_of_2
  rw [cassert_true (cfg := cfg) (b := decide (e < size * 64)) (by simp; omega), wr_eq hi]
  simp only [Exec.ok_bind]
  have v := val_set (2 ^ (e % 64)) hi
  rw [el_zeros, val_zeros, ← pow_add, Nat.mod_add_div] at v
  have hlt : 2 ^ (e % 64) < 2 ^ 64 := Nat.pow_lt_pow_right (by norm_num) (by omega)
  have hbl : bitLength (2 ^ (e % 64)) = e % 64 + 1 :=
    bitLength_unique (Nat.two_pow_pos _).ne' le_rfl (Nat.pow_lt_pow_right (by norm_num) (by omega))
  rw [(rep_mk (size := size) (v := 2 ^ e) (p := e / 64) (by simp) (lim_zeros.set hi hlt) (by omega) (by omega)
    (fun i hi' => by rw [el_set hi, if_neg (by omega)]; exact el_zeros)
    (Or.inr (Nat.pow_le_pow_right (by norm_num) (by omega)))
    (by rw [el_set hi, if_pos rfl, log2p1_eq hlt, hbl])).eq]

end Big
end Grisu
