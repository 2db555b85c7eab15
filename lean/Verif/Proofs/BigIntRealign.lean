import Verif.Proofs.BigIntDiv
import Verif.SpecDiv

/-! # Moving the divisor down to the rest -/

namespace Grisu
namespace Big

theorem shift_elements_spec {off : Nat} (hoff : 0 < off) (count : Nat) : ∀ (idx : Nat) (l : List (Option Nat)),
    idx + count ≤ l.length → (∀ i, idx ≤ i → i < idx + count → Def l (i + off)) → Lim (filled l) →
    ∃ l', shift_elements off count idx l = .ok l' ∧ l'.length = l.length ∧ (∀ i, Def l i → Def l' i) ∧
      (∀ i, idx ≤ i → i < idx + count → el (filled l') i = el (filled l) (i + off) ∧ Def l' i) ∧
      (∀ i, i < idx ∨ idx + count ≤ i → el (filled l') i = el (filled l) i) ∧ Lim (filled l') := by
  induction count with
  | zero =>
    intro idx l _ _ hl
    exact ⟨l, rfl, rfl, fun _ => id, fun i h h' => by omega, fun _ _ => rfl, hl⟩
  | succ count ih =>
    intro idx l h1 h2 hl
    have hi : idx < l.length := by omega
    have hi' : idx < (filled l).length := by rw [filled_length]; exact hi
    simp only [shift_elements, rdu_eq (h2 idx le_rfl (by omega)), wru_eq hi, Exec.ok_bind]
    obtain ⟨l', e1, e2, e3, e4, e5, e6⟩ := ih (idx + 1) (l.set idx (some (el (filled l) (idx + off))))
      (by simp; omega) (fun i h h' => def_set hi (Or.inr (h2 i (by omega) (by omega))))
      (by rw [filled_set]; exact hl.set hi' (hl _))
    refine ⟨l', e1, by simpa using e2, fun i h => e3 i (def_set hi (Or.inr h)), ?_, ?_, e6⟩
    · intro i h h'
      by_cases hh : i = idx
      · subst hh
        rw [e5 i (by omega), filled_set, el_set hi', if_pos rfl]
        exact ⟨rfl, e3 i (def_set hi (Or.inl rfl))⟩
      · obtain ⟨g1, g2⟩ := e4 i (by omega) (by omega)
        rw [g1, filled_set, el_set hi', if_neg (by omega)]
        exact ⟨rfl, g2⟩
    · intro i h
      rw [e5 i (by omega), filled_set, el_set hi', if_neg (by omega)]

theorem or_wrap_lt {x y s : Nat} (hx : x < 2 ^ 64) : x / 2 ^ s ||| wrap 64 y < 2 ^ 64 :=
  Nat.or_lt_two_pow (lt_of_le_of_lt (Nat.div_le_self _ _) hx) (Nat.mod_lt _ (by norm_num))

/-- The loop of the right shift, for any elements. -/
theorem shift_down_els {s : Nat} (count : Nat) : ∀ (idx : Nat) (l : List (Option Nat)),
    idx + count < l.length → (∀ i, idx ≤ i → i ≤ idx + count → Def l i) → Lim (filled l) →
    ∃ l', shift_down_loop s count idx l = .ok l' ∧ l'.length = l.length ∧ (∀ i, Def l i → Def l' i) ∧
      (∀ i, idx ≤ i → i < idx + count → el (filled l') i =
        el (filled l) i / 2 ^ s ||| wrap 64 (el (filled l) (i + 1) * 2 ^ (64 - s))) ∧
      (∀ i, i < idx ∨ idx + count ≤ i → el (filled l') i = el (filled l) i) ∧ Lim (filled l') := by
  induction count with
  | zero =>
    intro idx l _ _ hl
    exact ⟨l, rfl, rfl, fun _ => id, fun i h h' => by omega, fun _ _ => rfl, hl⟩
  | succ count ih =>
    intro idx l h1 h2 hl
    have hi : idx < l.length := by omega
    have hi' : idx < (filled l).length := by rw [filled_length]; exact hi
    simp only [shift_down_loop, rdu_eq (h2 idx le_rfl (by omega)), rdu_eq (h2 (idx + 1) (by omega) (by omega)), wru_eq hi,
      Exec.ok_bind]
    obtain ⟨l', e1, e2, e3, e4, e5, e6⟩ := ih (idx + 1) (l.set idx (some
        (el (filled l) idx / 2 ^ s ||| wrap 64 (el (filled l) (idx + 1) * 2 ^ (64 - s)))))
      (by simp; omega) (fun i h h' => def_set hi (Or.inr (h2 i (by omega) (by omega))))
      (by rw [filled_set]; exact hl.set hi' (or_wrap_lt (hl _)))
    refine ⟨l', e1, by simpa using e2, fun i h => e3 i (def_set hi (Or.inr h)), ?_, ?_, e6⟩
    · intro i h h'
      by_cases hh : i = idx
      · rw [hh, e5 idx (by omega), filled_set, el_set hi', if_pos rfl]
      · rw [e4 i (by omega) (by omega), filled_set, el_set hi', el_set hi', if_neg (by omega), if_neg (by omega)]
    · intro i h
      rw [e5 i (by omega), filled_set, el_set hi', if_neg (by omega)]

/-- Bits of `realigned`. -/
theorem testBit_realigned {m g r j : Nat} (hg : g % 64 ≤ 64 * (topDigit r + 1)) :
    (realigned m g r).testBit j =
      if j < 64 * (topDigit r + 1) - g % 64 then m.testBit (j + g)
      else (decide (j < 64 * (topDigit r + 1)) && m.testBit (j + g % 64)) := by
  unfold realigned
  generalize hs : 64 * (topDigit r + 1) - g % 64 = s
  rw [Nat.add_comm, Nat.mul_comm, Nat.testBit_two_pow_mul_add _ (Nat.mod_lt _ (Nat.two_pow_pos _))]
  split
  · rename_i h
    rw [Nat.testBit_mod_two_pow, Nat.testBit_div_two_pow]
    simp [h]
  · rename_i h
    rw [Nat.testBit_mod_two_pow, Nat.testBit_div_two_pow]
    rw [show j - s + 64 * (topDigit r + 1) = j + g % 64 by omega]
    congr 1
    rw [decide_eq_decide]
    omega

theorem realigned_lt {m g r : Nat} : realigned m g r < 2 ^ (64 * (topDigit r + 1)) := by
  have hg : g % 64 ≤ 64 * (topDigit r + 1) := by omega
  apply Nat.lt_pow_two_of_testBit
  intro j hj
  rw [testBit_realigned hg, if_neg (by omega)]
  simp; omega

theorem realigned_of_lt {m g r : Nat} (hg : g < 64) (hm : m < 2 ^ (64 * (topDigit r + 1) + g)) :
    realigned m g r = m / 2 ^ g := by
  apply Nat.eq_of_testBit_eq
  intro j
  rw [testBit_realigned (by omega), Nat.testBit_div_two_pow, Nat.mod_eq_of_lt hg]
  split
  · rfl
  · by_cases h : j < 64 * (topDigit r + 1)
    · simp [h]
    · simp only [h, decide_false, Bool.false_and]
      symm
      apply Nat.testBit_lt_two_pow
      exact lt_of_lt_of_le hm (Nat.pow_le_pow_right (by norm_num) (by omega))

/-- The new digits of `n_shifted`. -/
theorem dg_realigned {m g r i : Nat} (hi : i ≤ topDigit r) :
    dg (realigned m g r) i =
      dg m (i + g / 64) / 2 ^ (g % 64) |||
        wrap 64 ((if i < topDigit r then dg m (i + g / 64 + 1) else dg m (i + 1)) * 2 ^ (64 - g % 64)) := by
  apply Nat.eq_of_testBit_eq
  intro j
  unfold wrap
  rw [testBit_dg, testBit_realigned (by omega), Nat.testBit_or, Nat.testBit_mod_two_pow, Nat.testBit_mul_two_pow,
    Nat.testBit_div_two_pow, testBit_dg]
  by_cases h1 : j < 64
  · by_cases h3 : i < topDigit r
    · rw [if_pos (by omega), if_pos h3, testBit_dg]
      by_cases h2 : 64 - g % 64 ≤ j
      · have a1 : j - (64 - g % 64) < 64 := by omega
        have a2 : ¬ (j + g % 64 < 64) := by omega
        have a4 : 64 * (i + g / 64 + 1) + (j - (64 - g % 64)) = 64 * i + j + g := by omega
        simp [h1, h2, a1, a2, a4]
      · have a2 : j + g % 64 < 64 := by omega
        have a4 : 64 * (i + g / 64) + (j + g % 64) = 64 * i + j + g := by omega
        simp [h1, h2, a2, a4]
    · rw [if_neg h3, testBit_dg]
      have hi' : i = topDigit r := by omega
      by_cases h2 : 64 - g % 64 ≤ j
      · rw [if_neg (by omega)]
        have a1 : j - (64 - g % 64) < 64 := by omega
        have a2 : ¬ (j + g % 64 < 64) := by omega
        have a3 : 64 * i + j < 64 * (topDigit r + 1) := by omega
        have a4 : 64 * (i + 1) + (j - (64 - g % 64)) = 64 * i + j + g % 64 := by omega
        simp [h1, h2, a1, a2, a3, a4]
      · rw [if_pos (by omega)]
        have a2 : j + g % 64 < 64 := by omega
        have a4 : 64 * (i + g / 64) + (j + g % 64) = 64 * i + j + g := by omega
        simp [h1, h2, a2, a4]
  · have a2 : ¬ (j + g % 64 < 64) := by omega
    simp [h1, a2]

/-- `realign`: it stops when fewer digits are left than have to be moved. -/
theorem realign_core {size p N t r : Nat} {d : Div} (hsz : size < 2 ^ 57) (hr : r ≠ 0) (hN : N ≠ 0)
    (hrep : Rep size r d.this) (hsh : Sh p N d.shifted) (hlen : d.shifted.length = size) (htot : d.total = t)
    (sb : bitLength N = 64 * d.shifted_element_pos + d.shifted_bit_pos) (sb1 : 1 ≤ d.shifted_bit_pos)
    (sb2 : d.shifted_bit_pos ≤ 64) (hle : bitLength r ≤ bitLength N) (htN : t < bitLength N)
    (hlow : ∀ i, i < (t - (bitLength N - bitLength r)) / 64 → dg N i = 0 ∧ dg (N / 2 ^ (bitLength N - bitLength r)) i = 0) :
    (t < bitLength N - bitLength r ∧ realign d = .ok none) ∨
    (bitLength N - bitLength r ≤ t ∧ ∃ l', realign d = .ok (some { d with
        shifted := l', shifted_element_pos := d.this.element_pos, shifted_bit_pos := d.this.bit_pos
        base_idx := (t - (bitLength N - bitLength r)) / 64
        base_trailing_zeros := (t - (bitLength N - bitLength r)) % 64
        total := t - (bitLength N - bitLength r) }) ∧ l'.length = size ∧
      Sh d.this.element_pos (realigned N (bitLength N - bitLength r) r) l') := by
  obtain ⟨br, br1, br2⟩ := bitLength_rep hrep hr
  have hpos := hrep.pos
  have hsp : d.shifted_element_pos ≤ p := by
    have h1 := le_bitLength hN
    have h2 := (Nat.pow_lt_pow_iff_right (a := 2) (by norm_num)).mp (lt_of_le_of_lt h1 hsh.lt)
    omega
  have hplen := hsh.len
  have htop : topDigit r = d.this.element_pos := by unfold topDigit; omega
  generalize hg : bitLength N - bitLength r = g at *
  obtain ⟨heq, hes, hbs⟩ :
      (if d.this.bit_pos < d.shifted_bit_pos then
          (subw 64 d.shifted_element_pos d.this.element_pos, d.shifted_bit_pos - d.this.bit_pos)
        else if d.this.bit_pos > d.shifted_bit_pos then
          (subw 64 (subw 64 d.shifted_element_pos d.this.element_pos) 1,
            64 + d.shifted_bit_pos - d.this.bit_pos)
        else (subw 64 d.shifted_element_pos d.this.element_pos, 0)) = (g / 64, g % 64) ∧
      64 * (g / 64) + g % 64 = g ∧ g % 64 < 64 := by
    have e1 : subw 64 d.shifted_element_pos d.this.element_pos = d.shifted_element_pos - d.this.element_pos :=
      subw_of_le (by omega) (by omega)
    rw [e1]
    refine ⟨?_, by omega, by omega⟩
    split
    · rw [Prod.mk.injEq]; omega
    · split
      · rw [subw_of_le (b := 1) (by omega) (by omega), Prod.mk.injEq]; omega
      · rw [Prod.mk.injEq]; omega
  unfold realign
  simp only [heq]
  have hnec : wrap 64 (wrap 64 (g / 64 * 64) + g % 64) = g := by
    rw [wrap_of_lt (n := g / 64 * 64) (by omega), wrap_of_lt (by omega)]; omega
  rw [hnec, htot]
  by_cases hcase : t < g
  · left
    exact ⟨hcase, by rw [if_pos hcase]⟩
  · right
    refine ⟨by omega, ?_⟩
    rw [if_neg hcase]
    generalize hbase : (t - g) / 64 = base at *
    have hbp : base ≤ d.this.element_pos := by omega
    have hps : d.this.element_pos + g / 64 ≤ d.shifted_element_pos := by omega
    -- whole elements
    obtain ⟨l1, a1, a2, a3, a4, a5, a6⟩ : ∃ l1, (if g / 64 ≠ 0 then
          shift_elements (g / 64) (d.this.element_pos + 1 - base) base d.shifted
        else .ok d.shifted : Exec (List (Option Nat))) = .ok l1 ∧ l1.length = d.shifted.length ∧
        (∀ i, Def d.shifted i → Def l1 i) ∧
        (∀ i, base ≤ i → i ≤ d.this.element_pos → el (filled l1) i = el (filled d.shifted) (i + g / 64)) ∧
        (∀ i, i < base ∨ d.this.element_pos < i → el (filled l1) i = el (filled d.shifted) i) ∧ Lim (filled l1) := by
      by_cases h0 : g / 64 = 0
      · rw [if_neg (by simpa using h0), h0]
        exact ⟨_, rfl, rfl, fun _ => id, fun _ _ _ => rfl, fun _ _ => rfl, hsh.lim⟩
      · rw [if_pos h0]
        obtain ⟨l1, e1, e2, e3, e4, e5, e6⟩ := shift_elements_spec (off := g / 64) (by omega)
          (d.this.element_pos + 1 - base) base d.shifted (by omega) (fun i h h' => hsh.def_ _ (by omega)) hsh.lim
        exact ⟨l1, e1, e2, e3, fun i h h' => (e4 i h (by omega)).1, fun i h => e5 i (by omega), e6⟩
    rw [a1]
    simp only [Exec.ok_bind]
    -- the remaining digits
    obtain ⟨l2, b1, b2, b3, b4, b5, b6⟩ : ∃ l2, (if g % 64 ≠ 0 then do
          shift_ok (g % 64)
          let s ← shift_down_loop (g % 64) (d.shifted_element_pos - base) base l1
          let top ← rdu s d.shifted_element_pos
          wru s d.shifted_element_pos (top / 2 ^ (g % 64))
        else .ok l1 : Exec (List (Option Nat))) = .ok l2 ∧ l2.length = l1.length ∧
        (∀ i, Def l1 i → Def l2 i) ∧
        (∀ i, base ≤ i → i ≤ d.this.element_pos → el (filled l2) i = el (filled l1) i / 2 ^ (g % 64) |||
          wrap 64 ((if i < d.shifted_element_pos then el (filled l1) (i + 1) else 0) * 2 ^ (64 - g % 64))) ∧
        (∀ i, i < base → el (filled l2) i = el (filled l1) i) ∧ Lim (filled l2) := by
      by_cases h0 : g % 64 = 0
      · rw [if_neg (by simpa using h0), h0]
        refine ⟨_, rfl, rfl, fun _ => id, fun i _ _ => ?_, fun _ _ => rfl, a6⟩
        rw [show ∀ x, wrap 64 (x * 2 ^ (64 - 0)) = 0 from fun x => by unfold wrap; simp]
        simp
      · rw [if_pos h0, show shift_ok (g % 64) = .ok () by unfold shift_ok; rw [if_pos (by omega)]]
        simp only [Exec.ok_bind]
        obtain ⟨l2, e1, e2, e3, e4, e5, e6⟩ := shift_down_els (s := g % 64) (d.shifted_element_pos - base) base l1
          (by omega) (fun i h h' => a3 i (hsh.def_ i (by omega))) a6
        have hl2 : d.shifted_element_pos < l2.length := by omega
        have hl2' : d.shifted_element_pos < (filled l2).length := by rw [filled_length]; exact hl2
        rw [e1]
        simp only [Exec.ok_bind, rdu_eq (e3 _ (a3 _ (hsh.def_ _ hsp))), wru_eq hl2]
        refine ⟨_, rfl, by simpa using e2, fun i h => def_set hl2 (Or.inr (e3 i h)), ?_, ?_, ?_⟩
        · intro i h h'
          rw [filled_set, el_set hl2']
          split
          · rename_i hh
            rw [hh, e5 _ (by omega), if_neg (by omega), Nat.zero_mul]
            simp [wrap]
          · rw [e4 i h (by omega), if_pos (by omega)]
        · intro i h
          rw [filled_set, el_set hl2', if_neg (by omega), e5 i (by omega)]
        · rw [filled_set]
          exact e6.set hl2' (lt_of_le_of_lt (Nat.div_le_self _ _) (e6 _))
    rw [b1]
    have hdN : ∀ i, d.shifted_element_pos < i → dg N i = 0 := by
      intro i hi
      unfold dg
      rw [Nat.div_eq_of_lt (lt_of_lt_of_le (bitLength_lt N) (Nat.pow_le_pow_right (by norm_num) (by omega)))]
      rfl
    refine ⟨l2, rfl, by omega, ⟨by omega, fun i hi => b3 i (a3 i (hsh.def_ i (by omega))), ?_, ?_, b6⟩⟩
    · intro i hi
      by_cases hib : i < base
      · rw [b5 i hib, a5 i (by omega), hsh.dig i (by omega), (hlow i hib).1]
        symm
        rw [dg_realigned (by omega), if_pos (by omega)]
        have := @shr_digit (N / 2 ^ (64 * (g / 64))) i (g % 64) (by omega)
        have e : ∀ k, dg (N / 2 ^ (64 * (g / 64))) k = dg N (k + g / 64) := by
          intro k
          unfold dg
          rw [Nat.div_div_eq_div_mul, ← pow_add]
          congr 3; ring
        rw [e, e, Nat.div_div_eq_div_mul, ← pow_add, hes, (hlow i hib).2,
          show i + 1 + g / 64 = i + g / 64 + 1 by omega] at this
        exact this
      · rw [b4 i (by omega) hi, dg_realigned (by omega), a4 i (by omega) hi, hsh.dig _ (by omega), htop]
        congr 3
        by_cases h1 : i < d.this.element_pos
        · rw [if_pos (by omega), if_pos h1, a4 (i + 1) (by omega) (by omega), hsh.dig _ (by omega)]
          congr 1; omega
        · rw [if_neg h1]
          split
          · rw [a5 (i + 1) (by omega), hsh.dig _ (by omega)]
          · rw [hdN (i + 1) (by omega)]
    · rw [← htop]; exact realigned_lt

end Big
end Grisu
