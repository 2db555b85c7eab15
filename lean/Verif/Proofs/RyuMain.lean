import Verif.Proofs.RyuFloat
import Verif.Proofs.Unique

/-!
# Ryu: the decimal that is computed
-/

namespace Grisu.Ryu

open Spec

/-- `mmShift` -/
def shiftOf (F : Fmt) (m : Nat) : Nat := if Closer F m then 0 else 1

theorem shiftOf_le (F : Fmt) (m : Nat) : shiftOf F m ≤ 1 := by unfold shiftOf; split <;> omega

theorem sg_pos {F : Fmt} {m : Nat} (h : 0 < m) : 0 < sg F m := by
  unfold sg
  split
  · rename_i h0
    have := Nat.div_add_mod m (2 ^ mantBits F)
    rw [h0] at this
    omega
  · positivity

theorem sg_parity (F : Fmt) (m : Nat) : sg F m % 2 = m % 2 := by
  have : 2 ∣ 2 ^ mantBits F := by cases F <;> decide
  unfold sg
  split
  · exact Nat.mod_mod_of_dvd _ this
  · rw [Nat.add_mod, Nat.mod_mod_of_dvd _ this, Nat.mod_eq_zero_of_dvd this, zero_add, Nat.mod_mod]

/-- The rounding interval, scaled. -/
theorem in_iff {F : Fmt} {m A B : Nat} {e10 : Int} (h0 : 0 < m) (h1 : m < infPattern F)
    (hsc : (A : ℚ) / B * 10 ^ e10 = 2 ^ (ex F m - 2)) (v : ℚ) :
    Nearest F PrefEven (v * 10 ^ e10) m ↔
      In (((4 * sg F m - 1 - shiftOf F m) * A : Nat) / B) (((4 * sg F m + 2) * A : Nat) / B)
        (decide (sg F m % 2 = 0)) v := by
  have hp : (0 : ℚ) < 10 ^ e10 := ten_zpow_pos e10
  have hsg := sg_pos (F := F) h0
  have hs := shiftOf_le F m
  have h2 : (2 : ℚ) ^ ex F m = 4 * ((A : ℚ) / B * 10 ^ e10) := by
    rw [hsc, zpow_sub₀ (by norm_num)]
    norm_num
    ring
  have eL : (value F (m - 1) + value F m) / 2 = (((4 * sg F m - 1 - shiftOf F m) * A : Nat) : ℚ) / B * 10 ^ e10 := by
    have hc : (((4 * sg F m - 1 - shiftOf F m) * A : Nat) : ℚ) = (4 * sg F m - 1 - shiftOf F m) * A := by
      rw [Nat.sub_sub, Nat.cast_mul, Nat.cast_sub (by omega)]; push_cast; ring
    rw [hc, value_eq m]
    by_cases hcl : Closer F m
    · rw [value_pred_closer hcl, h2]
      unfold shiftOf
      rw [if_pos hcl]
      push_cast
      ring
    · rw [value_pred_generic h0 hcl, h2]
      unfold shiftOf
      rw [if_neg hcl]
      push_cast
      ring
  have eU : (value F m + value F (m + 1)) / 2 = (((4 * sg F m + 2) * A : Nat) : ℚ) / B * 10 ^ e10 := by
    rw [value_succ, value_eq m, h2]
    push_cast
    ring
  rw [nearest_iff h0 h1, eL, eU]
  unfold In PrefEven
  rw [mul_lt_mul_iff_left₀ hp, mul_lt_mul_iff_left₀ hp, mul_left_inj' hp.ne', mul_left_inj' hp.ne', sg_parity,
    decide_eq_true_iff]

theorem scale_eq {e : Int} {q : Nat} (hq : q ≤ e.natAbs) :
    (num e q : ℚ) / den e q * 10 ^ (if 0 ≤ e then (q : Int) else q + e) = 2 ^ e := by
  unfold num den
  by_cases h : 0 ≤ e
  · rw [if_pos h, if_pos h, if_pos h]
    obtain ⟨n, rfl⟩ := Int.eq_ofNat_of_zero_le h
    simp only [Int.toNat_natCast, Int.natAbs_natCast, zpow_natCast] at hq ⊢
    obtain ⟨k, rfl⟩ := Nat.exists_eq_add_of_le hq
    rw [Nat.add_sub_cancel_left, show (10 : ℚ) = 2 * 5 by norm_num, mul_pow]
    push_cast
    rw [pow_add]
    field_simp
  · rw [if_neg h, if_neg h, if_neg h]
    obtain ⟨n, rfl⟩ : ∃ n : Nat, e = -(n : Int) := ⟨(-e).toNat, by omega⟩
    simp only [neg_neg, Int.toNat_natCast, Int.natAbs_neg, Int.natAbs_natCast] at hq ⊢
    obtain ⟨k, rfl⟩ := Nat.exists_eq_add_of_le hq
    rw [Nat.add_sub_cancel_left, show ((q : Int) + -((q + k : Nat) : Int)) = -(k : Int) by push_cast; ring, zpow_neg,
      zpow_neg, zpow_natCast, zpow_natCast, show (10 : ℚ) = 2 * 5 by norm_num, mul_pow, pow_add]
    push_cast
    field_simp

/-- Steps 3 and 4 together. -/
theorem of_init {F : Fmt} {m q R M P last0 out r : Nat} {f0 z0 : Bool} (h0 : 0 < m) (h1 : m < infPattern F)
    (hq : q ≤ (ex F m - 2).natAbs)
    (hI : Init (num (ex F m - 2) q) (den (ex F m - 2) q) (sg F m) (shiftOf F m) R M P (decide (sg F m % 2 = 0))
      f0 z0 last0) (h4 : Step4 R M P last0 f0 z0 out r) :
    Output (fun v => Nearest F PrefEven v m) out ((if 0 ≤ ex F m - 2 then (q : Int) else q + (ex F m - 2)) + r) ∧
    ClosestAt (fun v => Nearest F PrefEven v m) (value F m) .tie_to_even out
      ((if 0 ≤ ex F m - 2 then (q : Int) else q + (ex F m - 2)) + r) := by
  have hsc := scale_eq hq
  have hX : value F m = ((4 * sg F m * num (ex F m - 2) q : Nat) : ℚ) / den (ex F m - 2) q *
      10 ^ (if 0 ≤ ex F m - 2 then (q : Int) else q + (ex F m - 2)) := by
    have h2 : (2 : ℚ) ^ ex F m = 4 * 2 ^ (ex F m - 2) := by
      rw [zpow_sub₀ (by norm_num)]; norm_num; ring
    rw [value_eq, h2, ← hsc]
    push_cast
    ring
  rw [hX]
  exact hI.core.output h4.1 h4.2.1 h4.2.2 (in_iff h0 h1 hsc)

theorem Init.M_pos {A B m s R M P : Nat} {acc f0 z0 : Bool} {last0 : Nat} (h : Init A B m s R M P acc f0 z0 last0) :
    0 < M := by
  have := h.B_pos
  have := h.m_pos
  have := h.s_le
  rw [h.M_eq]
  apply Nat.div_pos _ h.B_pos
  exact le_trans h.B_le (Nat.le_mul_of_pos_left _ (by omega))

theorem Init.bounds {A B m s R M P k N : Nat} {acc f0 z0 : Bool} {last0 : Nat}
    (h : Init A B m s R M P acc f0 z0 last0) (hA : A < k * B) (hm : 4 * m + 2 ≤ N) :
    R ≤ k * N ∧ M ≤ k * N ∧ P ≤ k * N := by
  have h1 := floor_lt (n := 4 * m) h.B_pos hA (by omega : 4 * m ≤ N)
  have h2 := floor_lt (n := 4 * m - 1 - s) h.B_pos hA (by omega : 4 * m - 1 - s ≤ N)
  have h3 := floor_lt h.B_pos hA hm
  refine ⟨h.R_eq ▸ h1, h.M_eq ▸ h2, ?_⟩
  rcases h.P_eq with p | p
  · rw [p.1]; exact h3
  · rw [p.1]; omega

/-! ## Double precision -/

theorem m2_eq {m k : Nat} : (if m / 2 ^ k = 0 then m % 2 ^ k else 2 ^ k ||| m % 2 ^ k) =
    (if m / 2 ^ k = 0 then m % 2 ^ k else 2 ^ k + m % 2 ^ k) := by
  split
  · rfl
  · have := Nat.two_pow_add_eq_or_of_lt (Nat.mod_lt m (show 0 < 2 ^ k by positivity)) 1
    rw [mul_one] at this
    exact this.symm

theorem d2d_spec (c : Config) {m : Nat} (h0 : 0 < m) (h1 : m < infPattern .b64) :
    ∃ s t, d2d c (m % 2 ^ 52) (m / 2 ^ 52) = .ok ⟨s, t⟩ ∧ Output (fun v => Nearest .b64 PrefEven v m) s t ∧
      ClosestAt (fun v => Nearest .b64 PrefEven v m) (value .b64 m) .tie_to_even s t := by
  have h1' : m < 0x7ff0000000000000 := h1
  have he2 : (if m / 2 ^ 52 = 0 then 1 - 1023 - 52 - 2 else ((m / 2 ^ 52 : Nat) : Int) - 1023 - 52 - 2) =
      ex .b64 m - 2 := by
    unfold ex ulpExp mantBits
    dsimp only
    split
    · norm_num
    · push_cast [Nat.cast_sub (show 1 ≤ m / 2 ^ 52 by omega)]
      omega
  have hm2 : (if m / 2 ^ 52 = 0 then m % 2 ^ 52 else 2 ^ 52 ||| m % 2 ^ 52) = sg .b64 m := m2_eq
  have hsh : (if m % 2 ^ 52 ≠ 0 ∨ m / 2 ^ 52 ≤ 1 then 1 else 0) = shiftOf .b64 m := by
    unfold shiftOf
    have hc : Closer .b64 m ↔ m % 2 ^ 52 = 0 ∧ 2 ≤ m / 2 ^ 52 := Iff.rfl
    by_cases h : Closer .b64 m
    · rw [if_pos h, if_neg (by rw [hc] at h; omega)]
    · rw [if_neg h, if_pos (by rw [hc] at h; omega)]
  have hacc : decide (sg .b64 m &&& 1 = 0) = decide (sg .b64 m % 2 = 0) := by rw [Nat.and_one_is_mod]
  have hr : -1076 ≤ ex .b64 m - 2 ∧ ex .b64 m - 2 ≤ 970 := by
    rw [← he2]
    split <;> omega
  have hsg0 := sg_pos (F := .b64) h0
  have hsg : sg .b64 m < 2 ^ 53 := by
    unfold sg mantBits
    dsimp only
    split <;> omega
  have hedge : shiftOf .b64 m = 0 → sg .b64 m = 2 ^ 52 := by
    intro h
    have hcl : Closer .b64 m := by
      by_contra hc
      unfold shiftOf at h
      rw [if_neg hc] at h
      omega
    unfold Closer mantBits at hcl
    unfold sg mantBits
    dsimp only at hcl ⊢
    rw [if_neg (by omega), hcl.1, Nat.add_zero]
  obtain ⟨b, d, -, -, -, -, -, -, -, -, f9, f10⟩ := dFacts hr.1 hr.2
  have step3 : ∃ R M P f0 z0, (if ex .b64 m - 2 ≥ 0 then
        d_step3_pos c (sg .b64 m) (ex .b64 m - 2) (shiftOf .b64 m) (decide (sg .b64 m % 2 = 0))
      else d_step3_neg c (sg .b64 m) (ex .b64 m - 2) (shiftOf .b64 m) (decide (sg .b64 m % 2 = 0))) =
      .ok (⟨R, P, M, f0, z0, 0, 0⟩, if 0 ≤ ex .b64 m - 2 then (dq (ex .b64 m - 2) : Int)
        else dq (ex .b64 m - 2) + (ex .b64 m - 2)) ∧
      Init (num (ex .b64 m - 2) (dq (ex .b64 m - 2))) (den (ex .b64 m - 2) (dq (ex .b64 m - 2))) (sg .b64 m)
        (shiftOf .b64 m) R M P (decide (sg .b64 m % 2 = 0)) f0 z0 0 := by
    by_cases h : 0 ≤ ex .b64 m - 2
    · rw [if_pos h, if_pos h]
      exact d_step3_pos_spec c hsg0 hsg (shiftOf_le _ _) hedge rfl h hr.2
    · rw [if_neg h, if_neg h]
      exact d_step3_neg_spec c hsg0 hsg (shiftOf_le _ _) hedge hr.1 (by omega)
  obtain ⟨R, M, P, f0, z0, s1, hI⟩ := step3
  obtain ⟨b1, b2, b3⟩ := hI.bounds f9 (show 4 * sg .b64 m + 2 ≤ 2 ^ 55 by omega)
  obtain ⟨out, r, s2, s3⟩ := d_step4_spec (R := R) (M := M) (P := P) (z0 := z0) c (by omega) (by omega) (by omega)
    (fun h => ⟨(hI.f0_imp h).1, hI.M_pos⟩)
  refine ⟨out, _, ?_, of_init h0 h1 f10 hI s3⟩
  unfold d2d
  dsimp only
  rw [he2, hm2, hsh, hacc]
  split
  · rename_i h
    rw [if_pos h, if_pos h] at s1
    rw [s1, Exec.ok_bind]
    dsimp only
    rw [s2, Exec.ok_bind]
  · rename_i h
    rw [if_neg h, if_neg h] at s1
    rw [s1, Exec.ok_bind]
    dsimp only
    rw [s2, Exec.ok_bind]

/-! ## Single precision -/

theorem f2d_spec (c : Config) {m : Nat} (h0 : 0 < m) (h1 : m < infPattern .b32) :
    ∃ s t, f2d c (m % 2 ^ 23) (m / 2 ^ 23) = .ok ⟨s, t⟩ ∧ Output (fun v => Nearest .b32 PrefEven v m) s t ∧
      ClosestAt (fun v => Nearest .b32 PrefEven v m) (value .b32 m) .tie_to_even s t := by
  have h1' : m < 0x7f800000 := h1
  have he2 : (if m / 2 ^ 23 = 0 then 1 - 127 - 23 - 2 else ((m / 2 ^ 23 : Nat) : Int) - 127 - 23 - 2) =
      ex .b32 m - 2 := by
    unfold ex ulpExp mantBits
    dsimp only
    split
    · norm_num
    · push_cast [Nat.cast_sub (show 1 ≤ m / 2 ^ 23 by omega)]
      omega
  have hm2 : (if m / 2 ^ 23 = 0 then m % 2 ^ 23 else 2 ^ 23 ||| m % 2 ^ 23) = sg .b32 m := m2_eq
  have hsh : (if m % 2 ^ 23 ≠ 0 ∨ m / 2 ^ 23 ≤ 1 then 1 else 0) = shiftOf .b32 m := by
    unfold shiftOf
    have hc : Closer .b32 m ↔ m % 2 ^ 23 = 0 ∧ 2 ≤ m / 2 ^ 23 := Iff.rfl
    by_cases h : Closer .b32 m
    · rw [if_pos h, if_neg (by rw [hc] at h; omega)]
    · rw [if_neg h, if_pos (by rw [hc] at h; omega)]
  have hacc : decide (sg .b32 m &&& 1 = 0) = decide (sg .b32 m % 2 = 0) := by rw [Nat.and_one_is_mod]
  have hr : -151 ≤ ex .b32 m - 2 ∧ ex .b32 m - 2 ≤ 102 := by
    rw [← he2]
    split <;> omega
  have hsg0 := sg_pos (F := .b32) h0
  have hsg : sg .b32 m < 2 ^ 24 := by
    unfold sg mantBits
    dsimp only
    split <;> omega
  have hcl : shiftOf .b32 m = 0 → m % 2 ^ 23 = 0 ∧ 2 ≤ m / 2 ^ 23 := by
    intro h
    by_contra hc
    unfold shiftOf at h
    rw [if_neg (show ¬ Closer .b32 m from hc)] at h
    omega
  have hedge : shiftOf .b32 m = 0 → sg .b32 m = 2 ^ 23 := by
    intro h
    have := hcl h
    unfold sg mantBits
    dsimp only
    rw [if_neg (by omega), this.1, Nat.add_zero]
  have hmin : ex .b32 m - 2 = -151 → shiftOf .b32 m = 1 := by
    intro h
    by_contra hc
    have h2 := (hcl (by have := shiftOf_le .b32 m; omega)).2
    rw [← he2, if_neg (by omega)] at h
    omega
  obtain ⟨v, b, d, -, -, -, -, -, -, f9, f10⟩ := fFacts c.floatTable hr.1 hr.2
  have step3 : ∃ R M P f0 z0 last, (if ex .b32 m - 2 ≥ 0 then
        f_step3_pos c (sg .b32 m) (ex .b32 m - 2) (shiftOf .b32 m) (decide (sg .b32 m % 2 = 0))
      else f_step3_neg c (sg .b32 m) (ex .b32 m - 2) (shiftOf .b32 m) (decide (sg .b32 m % 2 = 0))) =
      .ok (⟨R, P, M, f0, z0, last, 0⟩, if 0 ≤ ex .b32 m - 2 then (fq (ex .b32 m - 2) : Int)
        else fq (ex .b32 m - 2) + (ex .b32 m - 2)) ∧
      Init (num (ex .b32 m - 2) (fq (ex .b32 m - 2))) (den (ex .b32 m - 2) (fq (ex .b32 m - 2))) (sg .b32 m)
        (shiftOf .b32 m) R M P (decide (sg .b32 m % 2 = 0)) f0 z0 last := by
    by_cases h : 0 ≤ ex .b32 m - 2
    · rw [if_pos h, if_pos h]
      exact f_step3_pos_spec c hsg0 hsg (shiftOf_le _ _) hedge h hr.2
    · rw [if_neg h, if_neg h]
      exact f_step3_neg_spec c hsg0 hsg (shiftOf_le _ _) hmin hr.1 (by omega)
  obtain ⟨R, M, P, f0, z0, last, s1, hI⟩ := step3
  obtain ⟨b1, b2, b3⟩ := hI.bounds f9 (show 4 * sg .b32 m + 2 ≤ 2 ^ 26 by omega)
  obtain ⟨out, r, s2, s3⟩ := f_step4_spec (R := R) (M := M) (P := P) (z0 := z0) (last0 := last) (by omega) (by omega)
    (by omega) (fun h => ⟨(hI.f0_imp h).1, hI.M_pos⟩)
  refine ⟨out, _, ?_, of_init h0 h1 f10 hI s3⟩
  unfold f2d
  dsimp only
  rw [he2, hm2, hsh, hacc]
  split
  · rename_i h
    rw [if_pos h, if_pos h] at s1
    rw [s1, Exec.ok_bind]
    dsimp only
    rw [s2, Exec.ok_bind]
  · rename_i h
    rw [if_neg h, if_neg h] at s1
    rw [s1, Exec.ok_bind]
    dsimp only
    rw [s2, Exec.ok_bind]

end Grisu.Ryu
