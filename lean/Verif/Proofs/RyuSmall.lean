import Verif.Model.RyuSmall
import Mathlib.Tactic.NormNum
import Mathlib.Tactic.IntervalCases

/-! # The functions on Ryu's small tables, evaluated at every index inside the tables -/

namespace Grisu.Ryu

/-- The value of a returned pair of words. -/
def words (w : Nat × Nat) : Nat := w.1 + 2 ^ 64 * w.2

/-- What the evaluations check at an index: the call returns two words of 64 bits, `short` below `want`. -/
def small_ok (r : Exec (Nat × Nat)) (want short : Nat) : Bool :=
  match r with
  | .ok w => decide (w.1 < 2 ^ 64) && decide (w.2 < 2 ^ 64) && decide (words w + short = want)
  | .fault _ => false

theorem small_ok_iff {r : Exec (Nat × Nat)} {want short : Nat} (h : small_ok r want short = true) :
    ∃ w, r = .ok w ∧ w.1 < 2 ^ 64 ∧ w.2 < 2 ^ 64 ∧ words w + short = want := by
  unfold small_ok at h
  split at h
  · rename_i w
    simp only [Bool.and_eq_true, decide_eq_true_eq] at h
    exact ⟨w, rfl, h.1.1, h.1.2, h.2⟩
  · simp at h

/-- The indices inside the table at which `double_computePow5` is one short. -/
def shortPow : List Nat := [326, 327, 329, 332, 334, 335, 336, 337]

/-- The indices inside the table at which `double_computeInvPow5` is one short. -/
def shortInv : List Nat :=
  [292, 293, 294, 295, 296, 297, 299, 300, 301, 302, 303, 304, 305, 306, 307, 309, 310, 311]

/-- Is the index in the list? -/
def isShort (l : List Nat) (i : Nat) : Nat := if i ∈ l then 1 else 0

/-- The leading 121 bits of `5^i`. -/
def pow_want (i : Nat) : Nat := 5 ^ i * 2 ^ 121 / 2 ^ (Nat.log2 (5 ^ i) + 1)

/-- The 122-bit reciprocal of `5^i`. -/
def inv_want (i : Nat) : Nat := 2 ^ (Nat.log2 (5 ^ i) + 122) / 5 ^ i + 1

theorem pow_config (m : Mul64) (b f n : Bool) (i : Nat) :
    double_computePow5 ⟨m, b, f, n⟩ i = double_computePow5 ⟨m, false, false, n⟩ i := rfl

theorem inv_config (m : Mul64) (b f n : Bool) (i : Nat) :
    double_computeInvPow5 ⟨m, b, f, n⟩ i = double_computeInvPow5 ⟨m, false, false, n⟩ i := rfl

set_option maxRecDepth 10000 in
theorem pow_uint128_false : ((List.range 338).all fun i =>
    small_ok (double_computePow5 ⟨.uint128, false, false, false⟩ i) (pow_want i) (isShort shortPow i)) = true := by decide +kernel

set_option maxRecDepth 10000 in
theorem pow_uint128_true : ((List.range 338).all fun i =>
    small_ok (double_computePow5 ⟨.uint128, false, false, true⟩ i) (pow_want i) (isShort shortPow i)) = true := by decide +kernel

set_option maxRecDepth 10000 in
theorem pow_intrinsics_false : ((List.range 338).all fun i =>
    small_ok (double_computePow5 ⟨.intrinsics, false, false, false⟩ i) (pow_want i) (isShort shortPow i)) = true := by decide +kernel

set_option maxRecDepth 10000 in
theorem pow_intrinsics_true : ((List.range 338).all fun i =>
    small_ok (double_computePow5 ⟨.intrinsics, false, false, true⟩ i) (pow_want i) (isShort shortPow i)) = true := by decide +kernel

set_option maxRecDepth 10000 in
theorem pow_portable_false : ((List.range 338).all fun i =>
    small_ok (double_computePow5 ⟨.portable, false, false, false⟩ i) (pow_want i) (isShort shortPow i)) = true := by decide +kernel

set_option maxRecDepth 10000 in
theorem pow_portable_true : ((List.range 338).all fun i =>
    small_ok (double_computePow5 ⟨.portable, false, false, true⟩ i) (pow_want i) (isShort shortPow i)) = true := by decide +kernel

theorem pow_table (c : Config) :
    ((List.range 338).all fun i => small_ok (double_computePow5 c i) (pow_want i) (isShort shortPow i)) = true := by
  obtain ⟨m, b, f, n⟩ := c
  simp only [pow_config m b f n]
  cases m <;> cases n
  · exact pow_uint128_false
  · exact pow_uint128_true
  · exact pow_intrinsics_false
  · exact pow_intrinsics_true
  · exact pow_portable_false
  · exact pow_portable_true

set_option maxRecDepth 10000 in
theorem inv_uint128_false : ((List.range 313).all fun i =>
    small_ok (double_computeInvPow5 ⟨.uint128, false, false, false⟩ i) (inv_want i) (isShort shortInv i)) = true := by decide +kernel

set_option maxRecDepth 10000 in
theorem inv_uint128_true : ((List.range 313).all fun i =>
    small_ok (double_computeInvPow5 ⟨.uint128, false, false, true⟩ i) (inv_want i) (isShort shortInv i)) = true := by decide +kernel

set_option maxRecDepth 10000 in
theorem inv_intrinsics_false : ((List.range 313).all fun i =>
    small_ok (double_computeInvPow5 ⟨.intrinsics, false, false, false⟩ i) (inv_want i) (isShort shortInv i)) = true := by decide +kernel

set_option maxRecDepth 10000 in
theorem inv_intrinsics_true : ((List.range 313).all fun i =>
    small_ok (double_computeInvPow5 ⟨.intrinsics, false, false, true⟩ i) (inv_want i) (isShort shortInv i)) = true := by decide +kernel

set_option maxRecDepth 10000 in
theorem inv_portable_false : ((List.range 313).all fun i =>
    small_ok (double_computeInvPow5 ⟨.portable, false, false, false⟩ i) (inv_want i) (isShort shortInv i)) = true := by decide +kernel

set_option maxRecDepth 10000 in
theorem inv_portable_true : ((List.range 313).all fun i =>
    small_ok (double_computeInvPow5 ⟨.portable, false, false, true⟩ i) (inv_want i) (isShort shortInv i)) = true := by decide +kernel

theorem inv_table (c : Config) :
    ((List.range 313).all fun i => small_ok (double_computeInvPow5 c i) (inv_want i) (isShort shortInv i)) = true := by
  obtain ⟨m, b, f, n⟩ := c
  simp only [inv_config m b f n]
  cases m <;> cases n
  · exact inv_uint128_false
  · exact inv_uint128_true
  · exact inv_intrinsics_false
  · exact inv_intrinsics_true
  · exact inv_portable_false
  · exact inv_portable_true

theorem pow_at (c : Config) {i : Nat} (h : i < 338) : ∃ w, double_computePow5 c i = .ok w ∧ w.1 < 2 ^ 64 ∧
    w.2 < 2 ^ 64 ∧ words w + isShort shortPow i = pow_want i :=
  small_ok_iff (List.all_eq_true.mp (pow_table c) i (List.mem_range.mpr h))

theorem inv_at (c : Config) {i : Nat} (h : i < 313) : ∃ w, double_computeInvPow5 c i = .ok w ∧ w.1 < 2 ^ 64 ∧
    w.2 < 2 ^ 64 ∧ words w + isShort shortInv i = inv_want i :=
  small_ok_iff (List.all_eq_true.mp (inv_table c) i (List.mem_range.mpr h))

theorem at_none {α : Type} {l : List α} {i : Nat} (h : l.length ≤ i) : at_ l i = .fault .outOfBounds := by
  unfold at_
  rw [List.getElem?_eq_none h]

theorem pow_fault (c : Config) {i : Nat} (h : 338 ≤ i) : double_computePow5 c i = .fault .outOfBounds := by
  unfold double_computePow5
  have : at_ DOUBLE_POW5_SPLIT2 (i / POW5_TABLE_SIZE) = .fault .outOfBounds := by
    apply at_none
    show 13 ≤ i / 26
    omega
  simp only [this]
  rfl

/-- A run that is not a fault. -/
def ran (r : Exec (Nat × Nat)) : Bool := match r with | .ok _ => true | .fault _ => false

theorem inv_wrapped (c : Config) : ((List.range 25).all fun j => !ran (double_computeInvPow5 c (2 ^ 32 - 25 + j))) = true := by
  obtain ⟨m, b, f, n⟩ := c
  simp only [inv_config m b f n]
  cases m <;> cases n <;> decide +kernel

theorem inv_fault (c : Config) {i : Nat} (hi : i < 2 ^ 32) (h : 313 ≤ i) : ran (double_computeInvPow5 c i) = false := by
  by_cases hw : i < 2 ^ 32 - 25
  · unfold double_computeInvPow5
    have : at_ DOUBLE_POW5_INV_SPLIT2 (subw 32 (wrap 32 (i + POW5_TABLE_SIZE)) 1 / POW5_TABLE_SIZE) =
        .fault .outOfBounds := by
      apply at_none
      show 13 ≤ _
      unfold subw wrap POW5_TABLE_SIZE
      norm_num at hw ⊢
      omega
    simp only [this]
    rfl
  · have := List.all_eq_true.mp (inv_wrapped c) (i - (2 ^ 32 - 25)) (List.mem_range.mpr (by norm_num at hi hw ⊢; omega))
    have e : 2 ^ 32 - 25 + (i - (2 ^ 32 - 25)) = i := by norm_num at hi hw ⊢; omega
    rw [e] at this
    simpa using this

end Grisu.Ryu
