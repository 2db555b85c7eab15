import Verif.Model.Ryu
import Verif.Proofs.ExpTable

/-!
# Ryu: facts about one binary exponent

`DFacts` and `FFacts`, `GFacts` are decidable facts about the binary exponent `e2`: the table entry that is used and its
precision.  The kernel evaluates them for every exponent (`RyuCerts64.lean`, `RyuCerts32.lean`).
-/

namespace Grisu.Ryu

/-- `pow5bits` -/
def p5b (n : Nat) : Nat := n * 1217359 / 2 ^ 19 + 1

/-- `q` of `f2d`. -/
def fq (e : Int) : Nat := if 0 ≤ e then e.toNat * 78913 / 2 ^ 18 else (-e).toNat * 732923 / 2 ^ 20

/-- `q` of `d2d`. -/
def dq (e : Int) : Nat := fq e - (if e > 3 ∨ e < -1 then 1 else 0)

/-- Numerator of the scale. -/
def num (e : Int) (q : Nat) : Nat := if 0 ≤ e then 2 ^ (e.toNat - q) else 5 ^ ((-e).toNat - q)

/-- Denominator of the scale. -/
def den (e : Int) (q : Nat) : Nat := if 0 ≤ e then 5 ^ q else 2 ^ q

/-! ## Double precision -/

/-- The table that is read. -/
def dTable (e : Int) : List (Nat × Nat) := if 0 ≤ e then DOUBLE_POW5_INV_SPLIT else DOUBLE_POW5_SPLIT

/-- The index. -/
def dIndex (e : Int) (q : Nat) : Nat := if 0 ≤ e then q else (-e).toNat - q

/-- The entry, as one number. -/
def dEntry (e : Int) (q : Nat) : Nat :=
  match (dTable e)[dIndex e q]? with
  | some t => t.2 * 2 ^ 64 + t.1
  | none => 0

/-- The shift distance. -/
def dShift (e : Int) (q : Nat) : Nat :=
  if 0 ≤ e then 124 + p5b q + q - e.toNat else q + 125 - p5b ((-e).toNat - q)

def DFacts (e : Int) (q A B j c b d : Nat) : Prop :=
  (dTable e)[dIndex e q]? = some (c % 2 ^ 64, c / 2 ^ 64) ∧ c < 2 ^ 126 ∧ 66 ≤ j ∧ j < 128 ∧
  2 ^ 53 * c / 2 ^ 64 % 2 ^ 64 ≠ 2 ^ 64 - 1 ∧ CertCheck A B c (2 ^ j) b d (2 ^ 55) ∧ B ≤ A ∧
  (q = 0 ∨ 10 * B ≤ A) ∧ A < 100 * B ∧ q ≤ e.natAbs

instance (e : Int) (q A B j c b d : Nat) : Decidable (DFacts e q A B j c b d) := by unfold DFacts; infer_instance

def dCheck (e : Int) (b d : Nat) : Bool :=
  force (dq e) fun q => force (num e q) fun A => force (den e q) fun B => force (dShift e q) fun j =>
  force (dEntry e q) fun c => decide (DFacts e q A B j c b d)

theorem dCheck_sound {e : Int} {b d : Nat} (h : dCheck e b d = true) :
    DFacts e (dq e) (num e (dq e)) (den e (dq e)) (dShift e (dq e)) (dEntry e (dq e)) b d := by
  simpa only [dCheck, force_eq, decide_eq_true_iff] using h

/-! ## Single precision -/

/-- The factor that is read at index `k`. -/
def fTable (ft inv : Bool) (k : Nat) : Option Nat :=
  if ft then (if inv then FLOAT_POW5_INV_SPLIT[k]? else FLOAT_POW5_SPLIT[k]?)
  else (if inv then DOUBLE_POW5_INV_SPLIT[k]?.map (fun t => t.2 + 1) else DOUBLE_POW5_SPLIT[k]?.map (fun t => t.2))

/-- `FLOAT_POW5_INV_BITCOUNT` -/
def invBits (ft : Bool) : Nat := if ft then 59 else 61

def fIndex (e : Int) (q : Nat) : Nat := if 0 ≤ e then q else (-e).toNat - q

def fShift (ft : Bool) (e : Int) (q : Nat) : Nat :=
  if 0 ≤ e then invBits ft - 1 + p5b q + q - e.toNat else q + 61 - p5b ((-e).toNat - q)

def FFacts (ft : Bool) (e : Int) (q A B j v b d : Nat) : Prop :=
  fTable ft (decide (0 ≤ e)) (fIndex e q) = some v ∧ v < 2 ^ 64 ∧ 32 < j ∧ j < 64 ∧
  CertCheck A B v (2 ^ j) b d (2 ^ 26) ∧ B ≤ A ∧ A < 10 * B ∧ q ≤ e.natAbs

instance (ft : Bool) (e : Int) (q A B j v b d : Nat) : Decidable (FFacts ft e q A B j v b d) := by
  unfold FFacts; infer_instance

def fCheck (ft : Bool) (e : Int) (b d : Nat) : Bool :=
  force (fq e) fun q => force (num e q) fun A => force (den e q) fun B => force (fShift ft e q) fun j =>
  force ((fTable ft (decide (0 ≤ e)) (fIndex e q)).getD 0) fun v => decide (FFacts ft e q A B j v b d)

theorem fCheck_sound {ft : Bool} {e : Int} {b d : Nat} (h : fCheck ft e b d = true) :
    FFacts ft e (fq e) (num e (fq e)) (den e (fq e)) (fShift ft e (fq e))
      ((fTable ft (decide (0 ≤ e)) (fIndex e (fq e))).getD 0) b d := by
  simpa only [fCheck, force_eq, decide_eq_true_iff] using h

/-! The digit behind the point, computed when no digit is removed. -/

def gIndex (e : Int) (q : Nat) : Nat := if 0 ≤ e then q - 1 else (-e).toNat - q + 1

def gShift (ft : Bool) (e : Int) (q : Nat) : Nat :=
  if 0 ≤ e then invBits ft - 1 + p5b (q - 1) + (q - 1) - e.toNat else q - 1 + 61 - p5b ((-e).toNat - q + 1)

def GFacts (ft : Bool) (e : Int) (q A B j v b d : Nat) : Prop :=
  q = 0 ∨ 11 * B ≤ 3 * A ∨ (e = -151 ∧ 11 * B ≤ 4 * A) ∨
  (fTable ft (decide (0 ≤ e)) (gIndex e q) = some v ∧ v < 2 ^ 64 ∧ 32 < j ∧ j < 64 ∧
    CertCheck (40 * A) B (4 * v) (2 ^ j) b d (2 ^ 24))

instance (ft : Bool) (e : Int) (q A B j v b d : Nat) : Decidable (GFacts ft e q A B j v b d) := by
  unfold GFacts; infer_instance

def gCheck (ft : Bool) (e : Int) (b d : Nat) : Bool :=
  force (fq e) fun q => force (num e q) fun A => force (den e q) fun B => force (gShift ft e q) fun j =>
  force ((fTable ft (decide (0 ≤ e)) (gIndex e q)).getD 0) fun v => decide (GFacts ft e q A B j v b d)

theorem gCheck_sound {ft : Bool} {e : Int} {b d : Nat} (h : gCheck ft e b d = true) :
    GFacts ft e (fq e) (num e (fq e)) (den e (fq e)) (gShift ft e (fq e))
      ((fTable ft (decide (0 ≤ e)) (gIndex e (fq e))).getD 0) b d := by
  simpa only [gCheck, force_eq, decide_eq_true_iff] using h

/-! ## Evaluation over a table -/

/-- Check the certificates `n = i * 2^128 + b * 2^64 + d` of the exponents `base + i`, for successive `i`. -/
def checkFrom (base : Int) (check : Int → Nat → Nat → Bool) : Nat → List Nat → Bool
  | _, [] => true
  | i, n :: l =>
    decide (n / 2 ^ 128 = i) &&
    (force (n / 2 ^ 64 % 2 ^ 64) fun b => force (n % 2 ^ 64) fun d =>
      forceInt (base + (n / 2 ^ 128 : Nat)) fun e => check e b d) &&
    checkFrom base check (n / 2 ^ 128 + 1) l

theorem checkFrom_sound (base : Int) (check : Int → Nat → Nat → Bool) : ∀ (l : List Nat) (i : Nat),
    checkFrom base check i l = true → ∀ j, i ≤ j → j < i + l.length →
    ∃ b d, check (base + (j : Nat)) b d = true := by
  intro l
  induction l with
  | nil => intro i _ j h1 h2; simp at h2; omega
  | cons n l ih =>
    intro i h j h1 h2
    simp only [checkFrom, force_eq, forceInt_eq, Bool.and_eq_true, decide_eq_true_eq] at h
    obtain ⟨⟨hi, hc⟩, hl⟩ := h
    by_cases hj : j = i
    · subst hj
      rw [hi] at hc
      exact ⟨_, _, hc⟩
    · rw [hi] at hl
      exact ih (i + 1) hl j (by omega) (by simp at h2; omega)

end Grisu.Ryu
