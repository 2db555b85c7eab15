import Verif.Model.Compute
import Verif.Proofs.Arith

/-!
# Facts about one binary exponent

`ExpCheck F e b d` collects decidable facts about the binary exponent `e`: the decimal exponent, the
cache entry used and its precision.  It is evaluated by the kernel for every exponent
(`Certs32.lean`, `Certs64*.lean`).
-/

namespace Grisu

/-- `minus_k` for the binary exponent `e`. -/
def mkOf (e : Int) : Int := log10_pow2_value (e + 6)

/-- `minus_beta` for the binary exponent `e`. -/
def mbOf (e : Int) : Int := -(e + log2_pow10_value (-mkOf e) + 1)

/-- Numerator of `2^e * 10^(-minus_k)`. -/
def phiNum (e : Int) : Nat := 2 ^ (e - mkOf e).toNat * 5 ^ (-mkOf e).toNat

/-- Denominator of `2^e * 10^(-minus_k)`. -/
def phiDen (e : Int) : Nat := 2 ^ (mkOf e - e).toNat * 5 ^ (mkOf e).toNat

/-- The unit `2^(q-p-3)`: a quarter of the distance between neighbouring significands. -/
def unit (F : Fmt) : Nat := 2 ^ (F.q - F.p - 3)

/-- The cache entry for the binary exponent `e` (0 if there is none). -/
def cacheOf (F : Fmt) (e : Int) : Nat := (cache_lookup F (-mkOf e - F.min_k).toNat).getD 0

/-- Certificate `(b, d)`: `P/B` and `Q/R` both lie in `[a/b, c/d)`, where `b*c - a*d = 1`. -/
def CertCheck (P B Q R b d N : Nat) : Prop :=
  let a := P * b / B
  let c := (a * d + 1) / b
  0 < b ∧ a * B ≤ P * b ∧ a * R ≤ Q * b ∧ P * d < c * B ∧ Q * d < c * R ∧ b * c = a * d + 1 ∧ N < b + d

instance (P B Q R b d N : Nat) : Decidable (CertCheck P B Q R b d N) := by
  unfold CertCheck; infer_instance

theorem CertCheck.floor_eq {P B Q R b d N n : Nat} (h : CertCheck P B Q R b d N) (hB : 0 < B)
    (hR : 0 < R) (hn : n ≤ N) : n * Q / R = n * P / B := by
  obtain ⟨h0, h1, h2, h3, h4, h5, h6⟩ := h
  rw [floor_eq_of_cert hB h0 h1 h3 h5 (lt_of_le_of_lt hn h6),
    floor_eq_of_cert hR h0 h2 h4 h5 (lt_of_le_of_lt hn h6)]

/-- Ranges: the argument ranges of the log functions, `beta`, the cache index, `delta`. -/
def RangeCheck (F : Fmt) (e mk mb : Int) (A B c : Nat) : Prop :=
  -642 ≤ mk ∧ mk ≤ 642 ∧
  -2 ^ 31 ≤ (e + 6) * 0x4d104 ∧ (e + 6) * 0x4d104 < 2 ^ 31 ∧
  -2 ^ 31 ≤ (-mk) * 0x35269e ∧ (-mk) * 0x35269e < 2 ^ 31 ∧
  2 ≤ mb ∧ mb ≤ 5 ∧ F.min_k ≤ -mk ∧ -mk ≤ F.max_k ∧
  cache_lookup F (-mk - F.min_k).toNat = some c ∧
  c < 2 ^ (2 * F.q) ∧
  B ≤ 64 * A ∧ 64 * A < 10 * B

instance (F : Fmt) (e mk mb : Int) (A B c : Nat) : Decidable (RangeCheck F e mk mb A B c) := by unfold RangeCheck; infer_instance

/-- Bound of the assertion in grisu_exact.h 2499-2500. -/
def maxMk1 : Fmt → Int
  | .b32 => 10
  | .b64 => 22

/-- Bound of the assertion in grisu_exact.h 2459-2460. -/
def maxMk2 : Fmt → Int
  | .b32 => 10
  | .b64 => 23

/-- The exceptional exponent of grisu_exact.h 2294-2303. -/
def exceptional : Fmt → Int
  | .b32 => 59
  | .b64 => -203

/-- Facts behind the integer tests of case `other` (grisu_exact.h 2481-2506). -/
def IntegerFacts1 (F : Fmt) (e mk : Int) : Prop :=
  (e < F.lower_bound_q_mp_m1 → mk ≤ 0 ∧ 1 ≤ mk - e) ∧
  (F.lower_bound_q_mp_m1 ≤ e → e ≤ F.max_exponent_for_k_geq_0 →
    mk ≤ 0 ∧ mk - e ≤ (F.q - F.p - 1 : Nat)) ∧
  (F.max_exponent_for_k_geq_0 < e → e ≤ F.upper_bound_p_p1 →
    1 ≤ mk ∧ mk ≤ maxMk1 F ∧ mk - e ≤ (F.q - F.p - 2 : Nat)) ∧
  (F.max_exponent_for_k_geq_0 < e → F.upper_bound_p_p1 < e →
    0 ≤ mk ∧ 2 ^ (F.p + 1) ≤ 5 ^ mk.toNat)

instance (F : Fmt) (e mk : Int) : Decidable (IntegerFacts1 F e mk) := by
  unfold IntegerFacts1
  infer_instance

/-- Facts behind the integer tests of case `fc_pm_2_to_the_q_mp_m2_generic`
(grisu_exact.h 2447-2466). -/
def IntegerFacts2 (F : Fmt) (e mk : Int) : Prop :=
  (e < F.lower_bound_q_mp_m2 → mk ≤ 0 ∧ (F.q - F.p - 1 : Nat) ≤ mk - e) ∧
  (F.lower_bound_q_mp_m2 ≤ e → e ≤ F.max_exponent_for_k_geq_0 →
    mk ≤ 0 ∧ mk - e ≤ (F.q - F.p - 2 : Nat)) ∧
  (F.max_exponent_for_k_geq_0 < e → e ≤ F.upper_bound_p_p2 →
    1 ≤ mk ∧ mk ≤ maxMk2 F ∧ mk - e ≤ (F.q - F.p - 2 : Nat)) ∧
  (F.max_exponent_for_k_geq_0 < e → F.upper_bound_p_p2 < e →
    0 ≤ mk ∧ 2 ^ (F.p + 2) ≤ 5 ^ mk.toNat)

instance (F : Fmt) (e mk : Int) : Decidable (IntegerFacts2 F e mk) := by
  unfold IntegerFacts2
  infer_instance

/-- Facts behind the integer tests of cases `two_times_fc` (grisu_exact.h 2481-2506) and
`fc_minus_2_to_the_q_mp_m3_edge` (2442-2445). -/
def IntegerFacts3 (F : Fmt) (e mk : Int) (B : Nat) : Prop :=
  (e < F.lower_bound_q_mp → mk ≤ 0 ∧ 2 ≤ mk - e) ∧
  (F.lower_bound_q_mp ≤ e → e ≤ F.max_exponent_for_k_geq_0 →
    mk ≤ 0 ∧ mk - e ≤ (F.q - F.p : Nat)) ∧
  (B ∣ (2 ^ (F.p + 2) - 1) * unit F ↔
    F.lower_bound_q_mp_m3 ≤ e ∧ e ≤ F.max_exponent_for_k_geq_0)

instance (F : Fmt) (e mk : Int) (B : Nat) : Decidable (IntegerFacts3 F e mk B) := by
  unfold IntegerFacts3
  infer_instance

/-- `deltai` as computed for the edge case of the nearest modes. -/
def edgeDelta (F : Fmt) (mb : Int) (c : Nat) : Nat :=
  match F with
  | .b32 => (c / 2 + c / 4) / 2 ^ (56 + mb).toNat
  | .b64 => (c / 2 ^ 64 / 2 + c / 2 ^ 64 / 4) / 2 ^ (53 + mb).toNat

/-- Facts about the input `2^(q-1)` (all trailing significand bits zero): the exceptional inputs of
`verify_incorrect_rounding_removal.cpp`, and the number of steps.  `z`, `x`, `y` are the upper and
lower boundary and the value, times `B`. -/
def EdgeFacts (F : Fmt) (e mb : Int) (A B c : Nat) : Prop :=
  let z := (2 ^ (F.q - 1) + 2 * unit F) * A
  let y := 2 ^ (F.q - 1) * A
  let x := (2 ^ (F.p + 2) - 1) * unit F * A
  let zi := z / B
  let di := 3 * unit F * A / B
  let ei := 2 * unit F * A / B
  edgeDelta F mb c = di ∧
  (∀ P ∈ [10, 100], di = P + zi % P → y ≤ (zi - zi % P - P / 2) * B →
    (e = exceptional F → (zi - zi % P - P) * B < x) ∧
    (e ≠ exceptional F → x < (zi - zi % P - P) * B)) ∧
  (di ≤ 100 → (zi % 100 = 0 ∨ di ≤ zi % 100) → ei < 65 + zi % 10)

instance (F : Fmt) (e mb : Int) (A B c : Nat) : Decidable (EdgeFacts F e mb A B c) := by
  unfold EdgeFacts
  infer_instance

/-- The cache entry determines all the integer parts. -/
def MulCheck (F : Fmt) (mb : Int) (A B c b d : Nat) : Prop :=
  CertCheck (unit F * A) B (unit F * c) (2 ^ (2 * F.q + mb.toNat)) b d
    (2 ^ (F.p + 3))

instance (F : Fmt) (mb : Int) (A B c b d : Nat) : Decidable (MulCheck F mb A B c b d) := by
  unfold MulCheck; infer_instance

/-- The multiplication by twice the value, used by `float` only. -/
def TwoMulCheck (F : Fmt) (mb : Int) (A B c b d : Nat) : Prop :=
  CertCheck (8 * unit F * A) B (8 * unit F * c)
    (2 ^ (2 * F.q + mb.toNat)) b d (2 ^ (F.p + 1))

instance (F : Fmt) (mb : Int) (A B c b d : Nat) : Decidable (TwoMulCheck F mb A B c b d) := by
  unfold TwoMulCheck; infer_instance

/-- All facts about one exponent. -/
def ExpCheck (F : Fmt) (e mk mb : Int) (A B c b d : Nat) : Prop :=
  RangeCheck F e mk mb A B c ∧ IntegerFacts1 F e mk ∧ IntegerFacts2 F e mk ∧ IntegerFacts3 F e mk B ∧
    EdgeFacts F e mb A B c ∧ MulCheck F mb A B c b d

instance (F : Fmt) (e mk mb : Int) (A B c b d : Nat) : Decidable (ExpCheck F e mk mb A B c b d) := by
  unfold ExpCheck; infer_instance

/-! ## Evaluation over a table -/

/-- `f n`; makes the kernel evaluate `n` before it enters `f`. -/
def force (n : Nat) (f : Nat → Bool) : Bool :=
  match n with
  | 0 => f 0
  | m + 1 => f (m + 1)

theorem force_eq (n : Nat) (f : Nat → Bool) : force n f = f n := by cases n <;> rfl

/-- `f n` for an integer `n`. -/
def forceInt (n : Int) (f : Int → Bool) : Bool :=
  match n with
  | .ofNat m => force m fun m => f (.ofNat m)
  | .negSucc m => force m fun m => f (.negSucc m)

theorem forceInt_eq (n : Int) (f : Int → Bool) : forceInt n f = f n := by
  cases n <;> simp [forceInt, force_eq]

/-- All the numbers belonging to the exponent `e` are computed once and passed to `f`. -/
def withExp (F : Fmt) (e : Int) (f : (mk mb : Int) → (A B c : Nat) → Bool) : Bool :=
  forceInt (mkOf e) fun mk => forceInt (mbOf e) fun mb => force (phiNum e) fun A =>
  force (phiDen e) fun B => force (cacheOf F e) fun c => f mk mb A B c

theorem withExp_eq (F : Fmt) (e : Int) (f : (mk mb : Int) → (A B c : Nat) → Bool) :
    withExp F e f = f (mkOf e) (mbOf e) (phiNum e) (phiDen e) (cacheOf F e) := by
  simp [withExp, force_eq, forceInt_eq]

/-- Check the certificates `n = i * 2^128 + b * 2^64 + d` of the exponents `min_exponent + i`, for
successive `i`. -/
def checkAll (F : Fmt) (check : Int → Nat → Nat → Bool) : Nat → List Nat → Bool
  | _, [] => true
  | i, n :: l =>
    decide (n / 2 ^ 128 = i) &&
    (force (n / 2 ^ 64 % 2 ^ 64) fun b => force (n % 2 ^ 64) fun d =>
      forceInt (F.min_exponent + (n / 2 ^ 128 : Nat)) fun e => check e b d) &&
    checkAll F check (n / 2 ^ 128 + 1) l

theorem checkAll_sound (F : Fmt) (check : Int → Nat → Nat → Bool) : ∀ (l : List Nat) (i : Nat),
    checkAll F check i l = true → ∀ j, i ≤ j → j < i + l.length →
    ∃ b d, check (F.min_exponent + (j : Nat)) b d = true := by
  intro l
  induction l with
  | nil => intro i _ j h1 h2; simp at h2; omega
  | cons n l ih =>
    intro i h j h1 h2
    simp only [checkAll, force_eq, forceInt_eq, Bool.and_eq_true, decide_eq_true_eq] at h
    obtain ⟨⟨hi, hc⟩, hl⟩ := h
    by_cases hj : j = i
    · subst hj
      rw [hi] at hc
      exact ⟨_, _, hc⟩
    · rw [hi] at hl
      exact ih (i + 1) hl j (by omega) (by simp at h2; omega)

/-- The check of the main table. -/
def mainCheck (F : Fmt) (e : Int) (b d : Nat) : Bool :=
  withExp F e fun mk mb A B c => decide (ExpCheck F e mk mb A B c b d)

/-- The check of the table for twice the value. -/
def twoCheck (F : Fmt) (e : Int) (b d : Nat) : Bool :=
  withExp F e fun _ mb A B c => decide (TwoMulCheck F mb A B c b d)

end Grisu
