import Verif.Proofs.Good
import Verif.Proofs.Value
import Mathlib.Tactic.NormNum.Pow

/-! # The interval of the algorithm is the set of numbers that round to the input -/

namespace Grisu

open Spec (RoundsTo value sg ex Closer mag isNeg FiniteNonzero dec mantBits ulpExp infPattern width)

variable {F : Fmt} {x : Nat}

theorem mant_eq (F : Fmt) : mantBits F = F.p := by cases F <;> rfl
theorem width_eq (F : Fmt) : width F = F.q := by cases F <;> rfl

/-- The exponent field of the magnitude. -/
theorem mag_div (hx : x < 2 ^ F.q) : mag F x / 2 ^ F.p = x / 2 ^ F.p % 2 ^ F.exponent_bits := by
  unfold mag
  rw [width_eq]
  have : 2 ^ (F.q - 1) = 2 ^ F.p * 2 ^ F.exponent_bits := by cases F <;> decide
  rw [this, Nat.mod_mul_right_div_self]

theorem mag_mod : mag F x % 2 ^ F.p = x % 2 ^ F.p := by
  unfold mag
  rw [width_eq]
  have : 2 ^ (F.q - 1) = 2 ^ F.p * 2 ^ F.exponent_bits := by cases F <;> decide
  rw [this, Nat.mod_mul_right_mod]

theorem sg_eq (hx : x < 2 ^ F.q) : sg F (mag F x) = sigOf F x := by
  unfold sg sigOf
  rw [mant_eq, mag_div hx, mag_mod]

theorem ex_eq (hx : x < 2 ^ F.q) : ex F (mag F x) = expOf F x + (F.exponent_bits : Int) := by
  unfold ex expOf
  rw [mant_eq, mag_div hx]
  have h1 : ulpExp F = F.min_exponent + F.exponent_bits := by cases F <;> decide
  split
  · exact h1
  · rename_i h
    rw [h1]
    have := Nat.pos_of_ne_zero h
    omega

theorem closer_iff (hx : x < 2 ^ F.q) : Closer F (mag F x) ↔ isEdge F x = true := by
  unfold Closer
  rw [isEdge_iff, mant_eq, mag_div hx, mag_mod]
  unfold sigOf expOf
  have hp : 0 < 2 ^ F.p := by positivity
  have hm : x % 2 ^ F.p < 2 ^ F.p := Nat.mod_lt _ hp
  generalize x / 2 ^ F.p % 2 ^ F.exponent_bits = E
  generalize x % 2 ^ F.p = M at hm
  generalize 2 ^ F.p = N at hm hp
  by_cases h0 : E = 0
  · simp only [if_pos h0]
    omega
  · simp only [if_neg h0]
    omega

theorem FiniteNonzero.lt (h : FiniteNonzero F x) : x < 2 ^ F.q := by
  have := h.inRange
  rwa [width_eq] at this

theorem FiniteNonzero.input (h : FiniteNonzero F x) : Input F x := by
  have hlt := FiniteNonzero.lt h
  constructor
  · have h1 := h.nonzero
    have h2 := Nat.div_add_mod (mag F x) (2 ^ F.p)
    rw [mag_div hlt, mag_mod] at h2
    unfold sigOf
    split
    · rename_i h3
      rw [h3, mul_zero] at h2
      omega
    · have : 0 < 2 ^ F.p := by positivity
      omega
  · rw [← mag_div hlt]
    have h1 := h.finite
    have h2 : infPattern F = (2 ^ F.exponent_bits - 1) * 2 ^ F.p := by cases F <;> decide
    rw [h2] at h1
    have := (Nat.div_lt_iff_lt_mul (by positivity : 0 < 2 ^ F.p)).mpr h1
    omega

/-- The value of one unit of the endpoints. -/
def ulpq (F : Fmt) (x : Nat) : ℚ := (unit F : ℚ) * 2 ^ expOf F x

theorem ulpq_pos : 0 < ulpq F x := by
  unfold ulpq
  have h1 : (0 : ℚ) < unit F := by exact_mod_cast unit_pos F
  have h2 : (0 : ℚ) < 2 ^ expOf F x := zpow_pos (by norm_num) _
  positivity

theorem two_pow_ex (hx : x < 2 ^ F.q) : (2 : ℚ) ^ ex F (mag F x) = 4 * ulpq F x := by
  rw [ex_eq hx, zpow_add₀ (by norm_num), zpow_natCast]
  unfold ulpq
  have : (2 : ℚ) ^ F.exponent_bits = 4 * unit F := by
    have : 2 ^ F.exponent_bits = 4 * unit F := by cases F <;> decide
    exact_mod_cast this
  rw [this]
  ring

theorem value_mag (hx : x < 2 ^ F.q) : value F (mag F x) = (4 * sigOf F x : Nat) * ulpq F x := by
  rw [Spec.value_eq, sg_eq hx, two_pow_ex hx]
  push_cast
  ring

theorem value_mag_succ (hx : x < 2 ^ F.q) :
    value F (mag F x + 1) = (4 * sigOf F x + 4 : Nat) * ulpq F x := by
  rw [Spec.value_succ, sg_eq hx, two_pow_ex hx]
  push_cast
  ring

theorem value_mag_pred (h : FiniteNonzero F x) :
    value F (mag F x - 1) = (flOf F .right_closed_directed x : Nat) * ulpq F x := by
  have hx := FiniteNonzero.lt h
  have hpos := (FiniteNonzero.input h).pos
  by_cases hc : Closer F (mag F x)
  · rw [Spec.value_pred_closer hc, sg_eq hx, two_pow_ex hx]
    simp only [flOf, (closer_iff hx).mp hc, if_true]
    rw [Nat.cast_sub (by omega)]
    push_cast
    ring
  · rw [Spec.value_pred_generic h.nonzero hc, sg_eq hx, two_pow_ex hx]
    rw [closer_iff hx] at hc
    simp only [flOf, hc, Bool.false_eq_true, if_false]
    rw [Nat.cast_sub (by omega)]
    push_cast
    ring

/-- Membership in the interval with the given endpoints. -/
def Mem (L R : ℚ) (il ir : Bool) (v : ℚ) : Prop :=
  (L < v ∨ (L = v ∧ il = true)) ∧ (v < R ∨ (v = R ∧ ir = true))

/-- The interval of the model, as rational numbers. -/
def MemOf (F : Fmt) (prov : Provider) (x : Nat) (v : ℚ) : Prop :=
  Mem (flOf F prov.tag x * ulpq F x) (frOf F prov.tag x * ulpq F x)
    (prov.interval F x).include_left_endpoint (prov.interval F x).include_right_endpoint v

theorem nearest_mem (h : FiniteNonzero F x) {prefers : Nat → Nat → Prop} {il ir : Bool}
    (hl : prefers (mag F x) (mag F x - 1) ↔ il = true) (hr : prefers (mag F x) (mag F x + 1) ↔ ir = true)
    (v : ℚ) :
    Spec.Nearest F prefers v (mag F x) ↔
      Mem (flOf F .to_nearest x * ulpq F x) (frOf F .to_nearest x * ulpq F x) il ir v := by
  have hx := FiniteNonzero.lt h
  have hpos := (FiniteNonzero.input h).pos
  rw [Spec.nearest_iff h.nonzero h.finite, value_mag hx, value_mag_succ hx, value_mag_pred h]
  have e1 : ((flOf F .right_closed_directed x : Nat) * ulpq F x + (4 * sigOf F x : Nat) * ulpq F x) / 2 =
      (flOf F .to_nearest x : Nat) * ulpq F x := by
    simp only [flOf]
    split
    · rw [Nat.cast_sub (by omega), Nat.cast_sub (by omega)]
      push_cast
      ring
    · rw [Nat.cast_sub (by omega), Nat.cast_sub (by omega)]
      push_cast
      ring
  have e2 : ((4 * sigOf F x : Nat) * ulpq F x + (4 * sigOf F x + 4 : Nat) * ulpq F x) / 2 =
      (frOf F .to_nearest x : Nat) * ulpq F x := by
    simp only [frOf]
    push_cast
    ring
  rw [e1, e2, hl, hr]
  rfl

theorem toward_mem (h : FiniteNonzero F x) (v : ℚ) :
    Spec.TowardZero F v (mag F x) ↔
      Mem (flOf F .left_closed_directed x * ulpq F x) (frOf F .left_closed_directed x * ulpq F x)
        true false v := by
  have hx := FiniteNonzero.lt h
  unfold Spec.TowardZero Mem
  rw [value_mag hx, value_mag_succ hx]
  simp only [flOf, frOf, h.finite, true_and, and_true, Bool.false_eq_true, and_false, or_false]
  rw [le_iff_lt_or_eq]

theorem away_mem (h : FiniteNonzero F x) (v : ℚ) :
    Spec.AwayFromZero F v (mag F x) ↔
      Mem (flOf F .right_closed_directed x * ulpq F x) (frOf F .right_closed_directed x * ulpq F x)
        false true v := by
  have hx := FiniteNonzero.lt h
  unfold Spec.AwayFromZero Mem
  rw [value_mag hx, value_mag_pred h]
  have := h.finite.le
  have := h.nonzero
  simp only [frOf, *, true_and, and_true, Bool.false_eq_true, and_false, or_false]
  rw [le_iff_lt_or_eq]

theorem isNeg_eq : isNeg F x = BitRep.is_negative F x := by
  unfold isNeg BitRep.is_negative
  rw [decide_eq_decide, width_eq]
  have hp : 0 < 2 ^ (F.q - 1) := by positivity
  constructor
  · intro h
    have := Nat.div_pos h hp
    omega
  · intro h
    by_contra hc
    exact h (Nat.div_eq_of_lt (by omega))

theorem mag_mod_two : mag F x % 2 = x % 2 := by
  unfold mag
  rw [Nat.mod_mod_of_dvd]
  cases F <;> decide

/-- The numbers which a correct parser converts back to `x` are those of the interval. -/
theorem rounds_iff (h : FiniteNonzero F x) (mode : RoundingMode) (v : ℚ) :
    RoundsTo F mode (isNeg F x) v (mag F x) ↔ MemOf F (mode.provider F x) x v := by
  have hx := FiniteNonzero.lt h
  have h0 := h.nonzero
  have hm : mag F x % 2 = x % 2 := mag_mod_two
  have even : Spec.Nearest F Spec.PrefEven v (mag F x) ↔
      Mem (flOf F .to_nearest x * ulpq F x) (frOf F .to_nearest x * ulpq F x) (x % 2 = 0) (x % 2 = 0) v :=
    nearest_mem h (by simp [Spec.PrefEven, hm]) (by simp [Spec.PrefEven, hm]) v
  have odd : Spec.Nearest F Spec.PrefOdd v (mag F x) ↔
      Mem (flOf F .to_nearest x * ulpq F x) (frOf F .to_nearest x * ulpq F x) (x % 2 ≠ 0) (x % 2 ≠ 0) v :=
    nearest_mem h (by simp [Spec.PrefOdd, hm]) (by simp [Spec.PrefOdd, hm]) v
  have sm : Spec.Nearest F Spec.PrefSmaller v (mag F x) ↔
      Mem (flOf F .to_nearest x * ulpq F x) (frOf F .to_nearest x * ulpq F x) false true v :=
    nearest_mem h (by simp [Spec.PrefSmaller]) (by simp [Spec.PrefSmaller]) v
  have la : Spec.Nearest F Spec.PrefLarger v (mag F x) ↔
      Mem (flOf F .to_nearest x * ulpq F x) (frOf F .to_nearest x * ulpq F x) true false v :=
    nearest_mem h (by simp [Spec.PrefLarger]; omega) (by simp [Spec.PrefLarger]) v
  have tz := toward_mem h v
  have az := away_mem h v
  rw [isNeg_eq]
  unfold MemOf
  cases mode <;> simp only [RoundsTo, RoundingMode.provider]
  case nearest_to_even => rw [even]; rfl
  case nearest_to_odd => rw [odd]; rfl
  case nearest_toward_zero => rw [sm]; rfl
  case nearest_away_from_zero => rw [la]; rfl
  case toward_zero => rw [tz]; rfl
  case away_from_zero => rw [az]; rfl
  case nearest_to_even_static_boundary =>
    rw [even]
    by_cases hp : x % 2 = 0
    · simp [hp, Provider.tag, Provider.interval, Interval.closed]
    · simp [hp, Provider.tag, Provider.interval, Interval.open]
  case nearest_to_odd_static_boundary =>
    rw [odd]
    by_cases hp : x % 2 = 0
    · simp [hp, Provider.tag, Provider.interval, Interval.open]
    · simp [hp, Provider.tag, Provider.interval, Interval.closed]
  all_goals
    cases hn : BitRep.is_negative F x <;>
    simp [sm, la, tz, az, hn, Provider.tag, Provider.interval, Interval.asymmetric_boundary,
      Interval.right_closed_left_open, Interval.left_closed_right_open]

/-! ## Integer multiples of `10^minus_k` -/

/-- `2^e = 10^minus_k * A / B`. -/
theorem ulpq_eq : ulpq F x * phiDen (expOf F x) = unit F * phiNum (expOf F x) * 10 ^ mkOf (expOf F x) := by
  unfold ulpq phiNum phiDen
  generalize expOf F x = e
  generalize mkOf e = k
  push_cast
  have h2 : (2 : ℚ) ≠ 0 := by norm_num
  have h5 : (5 : ℚ) ≠ 0 := by norm_num
  have hz : ∀ (b : ℚ) (n : Int), b ≠ 0 → b ^ n.toNat / b ^ (-n).toNat = b ^ n := by
    intro b n hb
    rw [← zpow_natCast, ← zpow_natCast, ← zpow_sub₀ hb]
    congr 1
    omega
  have e1 := hz 2 (e - k) h2
  have e2 := hz 5 (-k) h5
  rw [show (10 : ℚ) = 2 * 5 by norm_num, mul_zpow]
  rw [neg_sub, zpow_sub₀ h2] at e1
  rw [neg_neg, zpow_neg] at e2
  have p1 : (2 : ℚ) ^ (k - e).toNat ≠ 0 := pow_ne_zero _ h2
  have p2 : (5 : ℚ) ^ k.toNat ≠ 0 := pow_ne_zero _ h5
  have p3 : (2 : ℚ) ^ k ≠ 0 := zpow_ne_zero _ h2
  have p4 : (5 : ℚ) ^ k ≠ 0 := zpow_ne_zero _ h5
  rw [div_eq_iff p1] at e1
  rw [div_eq_iff p2] at e2
  rw [e1, e2]
  field_simp

/-- Endpoints compared with integers. -/
theorem endpoint_eq (f : Nat) :
    (f : ℚ) * ulpq F x * phiDen (expOf F x) =
      ((f * unit F * phiNum (expOf F x) : Nat) : ℚ) * 10 ^ mkOf (expOf F x) := by
  rw [mul_assoc, ulpq_eq]
  push_cast
  ring

theorem endpoint_lt (f n : Nat) :
    ((f : ℚ) * ulpq F x < n * 10 ^ mkOf (expOf F x) ↔
      f * unit F * phiNum (expOf F x) < n * phiDen (expOf F x)) ∧
    ((n : ℚ) * 10 ^ mkOf (expOf F x) < f * ulpq F x ↔
      n * phiDen (expOf F x) < f * unit F * phiNum (expOf F x)) ∧
    ((f : ℚ) * ulpq F x = n * 10 ^ mkOf (expOf F x) ↔
      f * unit F * phiNum (expOf F x) = n * phiDen (expOf F x)) := by
  have hB : (0 : ℚ) < phiDen (expOf F x) := by exact_mod_cast phiDen_pos _
  have hT : (0 : ℚ) < 10 ^ mkOf (expOf F x) := zpow_pos (by norm_num) _
  have e1 := endpoint_eq (F := F) (x := x) f
  have e2 : (n : ℚ) * 10 ^ mkOf (expOf F x) * phiDen (expOf F x) =
      ((n * phiDen (expOf F x) : Nat) : ℚ) * 10 ^ mkOf (expOf F x) := by push_cast; ring
  refine ⟨?_, ?_, ?_⟩
  · rw [← mul_lt_mul_iff_left₀ hB, e1, e2, mul_lt_mul_iff_left₀ hT, Nat.cast_lt]
  · rw [← mul_lt_mul_iff_left₀ hB, e1, e2, mul_lt_mul_iff_left₀ hT, Nat.cast_lt]
  · rw [← mul_left_inj' hB.ne', e1, e2, mul_left_inj' hT.ne', Nat.cast_inj]

theorem ZOf_pos (tag : Tag) (hi : Input F x) : 0 < ZOf F tag x := by
  have h1 := hi.pos
  have h2 := unit_pos F
  have h3 := phiNum_pos (expOf F x)
  have h4 : 0 < frOf F tag x := by cases tag <;> simp only [frOf] <;> omega
  unfold ZOf
  positivity

/-- `n * 10^minus_k` is in the interval iff `lo ≤ n ≤ hi`. -/
theorem mem_int (cfg : Cfg) (prov : Provider) (crs : Crs) (hi : Input F x) (n : Nat) :
    MemOf F prov x (n * 10 ^ mkOf (expOf F x)) ↔
      (ctxOf cfg F prov crs x).lo (XOf F prov.tag x) (BOf F x) ≤ n ∧
      n ≤ (ctxOf cfg F prov crs x).hi (ZOf F prov.tag x) (BOf F x) := by
  have hB : 0 < BOf F x := phiDen_pos _
  obtain ⟨a1, a2, a3⟩ := endpoint_lt (F := F) (x := x) (flOf F prov.tag x) n
  obtain ⟨b1, b2, b3⟩ := endpoint_lt (F := F) (x := x) (frOf F prov.tag x) n
  show Mem _ _ _ _ _ ↔ loOf (prov.interval F x).include_left_endpoint _ _ ≤ n ∧
    n ≤ hiOf (prov.interval F x).include_right_endpoint _ _
  rw [loOf_le_iff hB, le_hiOf_iff hB (ZOf_pos _ hi)]
  unfold Mem
  rw [a1, a3, b2, eq_comm (a := (n : ℚ) * _), b3]
  unfold XOf ZOf BOf
  constructor
  · rintro ⟨h1, h2⟩
    exact ⟨h1.imp_right (fun h => ⟨h.2, h.1⟩), h2.imp_right (fun h => ⟨h.2, h.1.symm⟩)⟩
  · rintro ⟨h1, h2⟩
    exact ⟨h1.imp_right (fun h => ⟨h.2, h.1⟩), h2.imp_right (fun h => ⟨h.2.symm, h.1⟩)⟩

/-- The exact value, in units of `10^minus_k`. -/
theorem value_scaled (hx : x < 2 ^ F.q) :
    value F (mag F x) = (YOf F x : ℚ) / BOf F x * 10 ^ mkOf (expOf F x) := by
  have hB : (0 : ℚ) < phiDen (expOf F x) := by exact_mod_cast phiDen_pos _
  rw [value_mag hx]
  have e1 := endpoint_eq (F := F) (x := x) (4 * sigOf F x)
  unfold YOf BOf
  field_simp
  rw [e1]

end Grisu
