import Verif.Proofs.NearestDecimalCheck
import Verif.Properties.Best
import Verif.Properties.Modes

/-! # C88: the output is the nearest decimal of its length -/

namespace Grisu

open Spec (RoundsTo value mag isNeg FiniteNonzero dec numDigits IsNearest IsAway IsTruncating NearestDecimal mantBits
  infPattern Closer mirror flipSign)

/-- `x` is, up to its sign, one of the exceptional powers of two (3 for `float`, 45 for `double`). -/
def Exceptional (F : Fmt) (x : Nat) : Prop :=
  mag F x % 2 ^ mantBits F = 0 ∧ mag F x / 2 ^ mantBits F ∈ exceptionalFields F

/-- **C88**: unless the input is a power of two above the smallest normal number, the output in a to-nearest mode with a
tie policy is a nearest one of all decimals with at most as many digits. -/
theorem C88_symmetric (cfg : Cfg) (F : Fmt) (rs : Bool) (x : Nat) (mode : RoundingMode) (crs : Crs)
    (handler : CaseHandler) (h : FiniteNonzero F x) (hm : IsNearest mode = true) (hc : crs ≠ .do_not_care)
    (hx : mag F x % 2 ^ mantBits F ≠ 0 ∨ mag F x / 2 ^ mantBits F ≤ 1) :
    ∃ r, grisu_exact cfg F rs x mode crs handler = .ok r ∧
      NearestDecimal (value F (mag F x)) r.significand r.exponent := by
  obtain ⟨r, h1, h2⟩ := C04_closest_nearest cfg F rs x mode crs handler h hm hc
  obtain ⟨r', h1', h3⟩ := C02_roundtrip_nearest cfg F rs x mode crs handler h hm
  rw [h1] at h1'
  cases h1'
  refine ⟨r, h1, fun s' t' hd => ?_⟩
  by_contra hlt
  rw [not_le] at hlt
  refine absurd (h2 s' t' ?_ hd) (not_le.mpr hlt)
  have hcl : ¬ Closer F (mag F x) := by
    rintro ⟨a, b⟩
    rcases hx with hx | hx
    · exact hx a
    · omega
  have e1 := Spec.value_pred_generic h.nonzero hcl
  have e2 := Spec.value_succ (F := F) (mag F x)
  have e3 := Spec.value_eq (F := F) (mag F x)
  -- both results lie within half a unit in the last place
  have hb : |dec r.significand r.exponent - value F (mag F x)| ≤ 2 ^ Spec.ex F (mag F x) / 2 := by
    have key : ∀ P : Nat → Nat → Prop, Spec.Nearest F P (dec r.significand r.exponent) (mag F x) →
        |dec r.significand r.exponent - value F (mag F x)| ≤ 2 ^ Spec.ex F (mag F x) / 2 := by
      intro P hn
      obtain ⟨g1, g2⟩ := (Spec.nearest_iff h.nonzero h.finite).mp hn
      have g1' : (value F (mag F x - 1) + value F (mag F x)) / 2 ≤ dec r.significand r.exponent :=
        g1.elim le_of_lt (fun g => g.1.le)
      have g2' : dec r.significand r.exponent ≤ (value F (mag F x) + value F (mag F x + 1)) / 2 :=
        g2.elim le_of_lt (fun g => g.1.le)
      rw [e1] at g1'
      rw [e2] at g2'
      rw [e3] at g1' g2' ⊢
      rw [abs_le]
      constructor <;> linarith
    generalize isNeg F x = neg at h3
    cases mode <;> cases neg <;> first | exact key _ h3 | exact absurd hm (by decide)
  have hi : ∀ P : Nat → Nat → Prop, Spec.Nearest F P (dec s' t') (mag F x) := by
    intro P
    have := abs_lt.mp (lt_of_lt_of_le hlt hb)
    refine (Spec.nearest_iff h.nonzero h.finite).mpr ⟨Or.inl ?_, Or.inl ?_⟩
    · rw [e1]
      rw [e3] at this ⊢
      linarith [this.1]
    · rw [e2]
      rw [e3] at this ⊢
      linarith [this.2]
  generalize isNeg F x = neg
  cases mode <;> cases neg <;> first | exact hi _ | exact absurd hm (by decide)

namespace Nd

theorem value_pow (F : Fmt) {f : Nat} (hf : 1 ≤ f) : value F (f * 2 ^ mantBits F) = 2 ^ ((f : Int) - bias F) := by
  cases F with
  | b32 =>
    show (if f * 2 ^ 23 / 2 ^ 23 = 0 then _ else ((2 ^ 23 + f * 2 ^ 23 % 2 ^ 23 : Nat) : ℚ) *
      2 ^ ((-149 : Int) + ((f * 2 ^ 23 / 2 ^ 23 - 1 : Nat) : Int))) = 2 ^ ((f : Int) - 127)
    rw [Nat.mul_div_cancel _ (by norm_num), if_neg (by omega), Nat.mul_mod_left, Nat.add_zero,
      show (f : Int) - 127 = ((23 : Nat) : Int) + (-149 + ((f - 1 : Nat) : Int)) by omega,
      zpow_add₀ (by norm_num : (2 : ℚ) ≠ 0) ((23 : Nat) : Int), zpow_natCast]
    generalize (-149 : Int) + ((f - 1 : Nat) : Int) = z
    norm_num
  | b64 =>
    show (if f * 2 ^ 52 / 2 ^ 52 = 0 then _ else ((2 ^ 52 + f * 2 ^ 52 % 2 ^ 52 : Nat) : ℚ) *
      2 ^ ((-1074 : Int) + ((f * 2 ^ 52 / 2 ^ 52 - 1 : Nat) : Int))) = 2 ^ ((f : Int) - 1023)
    rw [Nat.mul_div_cancel _ (by norm_num), if_neg (by omega), Nat.mul_mod_left, Nat.add_zero,
      show (f : Int) - 1023 = ((52 : Nat) : Int) + (-1074 + ((f - 1 : Nat) : Int)) by omega,
      zpow_add₀ (by norm_num : (2 : ℚ) ≠ 0) ((52 : Nat) : Int), zpow_natCast]
    generalize (-1074 : Int) + ((f - 1 : Nat) : Int) = z
    norm_num

/-- The number of exponent fields. -/
def top : Fmt → Nat
  | .b32 => 255
  | .b64 => 2047

theorem pow_facts (F : Fmt) {f : Nat} (h2 : 2 ≤ f) (ht : f < top F) :
    FiniteNonzero F (f * 2 ^ mantBits F) ∧ mag F (f * 2 ^ mantBits F) = f * 2 ^ mantBits F := by
  cases F with
  | b32 =>
    have ht' : f < 255 := ht
    have hmag : mag .b32 (f * 2 ^ mantBits .b32) = f * 2 ^ mantBits .b32 := Nat.mod_eq_of_lt (show f * 2 ^ 23 < 2 ^ 31 by omega)
    refine ⟨⟨show f * 2 ^ 23 < 2 ^ 32 by omega, ?_, ?_⟩, hmag⟩
    · rw [hmag]; show 0 < f * 2 ^ 23; omega
    · rw [hmag]; show f * 2 ^ 23 < 0x7f800000; omega
  | b64 =>
    have ht' : f < 2047 := ht
    have hmag : mag .b64 (f * 2 ^ mantBits .b64) = f * 2 ^ mantBits .b64 := Nat.mod_eq_of_lt (show f * 2 ^ 52 < 2 ^ 63 by omega)
    refine ⟨⟨show f * 2 ^ 52 < 2 ^ 64 by omega, ?_, ?_⟩, hmag⟩
    · rw [hmag]; show 0 < f * 2 ^ 52; omega
    · rw [hmag]; show f * 2 ^ 52 < 0x7ff0000000000000; omega

/-- What is claimed of one result. -/
def Good (F : Fmt) (f : Nat) (r : FpT) : Prop :=
  NearestDecimal (2 ^ ((f : Int) - bias F)) r.significand r.exponent ↔ f ∉ exceptionalFields F

theorem of_check {F : Fmt} {mode : RoundingMode} {f : Nat} (h : check F mode f = true) :
    ∃ r, grisu_exact ⟨true, false⟩ F false (f * 2 ^ mantBits F) mode .tie_to_even .assert_finite = .ok r ∧ Good F f r := by
  unfold check at h
  cases hr : grisu_exact ⟨true, false⟩ F false (f * 2 ^ mantBits F) mode .tie_to_even .assert_finite with
  | fault e => rw [hr] at h; cases h
  | ok r =>
    rw [hr] at h
    refine ⟨r, rfl, ?_⟩
    unfold Good
    by_cases hf : f ∈ exceptionalFields F
    · simp only [hf, if_true] at h
      exact iff_of_false (Spec.not_nearest_of_isAbove h) (not_not.mpr hf)
    · simp only [hf, if_false] at h
      exact iff_of_true (Spec.nearest_of_isNearest h) hf

theorem mem_nearestModes {mode : RoundingMode} (h : IsNearest mode = true) : mode ∈ nearestModes := by
  cases mode <;> first | decide | exact absurd h (by decide)

/-- Positive powers of two, in every to-nearest mode. -/
theorem positive (F : Fmt) {f : Nat} (h2 : 2 ≤ f) (ht : f < top F) {mode : RoundingMode} (hm : IsNearest mode = true) :
    ∃ r, grisu_exact ⟨true, false⟩ F false (f * 2 ^ mantBits F) mode .tie_to_even .assert_finite = .ok r ∧ Good F f r := by
  obtain ⟨hx, hmag⟩ := pow_facts F h2 ht
  -- outside a range of exponents, all modes agree
  have other : (match (generalizing := false) F with
      | .b32 => value F (mag F (f * 2 ^ mantBits F)) < 2 ^ 24 ∨ 2 ^ 65 ≤ value F (mag F (f * 2 ^ mantBits F))
      | .b64 => value F (mag F (f * 2 ^ mantBits F)) < 2 ^ 53 ∨ 2 ^ 134 ≤ value F (mag F (f * 2 ^ mantBits F))) →
      check F .nearest_to_even f = true →
      ∃ r, grisu_exact ⟨true, false⟩ F false (f * 2 ^ mantBits F) mode .tie_to_even .assert_finite = .ok r ∧ Good F f r := by
    intro hr hc
    obtain ⟨r, h1, h3⟩ := of_check hc
    obtain ⟨r', h1'⟩ := C01_returns ⟨true, false⟩ F false (f * 2 ^ mantBits F) mode .tie_to_even .assert_finite hx
      (not_truncating hm)
    obtain ⟨e1, e2⟩ := C83_range ⟨true, false⟩ ⟨true, false⟩ F false false (f * 2 ^ mantBits F) .nearest_to_even mode
      .tie_to_even .assert_finite .assert_finite hx rfl hm r r' h1 h1' hr
    refine ⟨r', h1', ?_⟩
    unfold Good at h3 ⊢
    rwa [← e1, ← e2]
  cases F with
  | b32 =>
    have ht' : f < 255 := ht
    by_cases hw : 151 ≤ f ∧ f < 192
    · exact of_check (List.all_eq_true.mp (List.all_eq_true.mp check32_modes f
        (List.mem_range'_1.mpr ⟨hw.1, by omega⟩)) mode (mem_nearestModes hm))
    · refine other ?_ (List.all_eq_true.mp check32 f (List.mem_range'_1.mpr ⟨h2, by omega⟩))
      show _ < _ ∨ _ ≤ _
      rw [hmag, value_pow .b32 (by omega), ← zpow_natCast, ← zpow_natCast]
      by_cases hl : f < 151
      · exact Or.inl (zpow_lt_zpow_right₀ (by norm_num) (show (f : Int) - 127 < 24 by omega))
      · exact Or.inr (zpow_le_zpow_right₀ (by norm_num) (show (65 : Int) ≤ (f : Int) - 127 by omega))
  | b64 =>
    have ht' : f < 2047 := ht
    by_cases hw : 1076 ≤ f ∧ f < 1157
    · exact of_check (List.all_eq_true.mp (List.all_eq_true.mp check64_modes f
        (List.mem_range'_1.mpr ⟨hw.1, by omega⟩)) mode (mem_nearestModes hm))
    · refine other ?_ (List.all_eq_true.mp check64 f (List.mem_range'_1.mpr ⟨h2, by omega⟩))
      show _ < _ ∨ _ ≤ _
      rw [hmag, value_pow .b64 (by omega), ← zpow_natCast, ← zpow_natCast]
      by_cases hl : f < 1076
      · exact Or.inl (zpow_lt_zpow_right₀ (by norm_num) (show (f : Int) - 1023 < 53 by omega))
      · exact Or.inr (zpow_le_zpow_right₀ (by norm_num) (show (134 : Int) ≤ (f : Int) - 1023 by omega))

theorem mirror_nearest {mode : RoundingMode} (h : IsNearest mode = true) : IsNearest (mirror mode) = true := by
  cases mode <;> first | rfl | exact absurd h (by decide)

theorem mirror_mirror (mode : RoundingMode) : mirror (mirror mode) = mode := by cases mode <;> rfl

/-- Powers of two of both signs. -/
theorem both (F : Fmt) {x f : Nat} (hx : FiniteNonzero F x) (hf : mag F x = f * 2 ^ mantBits F) (h2 : 2 ≤ f)
    (ht : f < top F) {mode : RoundingMode} (hm : IsNearest mode = true) :
    ∃ r, grisu_exact ⟨true, false⟩ F false x mode .tie_to_even .assert_finite = .ok r ∧ Good F f r := by
  have hw : 2 ^ Spec.width F = 2 ^ (Spec.width F - 1) + 2 ^ (Spec.width F - 1) := by cases F <;> decide
  have hr := hx.inRange
  cases hn : isNeg F x with
  | false =>
    have : x < 2 ^ (Spec.width F - 1) := by
      unfold isNeg at hn
      exact not_le.mp (of_decide_eq_false hn)
    have hxf : x = f * 2 ^ mantBits F := by
      rw [← hf]
      exact (Nat.mod_eq_of_lt this).symm
    rw [hxf]
    exact positive F h2 ht hm
  | true =>
    have hge : 2 ^ (Spec.width F - 1) ≤ x := by
      unfold isNeg at hn
      exact of_decide_eq_true hn
    have hxf : x = f * 2 ^ mantBits F + 2 ^ (Spec.width F - 1) := by
      have : mag F x = x - 2 ^ (Spec.width F - 1) := by
        unfold mag
        rw [Nat.mod_eq_sub_mod hge, Nat.mod_eq_of_lt (by omega)]
      omega
    obtain ⟨hp, hmag⟩ := pow_facts F h2 ht
    have hlt : f * 2 ^ mantBits F < 2 ^ (Spec.width F - 1) := by omega
    have hfl : flipSign F (f * 2 ^ mantBits F) = x := by
      unfold flipSign isNeg
      rw [decide_eq_false (not_le.mpr hlt), if_neg (by decide), hxf]
    obtain ⟨r, h1, h3⟩ := positive F h2 ht (mirror_nearest hm)
    have := C12_mirror ⟨true, false⟩ F (f * 2 ^ mantBits F) (mirror mode) .tie_to_even .assert_finite hp.inRange
    rw [hfl, mirror_mirror, h1] at this
    exact ⟨r, this, h3⟩

end Nd

/-- **C88**, exactly: in a to-nearest mode, with a tie policy, the output is a nearest one of all decimals with at most as
many digits, except for the listed powers of two and their negatives, for which it is not. -/
theorem C88_iff (cfg : Cfg) (F : Fmt) (rs : Bool) (x : Nat) (mode : RoundingMode) (crs : Crs)
    (handler : CaseHandler) (h : FiniteNonzero F x) (hm : IsNearest mode = true) (hc : crs ≠ .do_not_care) :
    ∃ r, grisu_exact cfg F rs x mode crs handler = .ok r ∧
      (NearestDecimal (value F (mag F x)) r.significand r.exponent ↔ ¬ Exceptional F x) := by
  by_cases hs : mag F x % 2 ^ mantBits F ≠ 0 ∨ mag F x / 2 ^ mantBits F ≤ 1
  · obtain ⟨r, h1, h2⟩ := C88_symmetric cfg F rs x mode crs handler h hm hc hs
    refine ⟨r, h1, iff_of_true h2 ?_⟩
    rintro ⟨a, b⟩
    rcases hs with hs | hs
    · exact hs a
    · have : ∀ f ∈ exceptionalFields F, 2 ≤ f := by cases F <;> decide
      have := this _ b
      omega
  · rw [not_or, not_not, not_le] at hs
    obtain ⟨hs0, hs1⟩ := hs
    have hf : mag F x = mag F x / 2 ^ mantBits F * 2 ^ mantBits F := (Nat.div_mul_cancel (Nat.dvd_of_mod_eq_zero hs0)).symm
    have ht : mag F x / 2 ^ mantBits F < Nd.top F := by
      have := h.finite
      cases F with
      | b32 =>
        have h' : mag .b32 x < 0x7f800000 := this
        show mag .b32 x / 2 ^ 23 < 255
        omega
      | b64 =>
        have h' : mag .b64 x < 0x7ff0000000000000 := this
        show mag .b64 x / 2 ^ 52 < 2047
        omega
    obtain ⟨r0, g1, g2⟩ := Nd.both F h hf hs1 ht hm
    have hv : value F (mag F x) = 2 ^ (((mag F x / 2 ^ mantBits F : Nat) : Int) - Nd.bias F) := by
      rw [← Nd.value_pow F (by omega), ← hf]
    unfold Nd.Good at g2
    rw [← hv] at g2
    have hex : mag F x / 2 ^ mantBits F ∉ exceptionalFields F ↔ ¬ Exceptional F x := by
      unfold Exceptional
      rw [and_iff_right hs0]
    rw [hex] at g2
    obtain ⟨r, h1, h3⟩ := C03_shortest_nearest cfg F rs x mode crs handler h hm
    refine ⟨r, h1, ?_⟩
    by_cases heq : r.significand = r0.significand ∧ r.exponent = r0.exponent
    · rw [heq.1, heq.2]
      exact g2
    · obtain ⟨e1, -, e3⟩ := C82_policies cfg ⟨true, false⟩ F rs false x mode crs .tie_to_even handler .assert_finite h hm hc
        (by decide) r r0 h1 g1 heq
      obtain ⟨r1, k1, k2⟩ := C03_shortest_nearest ⟨true, false⟩ F false x mode .tie_to_even .assert_finite h hm
      obtain ⟨r2, l1, l2⟩ := C02_roundtrip_nearest ⟨true, false⟩ F false x mode .tie_to_even .assert_finite h hm
      obtain ⟨r3, m1, m2⟩ := C02_roundtrip_nearest cfg F rs x mode crs handler h hm
      rw [g1] at k1 l1
      rw [h1] at m1
      cases k1
      cases l1
      cases m1
      have hd : numDigits r.significand = numDigits r0.significand := le_antisymm (h3 _ _ l2) (k2 _ _ m2)
      have hdist : |dec r.significand r.exponent - value F (mag F x)| =
          |dec r0.significand r0.exponent - value F (mag F x)| := by
        rw [e3, ← abs_neg]
        congr 1
        ring
      rw [← g2]
      unfold NearestDecimal
      rw [hd, hdist]

/-- **C88**: the text printed shows this decimal, in digits. -/
theorem C88_text (cfg : Cfg) (F : Fmt) (x : Nat) (mode : RoundingMode) (crs : Crs) (h : FiniteNonzero F x)
    (hm : IsNearest mode = true) (hc : crs ≠ .do_not_care) (hx : ¬ Exceptional F x) :
    ∃ s t, Spec.Prints cfg F x mode crs (Spec.sci (isNeg F x) s t) ∧ NearestDecimal (value F (mag F x)) s t := by
  obtain ⟨r, h1, h2⟩ := C88_iff cfg F false x mode crs .assert_finite h hm hc
  exact ⟨r.significand, r.exponent, prints_finite h h1, h2.mpr hx⟩

-- 0.1f, whose output "0.1" is nearest; `2^-44`, whose output is 5.684341886080802E-14 although 5.684341886080801E-14 is
-- closer; it does not read back as the same number
example : FiniteNonzero .b32 0x3DCCCCCD ∧ ¬ Exceptional .b32 0x3DCCCCCD :=
  ⟨⟨by decide, by decide, by decide⟩, fun h => absurd h.1 (by decide)⟩
example : FiniteNonzero .b64 0x3D30000000000000 ∧ Exceptional .b64 0x3D30000000000000 :=
  ⟨⟨by decide, by decide, by decide⟩, by decide, by decide⟩
example : grisu_exact ⟨true, false⟩ .b64 false 0x3D30000000000000 .nearest_to_even .tie_to_even .assert_finite =
    .ok ⟨5684341886080802, -29, none⟩ := by decide +kernel
example : |dec 5684341886080801 (-29) - 2 ^ (-44 : Int)| < |dec 5684341886080802 (-29) - 2 ^ (-44 : Int)| := by
  unfold dec
  norm_num [abs]

end Grisu
