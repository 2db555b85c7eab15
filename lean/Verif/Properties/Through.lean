import Verif.Proofs.Through
import Verif.Properties.Narrow
import Verif.Properties.Widen

/-!
# A `float` printed, read as a `double` and converted to `float`

Property C97.
-/

namespace Grisu

open Spec

/-- **C97**, directed modes: reading the text of a `float` as a `double` and converting that to `float`, all in the mode in
which it was printed, gives the `float` back. -/
theorem C97_directed (cfg : Cfg) (x : Nat) (mode : RoundingMode) (crs : Crs) (text : List Char)
    (h : FiniteNonzero .b32 x) (hp : Prints cfg .b32 x mode crs text) (hm : IsNearest mode = false) :
    ∃ v, readText text = some (isNeg .b32 x, v) ∧ ∀ w, RoundsTo .b64 mode (isNeg .b32 x) v w →
      RoundsTo .b32 mode (isNeg .b32 x) (value .b64 w) (mag .b32 x) := by
  obtain ⟨r, hr, rfl⟩ := prints_inv h hp
  have hu : RoundsTo .b32 mode (isNeg .b32 x) (dec r.significand r.exponent) (mag .b32 x) := returned_reads h hr
  refine ⟨_, read_sci _ _ _, fun w hw => ?_⟩
  rcases directed_mode hm (isNeg .b32 x) with e | e
  · rw [e] at hu hw ⊢
    exact through_zero hu hw
  · rw [e] at hu hw ⊢
    exact through_away hu hw

/-- **C97**, to-nearest modes: whichever of them are used for printing, reading and converting, the `float` comes back unless
the `double` is exactly half way between it and one of its neighbours. -/
theorem C97_nearest (cfg : Cfg) (x : Nat) (mode mode' mode'' : RoundingMode) (crs : Crs) (text : List Char)
    (h : FiniteNonzero .b32 x) (hp : Prints cfg .b32 x mode crs text) (hm : IsNearest mode = true)
    (hm' : IsNearest mode' = true) (hm'' : IsNearest mode'' = true) :
    ∃ v, readText text = some (isNeg .b32 x, v) ∧ ∀ w, RoundsTo .b64 mode' (isNeg .b32 x) v w →
      RoundsTo .b32 mode'' (isNeg .b32 x) (value .b64 w) (mag .b32 x) ∨
      value .b64 w = (value .b32 (mag .b32 x - 1) + value .b32 (mag .b32 x)) / 2 ∨
      value .b64 w = (value .b32 (mag .b32 x) + value .b32 (mag .b32 x + 1)) / 2 := by
  obtain ⟨r, hr, rfl⟩ := prints_inv h hp
  have hu : RoundsTo .b32 mode (isNeg .b32 x) (dec r.significand r.exponent) (mag .b32 x) := returned_reads h hr
  refine ⟨_, read_sci _ _ _, fun w hw => ?_⟩
  obtain ⟨P, e⟩ := nearest_mode hm (isNeg .b32 x)
  obtain ⟨P', e'⟩ := nearest_mode hm' (isNeg .b32 x)
  obtain ⟨P'', e''⟩ := nearest_mode hm'' (isNeg .b32 x)
  rw [e] at hu
  rw [e'] at hw
  rw [e'']
  exact (through_nearest hu hw).imp_right fun k => k.imp And.right And.right

/-- **C97**, the exception occurs: the `float` of C87 comes back as its neighbour, by way of the midpoint between them. -/
theorem C97_witness (cfg : Cfg) : Prints cfg .b32 0x15AE43FD .nearest_to_even .tie_to_even "7.038531E-26".toList ∧
    readText "7.038531E-26".toList = some (false, dec 7038531 (-32)) ∧
    RoundsTo .b64 .nearest_to_even false (dec 7038531 (-32)) 0x3AB5C87FB0000000 ∧
    value .b64 0x3AB5C87FB0000000 = (value .b32 (mag .b32 0x15AE43FD) + value .b32 (mag .b32 0x15AE43FD + 1)) / 2 ∧
    ¬ RoundsTo .b32 .nearest_to_even false (value .b64 0x3AB5C87FB0000000) (mag .b32 0x15AE43FD) := by
  obtain ⟨h1, h2, h3, h4⟩ := C87_narrowing cfg
  refine ⟨h1, h2, h3, ?_, fun k => absurd (RoundsTo.unique k h4) (by decide)⟩
  have a : value .b64 0x3AB5C87FB0000000 = ((6131425250115584 : Nat) : ℚ) * 2 ^ (-136 : Int) := value_eq _
  have b : value .b32 (mag .b32 0x15AE43FD) = ((11420669 : Nat) : ℚ) * 2 ^ (-107 : Int) := value_eq _
  have c : value .b32 (mag .b32 0x15AE43FD + 1) = ((11420670 : Nat) : ℚ) * 2 ^ (-107 : Int) := value_eq _
  rw [a, b, c]
  norm_num

-- 0.1f: "1E-1" is read as the `double` 0.1 and that gives 0.1f
example (cfg : Cfg) : FiniteNonzero .b32 0x3DCCCCCD ∧
    Prints cfg .b32 0x3DCCCCCD .nearest_to_even .tie_to_even "1E-1".toList ∧
    RoundsTo .b64 .nearest_to_even false (dec 1 (-1)) 0x3FB999999999999A ∧
    RoundsTo .b32 .nearest_to_even false (value .b64 0x3FB999999999999A) 0x3DCCCCCD := by
  have hx : FiniteNonzero .b32 0x3DCCCCCD := ⟨by decide, by decide, by decide⟩
  have hr : grisu_exact cfg .b32 false 0x3DCCCCCD .nearest_to_even .tie_to_even .assert_finite = .ok ⟨1, -1, none⟩ := by
    obtain ⟨x64, ndebug⟩ := cfg
    cases x64 <;> cases ndebug <;> decide +kernel
  have ht : "1E-1".toList = sci (isNeg .b32 0x3DCCCCCD) 1 (-1) := by decide +kernel
  have a0 : value .b64 0x3FB9999999999999 = ((7205759403792793 : Nat) : ℚ) * 2 ^ (-56 : Int) := value_eq _
  have a1 : value .b64 0x3FB999999999999A = ((7205759403792794 : Nat) : ℚ) * 2 ^ (-56 : Int) := value_eq _
  have a2 : value .b64 0x3FB999999999999B = ((7205759403792795 : Nat) : ℚ) * 2 ^ (-56 : Int) := value_eq _
  have b0 : value .b32 0x3DCCCCCC = ((13421772 : Nat) : ℚ) * 2 ^ (-27 : Int) := value_eq _
  have b1 : value .b32 0x3DCCCCCD = ((13421773 : Nat) : ℚ) * 2 ^ (-27 : Int) := value_eq _
  have b2 : value .b32 0x3DCCCCCE = ((13421774 : Nat) : ℚ) * 2 ^ (-27 : Int) := value_eq _
  refine ⟨hx, ht ▸ prints_finite hx hr, ?_, ?_⟩
  · refine (nearest_iff (by decide) (by decide)).mpr ⟨Or.inl ?_, Or.inl ?_⟩
    · rw [show 0x3FB999999999999A - 1 = 0x3FB9999999999999 from rfl, a0, a1, dec]
      norm_num
    · rw [show 0x3FB999999999999A + 1 = 0x3FB999999999999B from rfl, a1, a2, dec]
      norm_num
  · refine (nearest_iff (by decide) (by decide)).mpr ⟨Or.inl ?_, Or.inl ?_⟩
    · rw [show 0x3DCCCCCD - 1 = 0x3DCCCCCC from rfl, b0, b1, a1]
      norm_num
    · rw [show 0x3DCCCCCD + 1 = 0x3DCCCCCE from rfl, b1, b2, a1]
      norm_num

-- the same number printed toward zero
example (cfg : Cfg) : Prints cfg .b32 0x3DCCCCCD .toward_zero .tie_to_even "1.00000002E-1".toList := by
  have hx : FiniteNonzero .b32 0x3DCCCCCD := ⟨by decide, by decide, by decide⟩
  have hr : grisu_exact cfg .b32 false 0x3DCCCCCD .toward_zero .tie_to_even .assert_finite = .ok ⟨100000002, -9, none⟩ := by
    obtain ⟨x64, ndebug⟩ := cfg
    cases x64 <;> cases ndebug <;> decide +kernel
  have ht : "1.00000002E-1".toList = sci (isNeg .b32 0x3DCCCCCD) 100000002 (-9) := by decide +kernel
  exact ht ▸ prints_finite hx hr

end Grisu
