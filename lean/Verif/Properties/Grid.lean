import Verif.Proofs.Grid
import Verif.Properties.Best

/-!
# Decimals that survive being read and printed

Property C96.
-/

namespace Grisu

open Spec

/-- **C96**: a decimal that is a multiple of a power of ten not below the distance of the floating-point number it is read as
to the next larger one is printed again. -/
theorem C96_survives (cfg : Cfg) (F : Fmt) (x : Nat) (mode : RoundingMode) (crs : Crs) (text : List Char)
    (h : FiniteNonzero F x) (hm : IsTruncating (isNeg F x) mode = true → ¬ NotShortest F x)
    (hp : Prints cfg F x mode crs text) (d : Nat) (k : Int)
    (hu : value F (mag F x + 1) - value F (mag F x) ≤ 10 ^ k)
    (hread : RoundsTo F mode (isNeg F x) (dec d k) (mag F x)) :
    readText text = some (isNeg F x, dec d k) := by
  obtain ⟨r, hr, rfl⟩ := prints_inv h hp
  rw [read_sci]
  congr 2
  cases ht : IsTruncating (isNeg F x) mode with
  | false => exact grid_core h (main_ok h ht hr) hu hread
  | true => exact grid_core h ((truncating_ok h ht hr).2.2.1 (hm ht)) hu hread

/-- **C96**, subnormal numbers: every multiple of 10⁻⁴⁴, or 10⁻³²³, that is read as a subnormal `float`, or `double`, is printed
again, in every mode. -/
theorem C96_subnormal (cfg : Cfg) (F : Fmt) (x : Nat) (mode : RoundingMode) (crs : Crs) (text : List Char)
    (h : FiniteNonzero F x) (subnormal : mag F x < 2 ^ mantBits F)
    (hp : Prints cfg F x mode crs text) (d : Nat) (k : Int) (hk : (if F = .b32 then -44 else -323) ≤ k)
    (hread : RoundsTo F mode (isNeg F x) (dec d k) (mag F x)) :
    readText text = some (isNeg F x, dec d k) := by
  have hE : exponentField F x = 0 := Nat.div_eq_of_lt subnormal
  refine C96_survives cfg F x mode crs text h (fun _ hx => ?_) hp d k ?_ hread
  · have := hx.2
    rw [hE] at this
    revert this
    cases F <;> decide
  · have h1 : ex F (mag F x) = ex F 1 := by
      unfold ex
      rw [show mag F x / 2 ^ mantBits F = 0 from hE]
      cases F <;> decide
    rw [value_succ, value_eq, h1]
    have h2 : (10 : ℚ) ^ (if F = .b32 then (-44 : Int) else -323) ≤ 10 ^ k := zpow_le_zpow_right₀ (by norm_num) hk
    refine le_trans ?_ h2
    cases F
    · rw [show ex .b32 1 = -149 by decide]
      norm_num
      linarith
    · rw [show ex .b64 1 = -1074 by decide]
      have h3 := smallest64.2
      rw [if_neg (by decide), show (-323 : Int) = -326 + 3 by rfl, zpow_add₀ (by norm_num)]
      have h4 := ten_zpow_pos (-326)
      generalize (10 : ℚ) ^ (-326 : Int) = w at *
      generalize (2 : ℚ) ^ (-1074 : Int) = u at *
      norm_num
      linarith

/-- **C96**, these powers of ten are the smallest: two multiples of the next smaller one are read as the same number. -/
theorem C96_sharp :
    (RoundsTo .b32 .nearest_to_even false (dec 1 (-45)) 1 ∧ RoundsTo .b32 .nearest_to_even false (dec 2 (-45)) 1) ∧
    (RoundsTo .b64 .nearest_to_even false (dec 3 (-324)) 1 ∧ RoundsTo .b64 .nearest_to_even false (dec 4 (-324)) 1) := by
  have a0 : ∀ F, value F 0 = ((0 : Nat) : ℚ) * 2 ^ ex F 1 := fun F => by cases F <;> exact value_eq _
  have a1 : ∀ F, value F 1 = ((1 : Nat) : ℚ) * 2 ^ ex F 1 := fun F => by cases F <;> exact value_eq _
  have a2 : ∀ F, value F 2 = ((2 : Nat) : ℚ) * 2 ^ ex F 1 := fun F => by cases F <;> exact value_eq _
  have e32 : ex .b32 1 = -149 := by decide
  have e64 : ex .b64 1 = -1074 := by decide
  obtain ⟨h1, h2⟩ := smallest64
  have h4 := ten_zpow_pos (-326)
  refine ⟨⟨?_, ?_⟩, ?_, ?_⟩
  all_goals
    refine (nearest_iff (by decide) (by decide)).mpr ⟨Or.inl ?_, Or.inl ?_⟩
  all_goals
    first | rw [show 1 - 1 = 0 from rfl, a0, a1] | rw [show 1 + 1 = 2 from rfl, a1, a2]
  all_goals
    first
    | rw [e32, dec]
      norm_num
    | rw [e64, dec, show (-324 : Int) = -326 + 2 by rfl, zpow_add₀ (by norm_num)]
      generalize (10 : ℚ) ^ (-326 : Int) = w at *
      generalize (2 : ℚ) ^ (-1074 : Int) = u at *
      norm_num
      linarith

/-- **C96** is false of the inputs of C08: 8.796093·10¹², read toward zero as a `float` (the next is 524288 larger), is printed
with one more digit. -/
theorem C96_exception (cfg : Cfg) (crs : Crs) :
    value .b32 (mag .b32 0x54FFFFFF + 1) - value .b32 (mag .b32 0x54FFFFFF) ≤ 10 ^ (6 : Int) ∧
    RoundsTo .b32 .toward_zero false (dec 8796093 6) (mag .b32 0x54FFFFFF) ∧
    ∀ text, Prints cfg .b32 0x54FFFFFF .toward_zero crs text → readText text ≠ some (false, dec 8796093 6) := by
  have b0 : value .b32 (mag .b32 0x54FFFFFF) = ((16777215 : Nat) : ℚ) * 2 ^ (19 : Int) := value_eq _
  have b1 : value .b32 (mag .b32 0x54FFFFFF + 1) = ((8388608 : Nat) : ℚ) * 2 ^ (20 : Int) := value_eq _
  refine ⟨?_, ⟨by decide, ?_, ?_⟩, fun text hp => ?_⟩
  · rw [b0, b1]
    norm_num
  · rw [b0, dec]
    norm_num
  · rw [b1, dec]
    norm_num
  · have hx : FiniteNonzero .b32 0x54FFFFFF := ⟨by decide, by decide, by decide⟩
    obtain ⟨r, hr, rfl⟩ := prints_inv hx hp
    have hr' : grisu_exact cfg .b32 false 0x54FFFFFF .toward_zero crs .assert_finite = .ok ⟨87960929, 5, none⟩ := by
      obtain ⟨x64, ndebug⟩ := cfg
      cases x64 <;> cases ndebug <;> cases crs <;> decide +kernel
    rw [hr'] at hr
    cases hr
    rw [read_sci]
    intro e
    have := congrArg Prod.snd (Option.some.inj e)
    norm_num [dec] at this

-- 1.5·10⁻³²² is read as the subnormal `double` with pattern 30, and that prints 1.5·10⁻³²² again
example (cfg : Cfg) : FiniteNonzero .b64 30 ∧ mag .b64 30 < 2 ^ mantBits .b64 ∧
    Prints cfg .b64 30 .nearest_to_even .tie_to_even "1.5E-322".toList ∧
    RoundsTo .b64 .nearest_to_even false (dec 15 (-323)) (mag .b64 30) := by
  have hx : FiniteNonzero .b64 30 := ⟨by decide, by decide, by decide⟩
  have hr : grisu_exact cfg .b64 false 30 .nearest_to_even .tie_to_even .assert_finite = .ok ⟨15, -323, none⟩ := by
    obtain ⟨x64, ndebug⟩ := cfg
    cases x64 <;> cases ndebug <;> decide +kernel
  have ht : "1.5E-322".toList = sci (isNeg .b64 30) 15 (-323) := by decide +kernel
  refine ⟨hx, by decide, ht ▸ prints_finite hx hr, ?_⟩
  have a0 : value .b64 29 = ((29 : Nat) : ℚ) * 2 ^ (-1074 : Int) := value_eq _
  have a1 : value .b64 30 = ((30 : Nat) : ℚ) * 2 ^ (-1074 : Int) := value_eq _
  have a2 : value .b64 31 = ((31 : Nat) : ℚ) * 2 ^ (-1074 : Int) := value_eq _
  obtain ⟨h1, h2⟩ := smallest64
  rw [show mag .b64 30 = 30 by decide]
  refine (nearest_iff (by decide) (by decide)).mpr ⟨Or.inl ?_, Or.inl ?_⟩
  all_goals
    first | rw [show 30 - 1 = 29 from rfl, a0, a1] | rw [show 30 + 1 = 31 from rfl, a1, a2]
    rw [dec, show (-323 : Int) = -326 + 3 by rfl, zpow_add₀ (by norm_num)]
    generalize (10 : ℚ) ^ (-326 : Int) = w at *
    generalize (2 : ℚ) ^ (-1074 : Int) = u at *
    norm_num
    linarith
-- a normal number with more digits than C38 allows: 2⁵³ - 1
example : FiniteNonzero .b64 0x433FFFFFFFFFFFFF ∧
    value .b64 (mag .b64 0x433FFFFFFFFFFFFF + 1) - value .b64 (mag .b64 0x433FFFFFFFFFFFFF) ≤ 10 ^ (0 : Int) ∧
    RoundsTo .b64 .toward_zero false (dec 9007199254740991 0) (mag .b64 0x433FFFFFFFFFFFFF) := by
  have b0 : value .b64 (mag .b64 0x433FFFFFFFFFFFFF) = ((9007199254740991 : Nat) : ℚ) * 2 ^ (0 : Int) := value_eq _
  have b1 : value .b64 (mag .b64 0x433FFFFFFFFFFFFF + 1) = ((4503599627370496 : Nat) : ℚ) * 2 ^ (1 : Int) := value_eq _
  refine ⟨⟨by decide, by decide, by decide⟩, ?_, by decide, ?_, ?_⟩
  · rw [b0, b1]; norm_num
  · rw [b0, dec]; norm_num
  · rw [b1, dec]; norm_num

end Grisu
