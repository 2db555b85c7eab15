import Verif.Proofs.Widen
import Verif.Properties.Text

/-! # C87: a `float` printed as a `double` -/

namespace Grisu
open Spec

/-- `y` is the finite nonzero `float` `x` converted to `double`: same sign, same value. -/
structure Widens (x y : Nat) : Prop where
  float : FiniteNonzero .b32 x
  double : FiniteNonzero .b64 y
  sign : isNeg .b32 x = isNeg .b64 y
  value : value .b32 (mag .b32 x) = value .b64 (mag .b64 y)

/-- Every finite nonzero `float` can be converted, in one way. -/
theorem C87_conversion (x : Nat) (h : FiniteNonzero .b32 x) : ∃! y, Widens x y := by
  obtain ⟨c, hc⟩ := value32_is (mag .b32 x)
  have hc0 : 0 < c := by
    rcases Nat.eq_zero_or_pos c with rfl | h0
    · rw [value_zero] at hc
      exact absurd hc (ne_of_lt (value_pos h.nonzero))
    · exact h0
  have hlt : value .b32 (infPattern .b32) < Spec.value .b64 (infPattern .b64) := by
    rw [value_eq, value_eq, show sg .b32 (infPattern .b32) = 2 ^ 23 by decide, show sg .b64 (infPattern .b64) = 2 ^ 52 by decide,
      show ex .b32 (infPattern .b32) = 105 by decide, show ex .b64 (infPattern .b64) = 972 by decide]
    have e : (2 : ℚ) ^ (972 : Int) = 2 ^ (872 : Nat) * 2 ^ (100 : Nat) := by rw [← pow_add]; exact zpow_natCast 2 972
    have e' : (1 : ℚ) ≤ 2 ^ (872 : Nat) := one_le_pow₀ (by norm_num)
    have e'' : (2 : ℚ) ^ (105 : Int) = 2 ^ (105 : Nat) := zpow_natCast 2 105
    rw [e, e'']
    generalize (2 : ℚ) ^ 872 = a at e' ⊢
    push_cast
    norm_num
    linarith
  have hci : c < infPattern .b64 := value_strictMono.lt_iff_lt.mp
    (show Spec.value .b64 c < Spec.value .b64 (infPattern .b64) by
      rw [hc]
      exact (value_strictMono h.finite).trans hlt)
  have hci' : c < 2 ^ 63 := hci.trans (by decide)
  refine ⟨if isNeg .b32 x then 2 ^ 63 + c else c, ⟨h, ⟨?_, ?_, ?_⟩, ?_, ?_⟩, ?_⟩
  · show _ < 2 ^ 64
    split <;> omega
  · show 0 < _ % 2 ^ 63
    split <;> omega
  · show _ % 2 ^ 63 < _
    split
    · rwa [Nat.add_mod_left, Nat.mod_eq_of_lt hci']
    · rwa [Nat.mod_eq_of_lt hci']
  · show _ = decide (2 ^ 63 ≤ _)
    cases isNeg .b32 x
    · exact (decide_eq_false (by rw [if_neg (by decide)]; omega)).symm
    · exact (decide_eq_true (by rw [if_pos rfl]; omega)).symm
  · show _ = Spec.value .b64 (_ % 2 ^ 63)
    rw [← hc]
    split
    · rw [Nat.add_mod_left, Nat.mod_eq_of_lt hci']
    · rw [Nat.mod_eq_of_lt hci']
  · rintro y ⟨-, hy, hs, hv⟩
    have h1 : mag .b64 y = c := value_strictMono.injective (hv.symm.trans hc.symm)
    have h2 : y % 2 ^ 63 = c := h1
    have h3 : isNeg .b32 x = decide (2 ^ 63 ≤ y) := hs
    have h4 : y < 2 ^ 64 := hy.inRange
    rw [h3]
    by_cases h5 : 2 ^ 63 ≤ y
    · rw [decide_eq_true h5, if_pos rfl]
      omega
    · rw [decide_eq_false h5, if_neg (by decide)]
      omega

theorem Widens.rounds {x y : Nat} (w : Widens x y) {mode : RoundingMode} {neg : Bool} {v : ℚ}
    (h : RoundsTo .b64 mode neg v (mag .b64 y)) : RoundsTo .b32 mode neg v (mag .b32 x) := by
  have hn : ∀ {P Q : Nat → Nat → Prop}, Nearest .b64 P v (mag .b64 y) → Nearest .b32 Q v (mag .b32 x) := fun h =>
    nearest_widen w.value w.float.nonzero w.float.finite w.double.nonzero w.double.finite h
  have ht := toward_widen (v := v) w.value w.float.finite
  have ha := away_widen (v := v) w.value w.float.nonzero w.float.finite
  cases mode <;> cases neg <;> first | exact hn h | exact ht h | exact ha h

theorem Widens.rounds_nearest {x y : Nat} (w : Widens x y) {mode mode' : RoundingMode} {neg neg' : Bool} {v : ℚ}
    (hm : IsNearest mode = true) (hm' : IsNearest mode' = true) (h : RoundsTo .b64 mode neg v (mag .b64 y)) :
    RoundsTo .b32 mode' neg' v (mag .b32 x) := by
  have hn : ∀ {P Q : Nat → Nat → Prop}, Nearest .b64 P v (mag .b64 y) → Nearest .b32 Q v (mag .b32 x) := fun h =>
    nearest_widen w.value w.float.nonzero w.float.finite w.double.nonzero w.double.finite h
  obtain ⟨P, h⟩ : ∃ P, Nearest .b64 P v (mag .b64 y) := by
    cases mode <;> first | (exact absurd hm (by decide)) | (cases neg <;> exact ⟨_, h⟩)
  cases mode' <;> first | (exact absurd hm' (by decide)) | (cases neg' <;> exact hn h)

/-- **C87**: the text printed for a `float` after conversion to `double` also reads as that `float`, in the same mode. -/
theorem C87_text (cfg : Cfg) (x y : Nat) (mode : RoundingMode) (crs : Crs) (text : List Char) (w : Widens x y)
    (hp : Prints cfg .b64 y mode crs text) :
    ∃ v, readText text = some (isNeg .b32 x, v) ∧ RoundsTo .b32 mode (isNeg .b32 x) v (mag .b32 x) := by
  obtain ⟨v, h1, h2⟩ := C31_roundtrip cfg .b64 y mode crs text w.double hp
  exact ⟨v, by rw [w.sign]; exact h1, w.sign ▸ w.rounds h2⟩

/-- **C87**, to-nearest modes: it does so in any other to-nearest mode, since it is never at a tie. -/
theorem C87_text_nearest (cfg : Cfg) (x y : Nat) (mode mode' : RoundingMode) (crs : Crs) (text : List Char) (w : Widens x y)
    (hm : IsNearest mode = true) (hm' : IsNearest mode' = true) (hp : Prints cfg .b64 y mode crs text) :
    ∃ v, readText text = some (isNeg .b32 x, v) ∧ RoundsTo .b32 mode' (isNeg .b32 x) v (mag .b32 x) := by
  obtain ⟨v, h1, h2⟩ := C31_roundtrip cfg .b64 y mode crs text w.double hp
  exact ⟨v, by rw [w.sign]; exact h1, w.rounds_nearest hm hm' h2⟩

/-- **C87**: conversion to `double` never makes the output shorter. -/
theorem C87_digits (cfg cfg' : Cfg) (rs rs' : Bool) (x y : Nat) (mode : RoundingMode) (crs crs' : Crs)
    (handler handler' : CaseHandler) (w : Widens x y)
    (hm : IsNearest mode = true ∨ IsAway (isNeg .b32 x) mode = true) :
    ∃ r r', grisu_exact cfg .b32 rs x mode crs handler = .ok r ∧
      grisu_exact cfg' .b64 rs' y mode crs' handler' = .ok r' ∧ numDigits r.significand ≤ numDigits r'.significand := by
  rcases hm with hm | hm
  · obtain ⟨r, h1, h2⟩ := C03_shortest_nearest cfg .b32 rs x mode crs handler w.float hm
    obtain ⟨r', h3, h4⟩ := C02_roundtrip_nearest cfg' .b64 rs' y mode crs' handler' w.double hm
    exact ⟨r, r', h1, h3, h2 _ _ (w.sign ▸ w.rounds h4)⟩
  · obtain ⟨r, h1, h2⟩ := C06_shortest_away cfg .b32 rs x mode crs handler w.float hm
    obtain ⟨r', h3, h4, -⟩ := C06_roundtrip_away cfg' .b64 rs' y mode crs' handler' w.double (w.sign ▸ hm)
    exact ⟨r, r', h1, h3, h2 _ _ (w.sign ▸ w.rounds h4)⟩

/-- **C87**, the other direction fails: the text printed for a `float` may read as a `double` that rounds to another `float`
(an intermediate rounding to the midpoint of two `float`s). -/
theorem C87_narrowing (cfg : Cfg) : Prints cfg .b32 0x15AE43FD .nearest_to_even .tie_to_even "7.038531E-26".toList ∧
    readText "7.038531E-26".toList = some (false, dec 7038531 (-32)) ∧
    RoundsTo .b64 .nearest_to_even false (dec 7038531 (-32)) 0x3AB5C87FB0000000 ∧
    RoundsTo .b32 .nearest_to_even false (value .b64 0x3AB5C87FB0000000) 0x15AE43FE := by
  have hx : FiniteNonzero .b32 0x15AE43FD := ⟨by decide, by decide, by decide⟩
  have hr : grisu_exact cfg .b32 false 0x15AE43FD .nearest_to_even .tie_to_even .assert_finite = .ok ⟨7038531, -32, none⟩ := by
    obtain ⟨x64, ndebug⟩ := cfg
    cases x64 <;> cases ndebug <;> decide +kernel
  have ht : "7.038531E-26".toList = sci (isNeg .b32 0x15AE43FD) 7038531 (-32) := by decide +kernel
  have a0 : value .b64 0x3AB5C87FAFFFFFFF = ((6131425250115583 : Nat) : ℚ) * 2 ^ (-136 : Int) := value_eq _
  have a1 : value .b64 0x3AB5C87FB0000000 = ((6131425250115584 : Nat) : ℚ) * 2 ^ (-136 : Int) := value_eq _
  have a2 : value .b64 0x3AB5C87FB0000001 = ((6131425250115585 : Nat) : ℚ) * 2 ^ (-136 : Int) := value_eq _
  have b0 : value .b32 0x15AE43FD = ((11420669 : Nat) : ℚ) * 2 ^ (-107 : Int) := value_eq _
  have b1 : value .b32 0x15AE43FE = ((11420670 : Nat) : ℚ) * 2 ^ (-107 : Int) := value_eq _
  have b2 : value .b32 0x15AE43FF = ((11420671 : Nat) : ℚ) * 2 ^ (-107 : Int) := value_eq _
  refine ⟨?_, ?_, ?_, ?_⟩
  · rw [ht]
    exact prints_finite hx hr
  · rw [ht]
    exact read_sci _ _ _
  · refine (nearest_iff (by decide) (by decide)).mpr ⟨Or.inl ?_, Or.inl ?_⟩
    · rw [show 0x3AB5C87FB0000000 - 1 = 0x3AB5C87FAFFFFFFF from rfl, a0, a1, dec]
      norm_num
    · rw [show 0x3AB5C87FB0000000 + 1 = 0x3AB5C87FB0000001 from rfl, a1, a2, dec]
      norm_num
  · refine (nearest_iff (by decide) (by decide)).mpr ⟨Or.inr ⟨?_, show 0x15AE43FE % 2 = 0 by decide⟩, Or.inl ?_⟩
    · rw [show 0x15AE43FE - 1 = 0x15AE43FD from rfl, b0, b1, a1]
      norm_num
    · rw [show 0x15AE43FE + 1 = 0x15AE43FF from rfl, b1, b2, a1]
      norm_num

-- 0.1f and its conversion, which needs 17 digits
example : Widens 0x3DCCCCCD 0x3FB99999A0000000 := by
  refine ⟨⟨by decide, by decide, by decide⟩, ⟨by decide, by decide, by decide⟩, by decide, ?_⟩
  rw [show mag .b32 0x3DCCCCCD = 0x3DCCCCCD by decide, show mag .b64 0x3FB99999A0000000 = 0x3FB99999A0000000 by decide,
    show value .b32 0x3DCCCCCD = ((13421773 : Nat) : ℚ) * 2 ^ (-27 : Int) from value_eq _,
    show value .b64 0x3FB99999A0000000 = ((7205759511166976 : Nat) : ℚ) * 2 ^ (-56 : Int) from value_eq _]
  norm_num
example : grisu_exact ⟨true, false⟩ .b32 false 0x3DCCCCCD .nearest_to_even .tie_to_even .assert_finite =
    .ok ⟨1, -1, none⟩ := by decide +kernel
example : grisu_exact ⟨true, false⟩ .b64 false 0x3FB99999A0000000 .nearest_to_even .tie_to_even .assert_finite =
    .ok ⟨10000000149011612, -17, none⟩ := by decide +kernel

end Grisu
