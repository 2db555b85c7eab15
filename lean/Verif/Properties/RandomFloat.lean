import Verif.Proofs.RandomFloat

/-! # The test data generators -/

namespace Grisu
open Spec (RoundsTo value mag isNeg FiniteNonzero dec numDigits width infPattern CorrectParser)

/-! ## C59 -/

/-- **C59**: whatever the draws, the generator does not fault; and a number it returns needs exactly `digits`
decimal digits (or is zero, for `digits = 1`) and has the drawn sign. -/
theorem C59_given_digits (cfg : Cfg) (F : Fmt) (parse : Bool → Nat → Int → Option Nat) (digits : Nat)
    (sign_draw : Int) (draws : List Draw) (hp : CorrectParser F parse) (h1 : 1 ≤ digits)
    (h2 : digits ≤ genDigits F) (hd : ∀ d ∈ draws, DrawOk F digits d) :
    (∃ b, given_digits cfg F parse digits sign_draw draws = .ok b ∧
      (digits = 1 ∧ b = 0 ∨ FiniteNonzero F b ∧ isNeg F b = decide (sign_draw ≠ 0) ∧ LeastDigits F b digits)) ∨
    given_digits cfg F parse digits sign_draw draws = .fault .loopFuel := by
  rw [given_digits_eq cfg h1 h2]
  have := loop_spec cfg hp h1 h2 (sign := if sign_draw = 0 then 1 else -1) (by split <;> simp) rfl draws hd
  have hs : decide ((if sign_draw = 0 then (1 : Int) else -1) = -1) = decide (sign_draw ≠ 0) := by
    by_cases h : sign_draw = 0 <;> simp [h]
  rw [hs] at this
  exact this.imp id fun h => h.1

/-- **C59**, nothing is discarded needlessly: if no round returns, then each draw was refused by the parser or
denotes a number that can be written with fewer digits. -/
theorem C59_discarded (cfg : Cfg) (F : Fmt) (parse : Bool → Nat → Int → Option Nat) (digits : Nat)
    (sign_draw : Int) (draws : List Draw) (hp : CorrectParser F parse) (h1 : 1 ≤ digits)
    (h2 : digits ≤ genDigits F) (hd : ∀ d ∈ draws, DrawOk F digits d)
    (hf : given_digits cfg F parse digits sign_draw draws = .fault .loopFuel) :
    ∀ d ∈ draws, ∀ b, parse (decide (sign_draw ≠ 0 ∧ d.sig digits ≠ 0)) (d.sig digits) d.exp = some b →
      ∃ s t, numDigits s < digits ∧ RoundsTo F .nearest_to_even (isNeg F b) (dec s t) (mag F b) := by
  rw [given_digits_eq cfg h1 h2] at hf
  rcases loop_spec cfg hp h1 h2 (sign := if sign_draw = 0 then 1 else -1) (by split <;> simp) rfl draws hd with
    ⟨b, h, -⟩ | ⟨-, h⟩
  · rw [hf] at h; cases h
  · intro d hmem b hb
    have hs : decide ((if sign_draw = 0 then (1 : Int) else -1) = -1 ∧ d.sig digits ≠ 0) =
        decide (sign_draw ≠ 0 ∧ d.sig digits ≠ 0) := by
      by_cases h : sign_draw = 0 <;> simp [h]
    obtain ⟨-, n, ⟨⟨s, t, e1, e2⟩, -⟩, e3⟩ := h d hmem b (by rw [hs]; exact hb)
    exact ⟨s, t, by omega, e2⟩

-- a parser that knows only 1.2
example : CorrectParser .b32 (fun neg s t => if neg = false ∧ s = 12 ∧ t = -1 then some 0x3F99999A else none) := by
  intro neg s t b h
  simp only at h
  split at h
  · rename_i hc
    obtain ⟨rfl, rfl, rfl⟩ := hc
    cases h
    obtain ⟨r, h1, h2⟩ := C02_roundtrip_nearest ⟨true, false⟩ .b32 true 0x3F99999A .nearest_to_even .tie_to_even
      .assert_finite ⟨by decide, by decide, by decide⟩ rfl
    have h3 : grisu_exact ⟨true, false⟩ .b32 true 0x3F99999A .nearest_to_even .tie_to_even .assert_finite =
      .ok ⟨12, -1, some false⟩ := by decide +kernel
    rw [h3] at h1
    cases h1
    exact ⟨by decide, by decide, by decide, h2⟩
  · cases h
-- two digits; 1.2 is parsed and returned
example : ∀ d ∈ [(⟨1, 2, -1⟩ : Draw)], DrawOk .b32 2 d := by
  intro d hd
  rw [List.mem_singleton] at hd
  subst hd
  exact ⟨by decide, by decide, by decide, by decide, by decide, by decide⟩
example : given_digits ⟨true, false⟩ .b32 (fun _ _ _ => some 0x3F99999A) 2 0 [⟨1, 2, -1⟩] = .ok 0x3F99999A := by
  decide +kernel
-- 123456789e-8 needs only eight digits as a float and is discarded
example : given_digits ⟨true, false⟩ .b32 (fun _ _ _ => some 0x3F9E0652) 9 0 [⟨12345678, 9, -8⟩] =
    .fault .loopFuel := by decide +kernel

/-! ## C60 -/

/-- **C60**: the bit pattern of the uniform generator is that of a finite number, and every finite number comes
from exactly one triple of draws. -/
theorem C60_uniform (F : Fmt) :
    (∀ a b c, a < 2 → b < 2 ^ (width F - 1 - Spec.mantBits F) - 1 → c < 2 ^ Spec.mantBits F →
      uniform_finite F a b c < 2 ^ width F ∧ mag F (uniform_finite F a b c) < infPattern F) ∧
    (∀ x, x < 2 ^ width F → mag F x < infPattern F →
      ∃! t : Nat × Nat × Nat, (t.1 < 2 ∧ t.2.1 < 2 ^ (width F - 1 - Spec.mantBits F) - 1 ∧
        t.2.2 < 2 ^ Spec.mantBits F) ∧ uniform_finite F t.1 t.2.1 t.2.2 = x) := by
  constructor
  · intro a b c ha hb hc
    rw [uniform_finite_eq ha (by cases F <;> exact hb) (by cases F <;> exact hc)]
    unfold mag
    cases F <;> simp only [Fmt.q, Fmt.p, width, infPattern, Spec.mantBits] at * <;> omega
  · intro x hx hf
    refine ⟨⟨x / 2 ^ (width F - 1), mag F x / 2 ^ Spec.mantBits F, mag F x % 2 ^ Spec.mantBits F⟩, ⟨⟨?_, ?_, ?_⟩, ?_⟩, ?_⟩
    · cases F <;> simp only [width] at * <;> omega
    · unfold mag at *
      cases F <;> simp only [width, infPattern, Spec.mantBits] at * <;> omega
    · exact Nat.mod_lt _ (by positivity)
    · rw [uniform_finite_eq]
      · unfold mag at *
        cases F <;> simp only [Fmt.q, Fmt.p, width, infPattern, Spec.mantBits] at * <;> omega
      · cases F <;> simp only [width] at * <;> omega
      · unfold mag at *
        cases F <;> simp only [Fmt.exponent_bits, Fmt.q, Fmt.p, width, infPattern, Spec.mantBits] at * <;> omega
      · cases F <;> exact Nat.mod_lt _ (by decide)
    · rintro ⟨a, b, c⟩ ⟨⟨ha, hb, hc⟩, rfl⟩
      rw [uniform_finite_eq ha (by cases F <;> exact hb) (by cases F <;> exact hc)]
      simp only at ha hb hc
      simp only [Prod.mk.injEq]
      unfold mag
      cases F <;> simp only [Fmt.q, Fmt.p, width, Spec.mantBits] at * <;> omega

example : uniform_finite .b32 1 127 (2 ^ 22) = 0xBFC00000 := by decide

/-! ## C61 -/

/-- **C61**: the array is filled with the stored values, repeated cyclically. -/
theorem C61_seeds (stored buf : List Nat) (hs : stored ≠ []) :
    ∃ r, seed_generate stored buf = .ok r ∧ r.length = buf.length ∧
      ∀ i, i < buf.length → r[i]? = stored[i % stored.length]? := by
  have hs' : 0 < stored.length := List.length_pos_of_ne_nil hs
  obtain ⟨r, h1, h2, h3⟩ := seed_generate_spec (buf := buf) hs'
  refine ⟨r, h1, h2, fun i hi => ?_⟩
  have hm := Nat.mod_lt i hs'
  have := h3 i hi
  have hr : i < r.length := by omega
  unfold el at this
  rw [List.getD_eq_getElem _ _ hr, List.getD_eq_getElem _ _ hm] at this
  rw [List.getElem?_eq_getElem hm, List.getElem?_eq_getElem hr, this]

/-- **C61** needs a stored value: without one the count is divided by zero. -/
theorem C61_empty (buf : List Nat) : seed_generate [] buf = .fault .precondition := rfl

example : seed_generate [3, 1, 4] [0, 0, 0, 0, 0, 0, 0, 0] = .ok [3, 1, 4, 3, 1, 4, 3, 1] := by decide

end Grisu
