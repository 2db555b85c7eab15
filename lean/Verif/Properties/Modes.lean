import Verif.Properties.Nearest

/-! # Sign, static-boundary modes, optional parts of the result: C12, C13, C29 -/

namespace Grisu

open Spec (isNeg mag FiniteNonzero)

variable {F : Fmt}

namespace Spec

/-- The pattern with the sign bit inverted. -/
def flipSign (F : Fmt) (x : Nat) : Nat :=
  if isNeg F x then x - 2 ^ (width F - 1) else x + 2 ^ (width F - 1)

/-- Exchange plus and minus infinity in a rounding mode. -/
def mirror : RoundingMode → RoundingMode
  | .nearest_toward_plus_infinity => .nearest_toward_minus_infinity
  | .nearest_toward_minus_infinity => .nearest_toward_plus_infinity
  | .nearest_toward_plus_infinity_static_boundary => .nearest_toward_minus_infinity_static_boundary
  | .nearest_toward_minus_infinity_static_boundary => .nearest_toward_plus_infinity_static_boundary
  | .toward_plus_infinity => .toward_minus_infinity
  | .toward_minus_infinity => .toward_plus_infinity
  | m => m

/-- Each static-boundary mode and the mode it is a variant of. -/
def IsStaticVariant (m m' : RoundingMode) : Prop :=
  (m = .nearest_to_even_static_boundary ∧ m' = .nearest_to_even) ∨
  (m = .nearest_to_odd_static_boundary ∧ m' = .nearest_to_odd) ∨
  (m = .nearest_toward_plus_infinity_static_boundary ∧ m' = .nearest_toward_plus_infinity) ∨
  (m = .nearest_toward_minus_infinity_static_boundary ∧ m' = .nearest_toward_minus_infinity)

end Spec

open Spec (flipSign mirror IsStaticVariant)

/-! ## Proofs -/

theorem setup_congr {cfg : Cfg} {prov prov' : Provider} {crs : Crs} {a b : Nat}
    (hp : promote F a = promote F b) (ht : prov.tag = prov'.tag) (hi : prov.interval F a = prov'.interval F b) :
    setup cfg F prov crs a = setup cfg F prov' crs b := by
  unfold setup
  rw [hp, ht, hi]

theorem compute_congr {cfg : Cfg} {prov prov' : Provider} {crs : Crs} {a b : Nat} {rs : Bool}
    (hp : promote F a = promote F b) (ht : prov.tag = prov'.tag) (hi : prov.interval F a = prov'.interval F b)
    (hs : rs = true → BitRep.is_negative F a = BitRep.is_negative F b) :
    compute cfg F rs prov crs a = compute cfg F rs prov' crs b := by
  unfold compute
  rw [setup_congr hp ht hi]
  cases rs with
  | false => rfl
  | true => rw [hs rfl]

theorem flip_add {x : Nat} (h : x < 2 ^ (F.q - 1)) : promote F (x + 2 ^ (F.q - 1)) = promote F x ∧
    BitRep.is_finite F (x + 2 ^ (F.q - 1)) = BitRep.is_finite F x ∧
    (x + 2 ^ (F.q - 1)) % 2 = x % 2 ∧
    BitRep.is_negative F (x + 2 ^ (F.q - 1)) = true ∧ BitRep.is_negative F x = false := by
  have e1 : wrap F.q ((x + 2 ^ (F.q - 1)) * 2 ^ F.exponent_bits) = wrap F.q (x * 2 ^ F.exponent_bits) := by
    have : (x + 2 ^ (F.q - 1)) * 2 ^ F.exponent_bits =
        x * 2 ^ F.exponent_bits + 2 ^ F.q * 2 ^ (F.exponent_bits - 1) := by
      rw [Nat.add_mul]
      congr 1
      cases F <;> decide
    unfold wrap
    rw [this, Nat.add_mul_mod_self_left]
  have e2 : (x + 2 ^ (F.q - 1)) / 2 ^ F.p &&& (F.exponent_bits_mask / 2 ^ F.p) =
      x / 2 ^ F.p &&& (F.exponent_bits_mask / 2 ^ F.p) := by
    have h1 : F.exponent_bits_mask / 2 ^ F.p = 2 ^ F.exponent_bits - 1 := by cases F <;> decide
    have h2 : (x + 2 ^ (F.q - 1)) / 2 ^ F.p = x / 2 ^ F.p + 2 ^ F.exponent_bits := by
      have : 2 ^ (F.q - 1) = 2 ^ F.exponent_bits * 2 ^ F.p := by cases F <;> decide
      rw [this, Nat.add_mul_div_right _ _ (by positivity)]
    rw [h1, h2, Nat.and_two_pow_sub_one_eq_mod, Nat.and_two_pow_sub_one_eq_mod, Nat.add_mod_right]
  refine ⟨?_, ?_, ?_, ?_, ?_⟩
  · unfold promote
    rw [e1, e2]
  · unfold BitRep.is_finite
    have : (x + 2 ^ (F.q - 1)) &&& F.exponent_bits_mask = x &&& F.exponent_bits_mask := by
      rw [Nat.add_comm, ← Nat.mul_one (2 ^ (F.q - 1)), Nat.two_pow_add_eq_or_of_lt h, Nat.mul_one, Nat.and_or_distrib_right]
      have : 2 ^ (F.q - 1) &&& F.exponent_bits_mask = 0 := by cases F <;> decide
      rw [this, Nat.zero_or]
    rw [this]
  · have : 2 ^ (F.q - 1) = 2 * 2 ^ (F.q - 2) := by cases F <;> decide
    rw [this, Nat.add_mul_mod_self_left]
  · unfold BitRep.is_negative
    rw [Nat.add_div_right _ (by positivity)]
    simp
  · unfold BitRep.is_negative
    rw [Nat.div_eq_of_lt h]
    simp

theorem flip_facts {x : Nat} (h : x < 2 ^ Spec.width F) : flipSign F x < 2 ^ F.q ∧
    promote F (flipSign F x) = promote F x ∧
    BitRep.is_finite F (flipSign F x) = BitRep.is_finite F x ∧
    flipSign F x % 2 = x % 2 ∧
    BitRep.is_negative F (flipSign F x) = !BitRep.is_negative F x := by
  have hw : Spec.width F = F.q := by cases F <;> rfl
  have h2 : 2 ^ F.q = 2 * 2 ^ (F.q - 1) := by cases F <;> decide
  unfold flipSign isNeg
  rw [hw] at h ⊢
  by_cases hn : 2 ^ (F.q - 1) ≤ x
  · simp only [hn, decide_true, if_true]
    obtain ⟨a1, a2, a3, a4, a5⟩ := flip_add (F := F) (x := x - 2 ^ (F.q - 1)) (by omega)
    rw [Nat.sub_add_cancel hn] at a1 a2 a3 a4
    exact ⟨by omega, a1.symm, a2.symm, a3.symm, by rw [a4, a5]; rfl⟩
  · simp only [hn, decide_false, Bool.false_eq_true, if_false]
    obtain ⟨a1, a2, a3, a4, a5⟩ := flip_add (F := F) (x := x) (by omega)
    exact ⟨by omega, a1, a2, a3, by rw [a4, a5]; rfl⟩

theorem grisu_exact_unfold {x : Nat} (h : x < 2 ^ Spec.width F) (cfg : Cfg) (rs : Bool) (mode : RoundingMode)
    (crs : Crs) (handler : CaseHandler) :
    grisu_exact cfg F rs x mode crs handler =
      (handler.call cfg F x >>= fun _ => compute cfg F rs (mode.provider F x) crs x) := by
  have hw : Spec.width F = F.q := by cases F <;> rfl
  unfold grisu_exact
  rw [show get_bit_representation F x = x from wrap_of_lt (hw ▸ h)]

/-! ## C12 -/

/-- **C12**: `is_negative` is the sign bit. -/
theorem C12_is_negative (cfg : Cfg) (F : Fmt) (x : Nat) (mode : RoundingMode) (crs : Crs)
    (handler : CaseHandler) (r : FpT) (hx : x < 2 ^ Spec.width F)
    (hr : grisu_exact cfg F true x mode crs handler = .ok r) : r.is_negative = some (isNeg F x) := by
  rw [grisu_exact_unfold hx] at hr
  rw [isNeg_eq]
  cases hh : handler.call cfg F x with
  | fault e => rw [hh] at hr; simp at hr
  | ok u =>
    rw [hh] at hr
    simp only [Exec.ok_bind, compute] at hr
    cases h1 : setup cfg F (mode.provider F x) crs x with
    | fault e => rw [h1] at hr; simp at hr
    | ok c =>
      rw [h1] at hr
      simp only [Exec.ok_bind] at hr
      cases h2 : c.search with
      | fault e => rw [h2] at hr; simp at hr
      | ok ls =>
        rw [h2] at hr
        simp only [Exec.ok_bind] at hr
        cases h3 : c.finish ls with
        | fault e => rw [h3] at hr; simp at hr
        | ok se =>
          rw [h3] at hr
          simp only [Exec.ok_bind, if_true] at hr
          cases hr
          rfl

/-- **C12**: inverting the sign bit and exchanging plus and minus infinity in the mode changes neither
the significand nor the exponent (nor whether the call returns). -/
theorem C12_mirror (cfg : Cfg) (F : Fmt) (x : Nat) (mode : RoundingMode) (crs : Crs)
    (handler : CaseHandler) (hx : x < 2 ^ Spec.width F) :
    grisu_exact cfg F false (flipSign F x) (mirror mode) crs handler =
      grisu_exact cfg F false x mode crs handler := by
  obtain ⟨h1, h2, h3, h4, h5⟩ := flip_facts hx
  have hw : Spec.width F = F.q := by cases F <;> rfl
  rw [grisu_exact_unfold hx, grisu_exact_unfold (hw ▸ h1)]
  have hh : handler.call cfg F (flipSign F x) = handler.call cfg F x := by
    cases handler
    · show cassert _ _ = cassert _ _
      rw [h3]
    · rfl
  rw [hh]
  congr 1
  funext _
  refine compute_congr h2 ?_ ?_ (by simp)
  · cases mode <;> simp only [mirror, RoundingMode.provider, h4, h5] <;>
      cases BitRep.is_negative F x <;> rfl
  · rcases Nat.mod_two_eq_zero_or_one x with hx2 | hx2 <;> rw [hx2] at h4 <;>
      cases mode <;> cases hn : BitRep.is_negative F x <;> rw [hn] at h5 <;>
      simp [mirror, RoundingMode.provider, Provider.interval, h4, h5, hn, hx2]

/-- **C12**: in the sign-symmetric modes significand and exponent do not depend on the sign. -/
theorem C12_symmetric (cfg : Cfg) (F : Fmt) (x : Nat) (mode : RoundingMode) (crs : Crs)
    (handler : CaseHandler) (hx : x < 2 ^ Spec.width F) (hm : mirror mode = mode) :
    grisu_exact cfg F false (flipSign F x) mode crs handler = grisu_exact cfg F false x mode crs handler := by
  have := C12_mirror cfg F x mode crs handler hx
  rwa [hm] at this

example : flipSign .b64 0x3FF0000000000000 = 0xBFF0000000000000 ∧
    flipSign .b64 0xBFF0000000000000 = 0x3FF0000000000000 := by decide
example : mirror .toward_zero = .toward_zero ∧ mirror .nearest_to_even = .nearest_to_even ∧
    mirror .toward_plus_infinity ≠ .toward_plus_infinity := by decide
example : grisu_exact ⟨true, false⟩ .b32 true 0xBDCCCCCD .toward_minus_infinity .tie_to_even .assert_finite =
    .ok ⟨1, -1, some true⟩ := by decide +kernel
example : grisu_exact ⟨true, false⟩ .b32 true 0xBDCCCCCD .toward_plus_infinity .tie_to_even .assert_finite =
    .ok ⟨100000002, -9, some true⟩ := by decide +kernel

/-! ## C13 -/

/-- **C13**: a static-boundary mode is the same function as the mode it is a variant of, on every bit
pattern. -/
theorem C13_static_boundary (cfg : Cfg) (F : Fmt) (rs : Bool) (x : Nat) (mode mode' : RoundingMode) (crs : Crs)
    (handler : CaseHandler) (hv : IsStaticVariant mode mode') :
    grisu_exact cfg F rs x mode crs handler = grisu_exact cfg F rs x mode' crs handler := by
  unfold grisu_exact
  simp only
  congr 1
  funext _
  refine compute_congr rfl ?_ ?_ (fun _ => rfl)
  · rcases hv with ⟨rfl, rfl⟩ | ⟨rfl, rfl⟩ | ⟨rfl, rfl⟩ | ⟨rfl, rfl⟩ <;>
      simp only [RoundingMode.provider] <;> split <;> rfl
  · rcases hv with ⟨rfl, rfl⟩ | ⟨rfl, rfl⟩ | ⟨rfl, rfl⟩ | ⟨rfl, rfl⟩ <;>
      simp only [RoundingMode.provider] <;> split <;>
      simp_all [Provider.interval, Interval.symmetric_boundary, Interval.asymmetric_boundary, Interval.closed,
        Interval.open, Interval.left_closed_right_open, Interval.right_closed_left_open]

example : IsStaticVariant .nearest_to_odd_static_boundary .nearest_to_odd := by simp [IsStaticVariant]
-- the four modes do differ from each other
example : grisu_exact ⟨true, false⟩ .b32 true 0x4C000001 .nearest_to_even .do_not_care .assert_finite ≠
    grisu_exact ⟨true, false⟩ .b32 true 0x4C000001 .nearest_to_odd_static_boundary .do_not_care .assert_finite := by
  decide +kernel

/-! ## C29 -/

/-- **C29**: the unsigned variant returns the same significand and exponent, and returns whenever the
signed one does. -/
theorem C29_return_sign (cfg : Cfg) (F : Fmt) (x : Nat) (mode : RoundingMode) (crs : Crs)
    (handler : CaseHandler) :
    (∀ r, grisu_exact cfg F true x mode crs handler = .ok r →
      grisu_exact cfg F false x mode crs handler = .ok ⟨r.significand, r.exponent, none⟩) ∧
    (∀ e, grisu_exact cfg F true x mode crs handler = .fault e →
      grisu_exact cfg F false x mode crs handler = .fault e) := by
  unfold grisu_exact
  simp only
  cases handler.call cfg F (get_bit_representation F x) with
  | fault e => simp
  | ok u =>
    simp only [Exec.ok_bind, compute]
    cases h1 : setup cfg F (mode.provider F (get_bit_representation F x)) crs (get_bit_representation F x) with
    | fault e => simp
    | ok c =>
      simp only [Exec.ok_bind]
      cases c.search with
      | fault e => simp
      | ok ls =>
        simp only [Exec.ok_bind]
        cases c.finish ls with
        | fault e => simp
        | ok se =>
          simp only [Exec.ok_bind]
          refine ⟨?_, fun e he => by simp at he⟩
          intro r hr
          cases hr
          rfl

/-- **C29**: on finite inputs (zero included) the case handler does not matter. -/
theorem C29_handler (cfg : Cfg) (F : Fmt) (rs : Bool) (x : Nat) (mode : RoundingMode) (crs : Crs)
    (handler handler' : CaseHandler) (hx : x < 2 ^ Spec.width F) (hf : mag F x < Spec.infPattern F) :
    grisu_exact cfg F rs x mode crs handler = grisu_exact cfg F rs x mode crs handler' := by
  have key : ∀ handler : CaseHandler, handler.call cfg F x = .ok () := by
    intro handler
    cases handler
    · show cassert cfg _ = _
      have : BitRep.is_finite F x = true := by
        by_cases h0 : 0 < mag F x
        · exact is_finite_of ⟨hx, h0, hf⟩
        · -- a zero
          have hz : mag F x = 0 := by omega
          have hw : 2 ^ Spec.width F = 2 * 2 ^ (Spec.width F - 1) := by cases F <;> decide
          have : x = 0 ∨ x = 2 ^ (Spec.width F - 1) := by
            unfold mag at hz
            rw [hw] at hx
            obtain ⟨k, rfl⟩ := Nat.dvd_of_mod_eq_zero hz
            have : k < 2 := by
              by_contra hk
              have : 2 ^ (Spec.width F - 1) * 2 ≤ 2 ^ (Spec.width F - 1) * k := Nat.mul_le_mul_left _ (by omega)
              omega
            interval_cases k <;> simp
          rcases this with rfl | rfl <;> cases F <;> decide
      rw [this]
      exact cassert_true rfl
    · rfl
  rw [grisu_exact_unfold hx, grisu_exact_unfold hx, key handler, key handler']

example : mag .b64 0xBFF0000000000000 < Spec.infPattern .b64 := by decide
example : mag .b32 0x80000000 < Spec.infPattern .b32 := by decide

end Grisu
