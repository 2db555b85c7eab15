import Verif.Properties.Bits

/-!
# Arguments outside the precondition

Properties C40 and C41: what `grisu_exact` does on infinities and NaNs, and on zeros.  README.md line
66 asks for a nonzero finite argument.
-/

namespace Grisu

open Spec (isNeg mag width infPattern IsTruncating)

theorem promote_special {F : Fmt} {x : Nat} (hx : x < 2 ^ width F) (hm : infPattern F ≤ mag F x) :
    (promote F x).2 = match F with | .b32 => 97 | .b64 => 961 := by
  have key : x / 2 ^ F.p &&& (F.exponent_bits_mask / 2 ^ F.p) = 2 ^ F.exponent_bits - 1 := by
    have h1 : F.exponent_bits_mask / 2 ^ F.p = 2 ^ F.exponent_bits - 1 := by cases F <;> decide
    rw [h1, Nat.and_two_pow_sub_one_eq_mod]
    cases F <;> numbers <;> omega
  unfold promote
  simp only [key]
  cases F <;> rfl

theorem setup_special {F : Fmt} {x : Nat} (hx : x < 2 ^ width F) (hm : infPattern F ≤ mag F x) (cfg : Cfg)
    (prov : Provider) (crs : Crs) :
    setup cfg F prov crs x = .fault (if cfg.ndebug then .outOfBounds else .assertion) := by
  have h := promote_special hx hm
  unfold setup
  generalize promote F x = p at *
  obtain ⟨s, e⟩ := p
  obtain ⟨x64, ndebug⟩ := cfg
  cases F <;> subst h <;> cases x64 <;> cases ndebug <;> rfl

/-- **C40**: on an infinity or NaN `grisu_exact` never returns, in any mode and with either case
handler: an assertion fails or, without asserts, the cache table is read out of bounds. -/
theorem C40_special (cfg : Cfg) (F : Fmt) (rs : Bool) (x : Nat) (mode : RoundingMode) (crs : Crs)
    (handler : CaseHandler) (hx : x < 2 ^ width F) (hm : infPattern F ≤ mag F x) :
    grisu_exact cfg F rs x mode crs handler =
      .fault (if cfg.ndebug then .outOfBounds else .assertion) := by
  have hg : get_bit_representation F x = x := by
    unfold get_bit_representation wrap
    exact Nat.mod_eq_of_lt (by cases F <;> exact hx)
  have hf : BitRep.is_finite F x = false := by
    have := (C27_classification F x hx).1
    rw [Bool.eq_false_iff, ne_eq, this]
    omega
  unfold grisu_exact compute
  simp only [hg, setup_special hx hm]
  cases handler with
  | ignore_special_cases => rfl
  | assert_finite =>
    simp only [CaseHandler.call, hf, cassert]
    cases cfg.ndebug <;> rfl

-- minus infinity and a NaN with a payload
example : (0xFF800000 : Nat) < 2 ^ width .b32 ∧ infPattern .b32 ≤ mag .b32 0xFF800000 := by decide
example : (0x7FF8000000001234 : Nat) < 2 ^ width .b64 ∧ infPattern .b64 ≤ mag .b64 0x7FF8000000001234 := by decide

theorem allCfg {P : Cfg → Prop} (h : ∀ a b, P ⟨a, b⟩) (c : Cfg) : P c := h c.x64 c.ndebug

/-- **C41**, zeros in the modes that do not truncate: significand 0 with a meaningless exponent. -/
theorem C41_zero (cfg : Cfg) (F : Fmt) (rs : Bool) (x : Nat) (mode : RoundingMode) (crs : Crs)
    (handler : CaseHandler) (hx : x < 2 ^ width F) (hz : mag F x = 0)
    (hm : IsTruncating (isNeg F x) mode = false) :
    grisu_exact cfg F rs x mode crs handler =
      .ok ⟨0, if F = .b32 then -37 else -307, if rs then some (isNeg F x) else none⟩ := by
  have h : x = 0 ∨ x = 2 ^ (width F - 1) := by
    cases F <;> numbers <;> omega
  revert cfg
  refine allCfg ?_
  intro x64 ndebug
  rcases h with rfl | rfl <;> clear hx hz <;> revert hm <;>
    cases F <;> cases mode <;> intro hm <;> first
    | (exact absurd hm (by decide))
    | (clear hm; revert rs x64 ndebug; cases crs <;> cases handler <;> decide +kernel)

example : (2 ^ 63 : Nat) < 2 ^ width .b64 ∧ mag .b64 (2 ^ 63) = 0 ∧
    IsTruncating (isNeg .b64 (2 ^ 63)) .toward_minus_infinity = false := by decide

/-- **C41**, zeros in the truncating modes: the assertion in `divisible_by_power_of_2` fails, or
`ctz(0)` is evaluated, or (portable code without asserts) the decimal returned is not zero; it lies
between zero and the smallest positive number. -/
theorem C41_zero_truncating (cfg : Cfg) (F : Fmt) (rs : Bool) (x : Nat) (mode : RoundingMode) (crs : Crs)
    (handler : CaseHandler) (hx : x < 2 ^ width F) (hz : mag F x = 0)
    (hm : IsTruncating (isNeg F x) mode = true) :
    grisu_exact cfg F rs x mode crs handler =
      if cfg.ndebug = false then .fault .assertion
      else if cfg.x64 = true then .fault .ctzZero
      else .ok ⟨if F = .b32 then 1 else if crs = .do_not_care then 4 else 2, if F = .b32 then -45 else -324, if rs then some (isNeg F x) else none⟩ := by
  have h : x = 0 ∨ x = 2 ^ (width F - 1) := by
    cases F <;> numbers <;> omega
  revert cfg
  refine allCfg ?_
  intro x64 ndebug
  rcases h with rfl | rfl <;> clear hx hz <;> revert hm <;>
    cases F <;> cases mode <;> intro hm <;> first
    | (exact absurd hm (by decide))
    | (clear hm; revert rs x64 ndebug; cases crs <;> cases handler <;> decide +kernel)

example : (0 : Nat) < 2 ^ width .b64 ∧ mag .b64 0 = 0 ∧ IsTruncating (isNeg .b64 0) .toward_zero = true := by decide

end Grisu
