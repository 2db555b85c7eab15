import Verif.Model.Compute

/-! # The self-verification tools

tests/verify_delta_computation.cpp, tests/verify_correct_rounding_bound.cpp,
tests/verify_incorrect_rounding_removal.cpp.  Modelled are the verdict each tool reaches and, for the last two, the
numbers in the lines they print about single exponents; the texts are in `Console.lean`. -/

namespace Grisu

/-- The body of the loop of tests/verify_delta_computation.cpp 35-56: does the pair of values agree? -/
def delta_agrees (cfg : Cfg) (F : Fmt) (k : Int) : Exec Bool := do
  let fdelta := wrap F.q (3 * 2 ^ (F.q - F.p - 3))
  let cache ← get_cache cfg F k
  let orthodox ← compute_mul cfg F fdelta cache (-F.gamma)
  let fast ← compute_delta F .to_nearest true cache (-F.gamma)
  .ok (decide (orthodox = fast))

/-- The loop of tests/verify_delta_computation.cpp 35-56, `count` values of `k` from `k` on. -/
def verify_delta_loop (cfg : Cfg) (F : Fmt) : Nat → Int → Exec Bool
  | 0, _ => .ok true
  | count + 1, k => do
    if ← delta_agrees cfg F k then verify_delta_loop cfg F count (k + 1) else .ok false

/-- `verify_single_type` of tests/verify_delta_computation.cpp 28-58. -/
def verify_delta (cfg : Cfg) (F : Fmt) : Exec Bool :=
  verify_delta_loop cfg F (F.max_k - F.min_k + 1).toNat F.min_k

/-- What both of the next tools compute first for a biased exponent, tests/verify_correct_rounding_bound.cpp
39-74 and tests/verify_incorrect_rounding_removal.cpp 39-74. -/
structure ToolSetup where
  e : Int
  k : Int
  beta : Int
  kappa : Int
  divisor : Nat
  cache : Nat

/-- The loop `divisor *= 10`, tests/verify_correct_rounding_bound.cpp 68-71 and
tests/verify_incorrect_rounding_removal.cpp 68-71. -/
def tool_divisor (F : Fmt) : Nat → Nat
  | 0 => 1
  | n + 1 => wrap F.q (tool_divisor F n * 10)

/-- tests/verify_correct_rounding_bound.cpp 39-74 and tests/verify_incorrect_rounding_removal.cpp 39-74; `none`
if the two exponents differ and the tool gives up. -/
def tool_setup (cfg : Cfg) (F : Fmt) (e_shifted : Nat) : Exec (Option ToolSetup) := do
  let x := wrap F.q (e_shifted * 2 ^ F.p)
  let e : Int := e_shifted + F.exponent_bias - F.q + 1
  let minus_k ← floor_log10_pow2 cfg (e + 1 - F.alpha)
  let k := -minus_k
  let l ← floor_log2_pow10 cfg k
  let beta := e + l + 1
  let harsh ← grisu_exact cfg F true x .nearest_to_odd .do_not_care .assert_finite
  let generous ← grisu_exact cfg F true x .nearest_to_even .do_not_care .assert_finite
  let kappa_min := harsh.exponent + k
  let kappa_max := generous.exponent + k
  if kappa_min ≠ kappa_max then .ok none
  else
    let cache ← get_cache cfg F k
    cassert cfg (decide (-beta < F.q))
    .ok (some { e, k, beta, kappa := kappa_min, divisor := tool_divisor F kappa_min.toNat, cache })

/-- `n'`, tests/verify_correct_rounding_bound.cpp 76-91. -/
def rounding_steps (cfg : Cfg) (F : Fmt) (t : ToolSetup) : Exec Int := do
  let fr := F.sign_bit_mask ||| F.boundary_bit
  let zi ← compute_mul cfg F fr t.cache (-t.beta)
  let epsiloni ← compute_delta F .left_closed_directed false t.cache (-t.beta + 1)
  let displacement := wrap F.q (zi % t.divisor + t.divisor / 2)
  if displacement > epsiloni then .ok (-1)
  else .ok ((epsiloni - displacement) / t.divisor : Nat)

/-- The numbers in a line printed by tests/verify_correct_rounding_bound.cpp 94-110. -/
structure RoundingLine where
  np : Int
  e : Int
  bit_rep : Nat
  deriving DecidableEq

/-- The report on one exponent, tests/verify_correct_rounding_bound.cpp 76-111: the lines printed (none or one) and
the new value of `success`. -/
def rounding_report (cfg : Cfg) (F : Fmt) (e_shifted : Nat) (t : ToolSetup) (success : Bool) :
    Exec (List RoundingLine × Bool) := do
  let np ← rounding_steps cfg F t
  if np ≥ 5 ∧ t.kappa ≠ 0 then
    let success : Bool := match F with
      | .b32 => false
      | .b64 => if np ≥ 6 then false else success
    .ok ([⟨np, t.e, wrap F.q (e_shifted * 2 ^ F.p)⟩], success)
  else .ok ([], success)

/-- The loop of tests/verify_correct_rounding_bound.cpp 35-112, `count` biased exponents from `e_shifted` on. -/
def verify_rounding_bound_loop (cfg : Cfg) (F : Fmt) : Nat → Nat → Bool → Exec (List RoundingLine × Bool)
  | 0, _, success => .ok ([], success)
  | count + 1, e_shifted, success => do
    match ← tool_setup cfg F e_shifted with
    | none => .ok ([], false)
    | some t =>
      let report ← rounding_report cfg F e_shifted t success
      let rest ← verify_rounding_bound_loop cfg F count (e_shifted + 1) report.2
      .ok (report.1 ++ rest.1, rest.2)

/-- `verify_single_type` of tests/verify_correct_rounding_bound.cpp 29-115. -/
def verify_rounding_bound (cfg : Cfg) (F : Fmt) : Exec (List RoundingLine × Bool) :=
  verify_rounding_bound_loop cfg F (2 ^ F.exponent_bits - 2) 1 true

/-- `rounded_down`, tests/verify_incorrect_rounding_removal.cpp 76-119.  In line 112 the sum has an unsigned
type, so only `k >= 0` is tested. -/
def tool_rounded_down (F : Fmt) (t : ToolSetup) : Exec Nat := do
  let two_yi ← (match F with
    | .b32 => do
      let v ← shr 64 t.cache (F.q - t.beta)
      .ok (wrap 32 v)
    | .b64 => shr 64 (cache_high t.cache) (-t.beta) : Exec Nat)
  let a := two_yi / t.divisor
  let bi := two_yi % t.divisor
  if subw F.q a 1 % 2 = 1 then .ok (wrap F.q (subw F.q a 1 / 2 + 1))
  else if bi ≠ 0 then .ok (wrap F.q (subw F.q a 1 / 2 + 1))
  else if t.k ≥ 0 then .ok (subw F.q a 1 / 2)
  else .ok (wrap F.q (subw F.q a 1 / 2 + 1))

/-- The numbers in a line printed by tests/verify_incorrect_rounding_removal.cpp 135-146 and 154, 170 or 185: the
bit pattern, the exponent, and how `z^(f)` compares with `delta^(f)`. -/
structure RemovalLine where
  bit_rep : Nat
  e : Int
  fraction : Ordering
  deriving DecidableEq

/-- The check of one exponent, tests/verify_incorrect_rounding_removal.cpp 76-199: the lines printed (none or one)
and the new value of `success`. -/
def removal_check (cfg : Cfg) (F : Fmt) (e_shifted : Nat) (t : ToolSetup) (success : Bool) :
    Exec (List RemovalLine × Bool) := do
  let rounded_down ← tool_rounded_down F t
  let fr := F.sign_bit_mask ||| F.boundary_bit
  let zi ← compute_mul cfg F fr t.cache (-t.beta)
  let deltai ← compute_delta F .to_nearest true t.cache (-t.beta)
  let approx_x := subw F.q zi deltai
  let right_bdy := zi / t.divisor
  let r := zi % t.divisor
  let special : Bool := match F with
    | .b32 => decide (t.e = 59)
    | .b64 => decide (t.e = -203)
  if right_bdy = wrap F.q (rounded_down + 1) then
    let distancei := wrap F.q (r + t.divisor)
    if distancei = deltai then
      let bit_rep := wrap F.q (e_shifted * 2 ^ F.p)
      let fl := F.sign_bit_mask - F.edge_case_boundary_bit
      let xi ← compute_mul cfg F fl t.cache (-t.beta)
      if xi &&& 1 ≠ approx_x &&& 1 then .ok ([⟨bit_rep, t.e, .lt⟩], if special then false else success)
      else if ← equal_fractional_parts cfg F .to_nearest fl t.e (-t.k) then
        .ok ([⟨bit_rep, t.e, .eq⟩], if special then false else success)
      else .ok ([⟨bit_rep, t.e, .gt⟩], if special then success else false)
    else .ok ([], success)
  else .ok ([], success)

/-- The loop of tests/verify_incorrect_rounding_removal.cpp 35-200. -/
def verify_removal_loop (cfg : Cfg) (F : Fmt) : Nat → Nat → Bool → Exec (List RemovalLine × Bool)
  | 0, _, success => .ok ([], success)
  | count + 1, e_shifted, success => do
    match ← tool_setup cfg F e_shifted with
    | none => .ok ([], false)
    | some t =>
      let report ← removal_check cfg F e_shifted t success
      let rest ← verify_removal_loop cfg F count (e_shifted + 1) report.2
      .ok (report.1 ++ rest.1, rest.2)

/-- `verify_single_type` of tests/verify_incorrect_rounding_removal.cpp 29-203. -/
def verify_removal (cfg : Cfg) (F : Fmt) : Exec (List RemovalLine × Bool) :=
  verify_removal_loop cfg F (2 ^ F.exponent_bits - 2) 1 true

end Grisu
