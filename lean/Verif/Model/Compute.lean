import Verif.Model.Modes
import Verif.Model.Cache32
import Verif.Model.Cache64

/-! # `grisu_exact_impl<Float>`, grisu_exact.h 1742-2646, and `grisu_exact`, 2649-2682 -/

namespace Grisu

/-- `cache_holder<Float>::cache[i]`, grisu_exact.h 469-1172.  For `double` the two 64-bit halves are
joined into one 128-bit number; the code that needs a half takes it apart again. -/
def cache_lookup (F : Fmt) (i : Nat) : Option Nat :=
  match F with
  | .b32 => cache32[i]?
  | .b64 => (cache64[i]?).map fun u => u.high * 2 ^ 64 + u.low

/-- `get_cache<Float>`, grisu_exact.h 1174-1178. -/
def get_cache (cfg : Cfg) (F : Fmt) (k : Int) : Exec Nat := do
  cassert cfg (decide (k ≥ F.min_k ∧ k ≤ F.max_k))
  if k < F.min_k then .fault .outOfBounds
  else
    match cache_lookup F (k - F.min_k).toNat with
    | some c => .ok c
    | none => .fault .outOfBounds

/-- `uint128::high()` of a cache entry, grisu_exact.h 64-66. -/
def cache_high (cache : Nat) : Nat := cache / 2 ^ 64

/-- `compute_mul`, grisu_exact.h 2367-2376. -/
def compute_mul (cfg : Cfg) (F : Fmt) (f cache : Nat) (minus_beta : Int) : Exec Nat :=
  match F with
  | .b32 => shr 32 (umul96_upper32 cfg f cache) minus_beta
  | .b64 => shr 64 (umul192_upper64 cfg f ⟨cache_high cache, wrap 64 cache⟩) minus_beta

/-- `compute_delta<tag>`, grisu_exact.h 2378-2419. -/
def compute_delta (F : Fmt) (tag : Tag) (is_edge_case : Bool) (cache : Nat) (minus_beta : Int) :
    Exec Nat := do
  let q_mp_m1 : Int := (F.q - F.p - 1 : Nat)
  let intermediate_precision : Int :=
    match F with
    | .b32 => F.cache_precision
    | .b64 => F.q
  -- both intermediate types have 64 bits
  let r :=
    match F with
    | .b32 => cache
    | .b64 => cache_high cache
  match tag with
  | .to_nearest =>
    let r := if is_edge_case then wrap 64 (r / 2 + r / 4) else r
    let d ← shr 64 r (intermediate_precision - q_mp_m1 + minus_beta)
    .ok (wrap 32 d)
  | .left_closed_directed =>
    let d ← shr 64 r (intermediate_precision - q_mp_m1 + minus_beta)
    .ok (wrap 32 d)
  | .right_closed_directed =>
    if is_edge_case then
      let d ← shr 64 r (intermediate_precision - (q_mp_m1 - 1) + minus_beta)
      .ok (wrap 32 d)
    else
      let d ← shr 64 r (intermediate_precision - q_mp_m1 + minus_beta)
      .ok (wrap 32 d)

/-- `is_zf_strictly_smaller_than_deltaf`, grisu_exact.h 2422-2428. -/
def is_zf_strictly_smaller_than_deltaf (cfg : Cfg) (F : Fmt) (fl : Nat) (minus_beta : Int)
    (cache : Nat) : Exec Bool := do
  let mul ← compute_mul cfg F fl cache minus_beta
  .ok (decide (mul &&& 1 ≠ 0))

/-- `integer_check_case_id`, grisu_exact.h 2430-2436. -/
inductive IntegerCheck
  | fc_minus_2_to_the_q_mp_m3_edge
  | fc_pm_2_to_the_q_mp_m2_generic
  | fc_pm_2_to_the_q_mp_m2_edge
  | two_times_fc
  | other
  deriving DecidableEq, Repr

/-- `is_product_integer<case_id>`, grisu_exact.h 2437-2508. -/
def is_product_integer (cfg : Cfg) (F : Fmt) (case_id : IntegerCheck) (f : Nat)
    (exponent minus_k : Int) : Exec Bool :=
  match case_id with
  -- Case I, 2442-2445
  | .fc_minus_2_to_the_q_mp_m3_edge =>
    .ok (decide (exponent ≥ F.lower_bound_q_mp_m3 ∧ exponent ≤ F.max_exponent_for_k_geq_0))
  -- Case II, 2446-2465
  | .fc_pm_2_to_the_q_mp_m2_generic =>
    if exponent < F.lower_bound_q_mp_m2 then .ok false
    else if exponent ≤ F.max_exponent_for_k_geq_0 then .ok true
    else if exponent ≤ F.upper_bound_p_p2 then do
      cassert cfg (match F with
        | .b32 => decide (1 ≤ minus_k ∧ minus_k ≤ 10)
        | .b64 => decide (1 ≤ minus_k ∧ minus_k ≤ 23))
      divisible_by_power_of_5 cfg F.q f minus_k
    else .ok false
  -- Case III, 2466-2478
  | .fc_pm_2_to_the_q_mp_m2_edge =>
    match F with
    | .b32 => .ok (decide (exponent ≥ F.lower_bound_q_mp_m2 ∧ exponent ≤ F.max_exponent_for_k_geq_m1))
    | .b64 => .ok (decide (exponent ≥ F.lower_bound_q_mp_m2 ∧ exponent ≤ F.max_exponent_for_k_geq_0))
  -- Case IV or V or VI, 2479-2507
  | .two_times_fc =>
    if exponent < F.lower_bound_q_mp then
      divisible_by_power_of_2 cfg F.q f (minus_k - exponent - 1)
    else if exponent ≤ F.max_exponent_for_k_geq_0 then .ok true
    else if exponent ≤ F.upper_bound_p_p1 then do
      cassert cfg (match F with
        | .b32 => decide (1 ≤ minus_k ∧ minus_k ≤ 10)
        | .b64 => decide (1 ≤ minus_k ∧ minus_k ≤ 22))
      divisible_by_power_of_5 cfg F.q f minus_k
    else .ok false
  | .other =>
    if exponent < F.lower_bound_q_mp_m1 then
      divisible_by_power_of_2 cfg F.q f (minus_k - exponent)
    else if exponent ≤ F.max_exponent_for_k_geq_0 then .ok true
    else if exponent ≤ F.upper_bound_p_p1 then do
      cassert cfg (match F with
        | .b32 => decide (1 ≤ minus_k ∧ minus_k ≤ 10)
        | .b64 => decide (1 ≤ minus_k ∧ minus_k ≤ 22))
      divisible_by_power_of_5 cfg F.q f minus_k
    else .ok false

/-- `equal_fractional_parts<tag>`, grisu_exact.h 2516-2547. -/
def equal_fractional_parts (cfg : Cfg) (F : Fmt) (tag : Tag) (fl : Nat) (exponent minus_k : Int) :
    Exec Bool :=
  match tag with
  | .to_nearest =>
    if fl ≠ F.sign_bit_mask - F.edge_case_boundary_bit then
      is_product_integer cfg F .fc_pm_2_to_the_q_mp_m2_generic fl exponent minus_k
    else
      is_product_integer cfg F .fc_minus_2_to_the_q_mp_m3_edge fl exponent minus_k
  | .left_closed_directed => is_product_integer cfg F .other fl exponent minus_k
  | .right_closed_directed => .ok false

/-- The left endpoint `fl`, grisu_exact.h 2554-2572. -/
def left_endpoint (F : Fmt) (tag : Tag) (fc : Nat) (exponent : Int) : Nat :=
  match tag with
  | .to_nearest =>
    if fc = F.sign_bit_mask ∧ exponent ≠ F.min_exponent then F.sign_bit_mask - F.edge_case_boundary_bit
    else subw F.q fc F.boundary_bit
  | .left_closed_directed => fc
  | .right_closed_directed =>
    if fc = F.sign_bit_mask ∧ exponent ≠ F.min_exponent then F.sign_bit_mask - F.boundary_bit
    else subw F.q fc F.normal_interval_length

/-- `is_zf_smaller_than_deltaf<tag>`, grisu_exact.h 2549-2577. -/
def is_zf_smaller_than_deltaf (cfg : Cfg) (F : Fmt) (tag : Tag) (fc : Nat) (minus_beta : Int)
    (cache : Nat) (interval_type : Interval) (exponent minus_k : Int) : Exec Bool := do
  let fl := left_endpoint F tag fc exponent
  let strictly ← is_zf_strictly_smaller_than_deltaf cfg F fl minus_beta cache
  if strictly then .ok true
  else if interval_type.include_left_endpoint then equal_fractional_parts cfg F tag fl exponent minus_k
  else .ok false

/-- `zf_vs_deltaf_t`, grisu_exact.h 2510-2514. -/
inductive ZfVsDeltaf
  | not_compared_yet
  | zf_larger
  | zf_smaller
  deriving DecidableEq, Repr

/-- The variables of `compute` that stay fixed after Step 1 (except that `deltai` is decreased in
the correct rounding search, where the model uses a local copy), grisu_exact.h 1782-1865. -/
structure Ctx where
  cfg : Cfg
  F : Fmt
  /-- `IntervalTypeProvider::tag` -/
  tag : Tag
  crs : Crs
  interval_type : Interval
  significand : Nat
  exponent : Int
  fr : Nat
  minus_k : Int
  minus_beta : Int
  cache : Nat
  zi : Nat
  deltai : Nat
  deriving DecidableEq, Repr

/-- The variables of `compute` that change: `ret_value.significand`, `ret_value.exponent`, `r`,
`divisor`, `zf_vs_deltaf`, grisu_exact.h 1865-1983. -/
structure State where
  significand : Nat
  exponent : Int
  r : Nat
  divisor : Nat
  zf : ZfVsDeltaf
  deriving DecidableEq, Repr

/-- The `goto` targets inside `compute` reached after the search, grisu_exact.h 2006, 2087 and 2307. -/
inductive Label
  | boundary_adjustment
  | correct_rounding_search
  | correct_rounding_search_when_kappa_is_0
  deriving DecidableEq, Repr

/-- `is_zf_smaller_than_deltaf` with the arguments `compute` passes, grisu_exact.h 1879-1880. -/
def Ctx.zf_smaller (c : Ctx) : Exec Bool :=
  is_zf_smaller_than_deltaf c.cfg c.F c.tag c.significand c.minus_beta c.cache c.interval_type
    c.exponent c.minus_k

/-- Step 1 of `compute`: `significand` and `exponent`, grisu_exact.h 1795-1805. -/
def promote (F : Fmt) (br : Nat) : Nat × Int :=
  let significand := wrap F.q (br * 2 ^ F.exponent_bits)
  let exponent : Nat := (br / 2 ^ F.p) &&& (F.exponent_bits_mask / 2 ^ F.p)
  if exponent ≠ 0 then
    (significand ||| F.sign_bit_mask, (exponent : Int) + F.exponent_bias - F.q + 1)
  else (significand, F.min_exponent)

/-- Step 1 of `compute`: the right endpoint `fr`, grisu_exact.h 1807-1824. -/
def right_endpoint (F : Fmt) (tag : Tag) (significand : Nat) : Nat :=
  match tag with
  | .to_nearest => significand ||| F.boundary_bit
  | .left_closed_directed => wrap F.q (significand + F.normal_interval_length)
  | .right_closed_directed => significand

/-- Step 1 of `compute`: `zi`, grisu_exact.h 1834-1854. -/
def compute_zi (cfg : Cfg) (F : Fmt) (tag : Tag) (fr cache : Nat) (minus_beta : Int) : Exec Nat :=
  if tag = .left_closed_directed ∧ fr = 0 then
    match F with
    | .b32 => do
      let z ← shr 64 (cache / 2 ^ F.q) minus_beta
      .ok (wrap 32 z)
    | .b64 => shr 64 (cache_high cache) minus_beta
  else compute_mul cfg F fr cache minus_beta

/-- Step 1 of `compute`, grisu_exact.h 1784-1857. -/
def setup (cfg : Cfg) (F : Fmt) (prov : Provider) (crs : Crs) (br : Nat) : Exec Ctx := do
  let interval_type := prov.interval F br
  let (significand, exponent) := promote F br
  let fr := right_endpoint F prov.tag significand
  let minus_k ← floor_log10_pow2 cfg (exponent + 1 - F.alpha)
  let l ← floor_log2_pow10 cfg (-minus_k)
  let minus_beta := -(exponent + l + 1)
  cassert cfg (decide (-minus_beta ≥ F.alpha ∧ -minus_beta ≤ F.gamma))
  let cache ← get_cache cfg F (-minus_k)
  let zi ← compute_zi cfg F prov.tag fr cache minus_beta
  let deltai ← compute_delta F prov.tag
    (decide (significand = F.sign_bit_mask ∧ exponent ≠ F.min_exponent)) cache minus_beta
  .ok { cfg, F, tag := prov.tag, crs, interval_type, significand, exponent, fr, minus_k, minus_beta,
        cache, zi, deltai }

/-- Where control goes after a decrease of kappa by two, grisu_exact.h 1938-1959. -/
def Ctx.after_decrease_by_2 (c : Ctx) : Label :=
  if c.crs ≠ .do_not_care ∧ c.tag = .to_nearest then
    if c.F.min_kappa = 0 then .correct_rounding_search_when_kappa_is_0
    else .correct_rounding_search
  else .boundary_adjustment

/-- Decrease of kappa by two, grisu_exact.h 1922-1959.  `st` is the state for `initial_kappa`. -/
def Ctx.decrease_by_2 (c : Ctx) (st : State) (quotient new_r : Nat) (zf : ZfVsDeltaf) : Label × State :=
  (c.after_decrease_by_2,
   { significand :=
      match c.F with
      | .b32 => c.zi
      | .b64 => wrap c.F.q (wrap c.F.q (st.significand * 100) + wrap 32 (10 * quotient + new_r / 10))
     exponent := st.exponent - 2
     r :=
      match c.F with
      | .b32 => 0
      | .b64 => new_r % 10
     divisor := c.F.power_of_10 (c.F.initial_kappa - 2)
     zf })

/-- `decrease_kappa_by_1_label`, grisu_exact.h 1961-1969. -/
def Ctx.decrease_by_1 (c : Ctx) (st : State) (quotient new_r : Nat) (zf : ZfVsDeltaf) : Label × State :=
  (.boundary_adjustment,
   { significand := wrap c.F.q (wrap c.F.q (st.significand * 10) + quotient)
     exponent := st.exponent - 1
     r := new_r
     divisor := c.F.power_of_10 (c.F.initial_kappa - 1)
     zf })

/-- Decreasing search, grisu_exact.h 1888-1970. -/
def Ctx.decreasing_search (c : Ctx) (st : State) : Exec (Label × State) :=
  let quotient := wrap 32 st.r / wrap 32 (c.F.power_of_10 (c.F.initial_kappa - 1))
  let new_r := wrap 32 st.r % wrap 32 (c.F.power_of_10 (c.F.initial_kappa - 1))
  if new_r < c.deltai then .ok (c.decrease_by_1 st quotient new_r st.zf)
  else if new_r = c.deltai ∧ st.zf = .not_compared_yet then do
    let smaller ← c.zf_smaller
    if smaller then .ok (c.decrease_by_1 st quotient new_r .zf_smaller)
    else .ok (c.decrease_by_2 st quotient new_r .zf_larger)
  else .ok (c.decrease_by_2 st quotient new_r st.zf)

/-- The state update at the end of `increasing_search`, grisu_exact.h 2639-2643. -/
def Ctx.increase (c : Ctx) (lambda : Nat) (st : State) (new_r : Nat) (zf : ZfVsDeltaf) : State :=
  { significand := st.significand / c.F.power_of_10 lambda
    exponent := st.exponent + lambda
    r := new_r
    divisor := wrap c.F.q (st.divisor * c.F.power_of_10 lambda)
    zf }

/-- `increasing_search<lambda, tag, is_initial_search>`, grisu_exact.h 2579-2645. -/
def Ctx.increasing_search (c : Ctx) (lambda : Nat) (is_initial_search : Bool) (st : State) :
    Exec State :=
  let new_r := wrap c.F.q (st.r + wrap c.F.q (st.divisor * (st.significand % c.F.power_of_10 lambda)))
  if new_r > c.deltai then .ok st
  else if new_r = c.deltai then
    match st.zf with
    | .not_compared_yet => do
      let smaller ← c.zf_smaller
      if smaller then .ok (c.increase lambda st new_r .zf_smaller)
      else .ok { st with zf := .zf_larger }
    | .zf_larger =>
      if is_initial_search then .ok (c.increase lambda st new_r .zf_larger)
      else .ok st
    | .zf_smaller => .ok (c.increase lambda st new_r .zf_smaller)
  else .ok (c.increase lambda st new_r st.zf)

/-- `increasing_search_label`, grisu_exact.h 1972-1999. -/
def Ctx.increasing_searches (c : Ctx) (st : State) : Exec (Label × State) := do
  let st := { st with divisor := c.F.power_of_10 c.F.initial_kappa }
  match c.F with
  | .b32 =>
    let st ← c.increasing_search 4 true st
    let st ← c.increasing_search 2 false st
    let st ← c.increasing_search 1 false st
    .ok (.boundary_adjustment, st)
  | .b64 =>
    let st ← c.increasing_search 8 true st
    let st ← c.increasing_search 4 false st
    let st ← c.increasing_search 2 false st
    let st ← c.increasing_search 1 false st
    .ok (.boundary_adjustment, st)

/-- Step 2 of `compute`: the search for kappa, grisu_exact.h 1860-1999.  `divisor` is uninitialised
at the start; the model puts 0. -/
def Ctx.search (c : Ctx) : Exec (Label × State) :=
  let st : State :=
    { significand := c.zi / c.F.power_of_10 c.F.initial_kappa
      exponent := c.F.initial_kappa + c.minus_k
      r := c.zi % c.F.power_of_10 c.F.initial_kappa
      divisor := 0
      zf := .not_compared_yet }
  if st.r < c.deltai then c.increasing_searches st
  else if st.r = c.deltai then do
    let smaller ← c.zf_smaller
    if smaller then c.increasing_searches { st with zf := .zf_smaller }
    else c.decreasing_search { st with zf := .zf_larger }
  else c.decreasing_search st

/-- The three assignments that decrease kappa in Step 3, grisu_exact.h 2037-2039 and 2046-2048. -/
def Ctx.decrease_kappa (c : Ctx) (st : State) : State :=
  { st with
    significand := wrap c.F.q (st.significand * 10)
    divisor := st.divisor / 10
    exponent := st.exponent - 1 }

/-- The loop of Step 3, grisu_exact.h 2015-2049. -/
def Ctx.boundary_loop (c : Ctx) : Nat → State → Exec State
  | 0, _ => .fault .loopFuel
  | fuel + 1, st =>
    if st.divisor < c.deltai then .ok st
    else if st.divisor = c.deltai then
      if c.tag = .to_nearest ∧ c.interval_type.is_symmetric = true ∧
          c.exponent = -((c.F.q - c.F.p - 1 : Nat) : Int) then
        .ok (c.decrease_kappa st)
      else .ok st
    else c.boundary_loop fuel (c.decrease_kappa st)

/-- Step 3 of `compute`: right endpoint, grisu_exact.h 2006-2079. -/
def Ctx.boundary_adjustment (c : Ctx) (st : State) : Exec (Label × State) :=
  if c.interval_type.include_right_endpoint = false ∧ st.r = 0 then do
    let is_int ← is_product_integer c.cfg c.F
      (if c.tag = .to_nearest then .fc_pm_2_to_the_q_mp_m2_generic else .other)
      c.fr c.exponent c.minus_k
    if is_int then
      let st ← c.boundary_loop 24 st
      let st :=
        if c.crs = .do_not_care ∨ c.tag ≠ .to_nearest then
          { st with significand := subw c.F.q st.significand 1 }
        else st
      let st :=
        if c.crs ≠ .do_not_care ∧ c.tag = .left_closed_directed then { st with r := st.divisor }
        else st
      if (c.crs ≠ .do_not_care ∧ c.tag = .to_nearest ∧ c.F.min_kappa = 0) ∧ st.exponent = c.minus_k then
        .ok (.correct_rounding_search_when_kappa_is_0, st)
      else .ok (.correct_rounding_search, st)
    else .ok (.correct_rounding_search, st)
  else .ok (.correct_rounding_search, st)

/-- The loop of Step 4 for left-closed directed rounding, grisu_exact.h 2101-2142.  On
`displacement == deltai` the code adjusts `steps` and jumps to `return_label` without using it; the
calls made on the way are kept, because they can fault. -/
def Ctx.left_loop (c : Ctx) (approx_x : Nat) (zf : ZfVsDeltaf) :
    Nat → (steps significand deltai divisor : Nat) → Exec Nat
  | 0, _, _, _, _ => .fault .loopFuel
  | fuel + 1, steps, significand, deltai, divisor =>
    if steps = 0 then .ok significand
    else
      let displacement := wrap c.F.q (steps * divisor)
      if displacement > deltai then c.left_loop approx_x zf fuel (steps / 2) significand deltai divisor
      else if displacement = deltai then
        match zf with
        | .not_compared_yet => do
          let xi ← compute_mul c.cfg c.F c.significand c.cache c.minus_beta
          if xi &&& 1 = approx_x &&& 1 then
            let _ ← equal_fractional_parts c.cfg c.F c.tag c.significand c.exponent c.minus_k
            .ok significand
          else .ok significand
        | _ => .ok significand
      else
        c.left_loop approx_x zf fuel steps (subw c.F.q significand steps)
          (subw 32 deltai (wrap 32 displacement)) divisor

/-- Step 4 for left-closed directed rounding, grisu_exact.h 2088-2143. -/
def Ctx.left_rounding (c : Ctx) (st : State) : Exec Nat :=
  let deltai := subw 32 c.deltai (wrap 32 st.r)
  let approx_x := subw c.F.q c.zi deltai
  let current_digit := st.significand % 10
  c.left_loop approx_x st.zf 64 (current_digit / 2) st.significand deltai st.divisor

/-- The nested comparisons that compute `steps` and the reduced `epsiloni`, grisu_exact.h 2177-2228.
`epsiloni` is the value after line 2168. -/
def count_steps (F : Fmt) (divisor32 epsiloni : Nat) : Nat × Nat :=
  if divisor32 ≤ epsiloni then
    let epsiloni := epsiloni - divisor32
    if wrap 32 (2 * divisor32) ≤ epsiloni then
      let epsiloni := epsiloni - wrap 32 (2 * divisor32)
      if divisor32 ≤ epsiloni then
        let epsiloni := epsiloni - divisor32
        match F with
        | .b32 => (5, epsiloni)
        | .b64 =>
          if divisor32 ≤ epsiloni then (6, epsiloni - divisor32)
          else (5, epsiloni)
      else (4, epsiloni)
    else if divisor32 ≤ epsiloni then (3, epsiloni - divisor32)
    else (2, epsiloni)
  else (1, epsiloni)

/-- The comparison of fractional parts, grisu_exact.h 2230-2275: the adjusted `steps`. -/
def Ctx.adjust_steps (c : Ctx) (significand steps epsiloni approx_y : Nat) : Exec Nat :=
  if epsiloni = 0 then do
    let yi ← compute_mul c.cfg c.F c.significand c.cache c.minus_beta
    if yi = approx_y then
      match c.crs with
      | .tie_to_even => do
        let is_int ← is_product_integer c.cfg c.F .other c.significand c.exponent c.minus_k
        if is_int then
          .ok (if significand &&& 1 ≠ steps &&& 1 then steps - 1 else steps)
        else .ok (steps - 1)
      | .tie_to_odd => do
        let is_int ← is_product_integer c.cfg c.F .other c.significand c.exponent c.minus_k
        if is_int then
          .ok (if significand &&& 1 = steps &&& 1 then steps - 1 else steps)
        else .ok (steps - 1)
      | .tie_to_up => .ok (steps - 1)
      | _ => do
        let is_int ← is_product_integer c.cfg c.F .other c.significand c.exponent c.minus_k
        if is_int then .ok steps else .ok (steps - 1)
    else .ok steps
  else .ok steps

/-- The check for a closer left endpoint, grisu_exact.h 2277-2297: `true` if the code jumps to
`return_label` without subtracting `steps`. -/
def Ctx.keep_significand (c : Ctx) (steps r divisor : Nat) : Bool :=
  if steps = 1 ∧ c.significand = c.F.sign_bit_mask then
    let deltai := subw 32 c.deltai (wrap 32 r)
    if divisor > deltai then true
    else if divisor = deltai then
      match c.F with
      | .b32 => decide (c.exponent = 59)
      | .b64 => decide (c.exponent = -203)
    else false
  else false

/-- Step 4 for nearest rounding, grisu_exact.h 2144-2301. -/
def Ctx.nearest_rounding (c : Ctx) (st : State) : Exec Nat := do
  cassert c.cfg (decide (st.exponent ≠ c.minus_k))
  let displacement := wrap c.F.q (st.divisor / 2 + st.r)
  let epsiloni ← compute_delta c.F .left_closed_directed false c.cache (c.minus_beta + 1)
  if displacement ≤ epsiloni then
    let approx_y := subw c.F.q c.zi epsiloni
    let (steps, epsiloni) :=
      count_steps c.F (wrap 32 st.divisor) (subw 32 epsiloni (wrap 32 displacement))
    let steps ← c.adjust_steps st.significand steps epsiloni approx_y
    if c.keep_significand steps st.r st.divisor then .ok st.significand
    else .ok (subw c.F.q st.significand steps)
  else .ok st.significand

/-- Step 4 of `compute`, grisu_exact.h 2081-2303. -/
def Ctx.correct_rounding (c : Ctx) (st : State) : Exec Nat :=
  if c.crs ≠ .do_not_care ∧ c.tag = .left_closed_directed then c.left_rounding st
  else if c.crs ≠ .do_not_care ∧ c.tag = .to_nearest then c.nearest_rounding st
  else .ok st.significand

/-- `correct_rounding_search_when_kappa_is_0_label`, grisu_exact.h 2307-2361.  Only reached when the
condition of lines 2308-2312 holds. -/
def Ctx.correct_rounding_kappa_0 (c : Ctx) : Exec Nat := do
  let two_yi ← compute_mul c.cfg c.F c.significand c.cache (c.minus_beta - 1)
  match c.crs with
  | .tie_to_even => do
    let is_int ← is_product_integer c.cfg c.F .two_times_fc c.significand c.exponent c.minus_k
    if is_int then
      .ok (if (two_yi / 2) % 2 = 1 then wrap c.F.q (two_yi + 1) / 2 else two_yi / 2)
    else .ok (wrap c.F.q (two_yi + 1) / 2)
  | .tie_to_odd => do
    let is_int ← is_product_integer c.cfg c.F .two_times_fc c.significand c.exponent c.minus_k
    if is_int then
      .ok (if (two_yi / 2) % 2 = 0 then wrap c.F.q (two_yi + 1) / 2 else two_yi / 2)
    else .ok (wrap c.F.q (two_yi + 1) / 2)
  | .tie_to_up => .ok (wrap c.F.q (two_yi + 1) / 2)
  | _ => do
    let is_int ← is_product_integer c.cfg c.F .two_times_fc c.significand c.exponent c.minus_k
    if is_int then .ok (two_yi / 2) else .ok (wrap c.F.q (two_yi + 1) / 2)

/-- Steps 3 and 4 from a label on, grisu_exact.h 2006-2363: significand and exponent returned. -/
def Ctx.finish (c : Ctx) : Label × State → Exec (Nat × Int)
  | (.boundary_adjustment, st) => do
    let (label, st) ← c.boundary_adjustment st
    match label with
    | .correct_rounding_search_when_kappa_is_0 => do
      let s ← c.correct_rounding_kappa_0
      .ok (s, st.exponent)
    | _ => do
      let s ← c.correct_rounding st
      .ok (s, st.exponent)
  | (.correct_rounding_search, st) => do
    let s ← c.correct_rounding st
    .ok (s, st.exponent)
  | (.correct_rounding_search_when_kappa_is_0, st) => do
    let s ← c.correct_rounding_kappa_0
    .ok (s, st.exponent)

/-- `fp_t<Float, return_sign>`, grisu_exact.h 1189-1215; `is_negative` is `none` for the unsigned
variant, which has no such member. -/
structure FpT where
  significand : Nat
  exponent : Int
  is_negative : Option Bool
  deriving DecidableEq, Repr

/-- `compute<return_sign, IntervalTypeProvider, CorrectRoundingSearch>`, grisu_exact.h 1780-2365. -/
def compute (cfg : Cfg) (F : Fmt) (return_sign : Bool) (prov : Provider) (crs : Crs) (br : Nat) :
    Exec FpT := do
  let c ← setup cfg F prov crs br
  let ls ← c.search
  let (s, e) ← c.finish ls
  .ok { significand := s
        exponent := e
        is_negative := if return_sign then some (BitRep.is_negative F br) else none }

/-- `grisu_exact_case_handlers`, grisu_exact.h 2649-2666. -/
inductive CaseHandler
  | assert_finite
  | ignore_special_cases
  deriving DecidableEq, Repr

/-- `operator()` of the case handlers, grisu_exact.h 2652-2656, 2661-2664. -/
def CaseHandler.call (cfg : Cfg) (F : Fmt) (br : Nat) : CaseHandler → Exec Unit
  | assert_finite => cassert cfg (BitRep.is_finite F br)
  | ignore_special_cases => .ok ()

/-- `grisu_exact<return_sign>(x, rounding_mode, crs, case_handler)`, grisu_exact.h 2668-2682. -/
def grisu_exact (cfg : Cfg) (F : Fmt) (return_sign : Bool) (x : Nat) (rounding_mode : RoundingMode)
    (crs : Crs) (case_handler : CaseHandler) : Exec FpT := do
  let br := get_bit_representation F x
  case_handler.call cfg F br
  compute cfg F return_sign (rounding_mode.provider F br) crs br

end Grisu
