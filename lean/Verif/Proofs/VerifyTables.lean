import Verif.Model.VerifyTools
import Verif.Properties.Nearest

/-! # The self-verification tools -/

namespace Grisu
open Spec (mag isNeg FiniteNonzero IsTruncating)

theorem Exec.bind_eq_ok {α β : Type} {e : Exec α} {f : α → Exec β} {b : β} (h : (e >>= f) = .ok b) :
    ∃ a, e = .ok a ∧ f a = .ok b := by
  cases e with
  | ok a => exact ⟨a, rfl, h⟩
  | fault g => cases h

/-! ## One configuration is enough -/

/-- The configuration in which the tables below are evaluated. -/
abbrev cfg0 : Cfg := ⟨true, false⟩

theorem cassert_any {b : Bool} (h : cassert cfg0 b = .ok ()) (cfg : Cfg) : cassert cfg b = .ok () := by
  cases b
  · cases h
  · simp [cassert]

theorem floor_log10_pow2_any {e v : Int} (h : floor_log10_pow2 cfg0 e = .ok v) (cfg : Cfg) :
    floor_log10_pow2 cfg e = .ok v := by
  obtain ⟨⟨⟩, h1, h2⟩ := Exec.bind_eq_ok h
  unfold floor_log10_pow2
  rw [cassert_any h1 cfg]
  exact h2

theorem floor_log2_pow10_any {e v : Int} (h : floor_log2_pow10 cfg0 e = .ok v) (cfg : Cfg) :
    floor_log2_pow10 cfg e = .ok v := by
  obtain ⟨⟨⟩, h1, h2⟩ := Exec.bind_eq_ok h
  unfold floor_log2_pow10
  rw [cassert_any h1 cfg]
  exact h2

theorem cache_words : (cache32.all fun c => decide (c < 2 ^ 64)) = true ∧
    (cache64.all fun u => decide (u.high < 2 ^ 64 ∧ u.low < 2 ^ 64)) = true := by decide +kernel

theorem cache_lookup_lt {F : Fmt} {i c : Nat} (h : cache_lookup F i = some c) : c < 2 ^ (2 * F.q) := by
  cases F
  · have := List.all_eq_true.mp cache_words.1 c (List.mem_of_getElem? h)
    exact of_decide_eq_true this
  · obtain ⟨u, hu, rfl⟩ := Option.map_eq_some_iff.mp h
    have := List.all_eq_true.mp cache_words.2 u (List.mem_of_getElem? hu)
    simp only [decide_eq_true_eq] at this
    show _ < 2 ^ (2 * 64)
    omega

theorem get_cache_any {F : Fmt} {k : Int} {c : Nat} (h : get_cache cfg0 F k = .ok c) (cfg : Cfg) :
    get_cache cfg F k = .ok c ∧ c < 2 ^ (2 * F.q) := by
  obtain ⟨⟨⟩, h1, h2⟩ := Exec.bind_eq_ok h
  have h3 := cassert_any h1 cfg
  constructor
  · unfold get_cache
    rw [h3]
    exact h2
  · split at h2
    · cases h2
    · cases hl : cache_lookup F (k - F.min_k).toNat with
      | none => rw [hl] at h2; cases h2
      | some d =>
        rw [hl] at h2
        cases h2
        exact cache_lookup_lt hl

theorem compute_mul_any (cfg : Cfg) {F : Fmt} {f c : Nat} (mb : Int) (hf : f < 2 ^ F.q) (hc : c < 2 ^ (2 * F.q)) :
    compute_mul cfg F f c mb = compute_mul cfg0 F f c mb := by
  cases F
  · simp only [compute_mul, Fmt.q] at *
    rw [umul96_upper32_spec cfg hf hc, umul96_upper32_spec cfg0 hf hc]
  · simp only [compute_mul, Fmt.q] at *
    have h1 : cache_high c < 2 ^ 64 := by unfold cache_high; omega
    have h2 : wrap 64 c < 2 ^ 64 := by unfold wrap; omega
    rw [umul192_upper64_spec cfg hf h1 h2, umul192_upper64_spec cfg0 hf h1 h2]

/-! ## Delta -/

/-- `delta_agrees` for a general shift. -/
def deltaSame (F : Fmt) (k minus_beta : Int) (cfg : Cfg) : Exec Bool := do
  let cache ← get_cache cfg F k
  let orthodox ← compute_mul cfg F (wrap F.q (3 * 2 ^ (F.q - F.p - 3))) cache minus_beta
  let fast ← compute_delta F .to_nearest true cache minus_beta
  .ok (decide (orthodox = fast))

def deltaRow (F : Fmt) (i : Nat) (b : Nat) : Bool := decide (deltaSame F (F.min_k + i) b cfg0 = .ok true)

theorem deltaSame_any {F : Fmt} {k b : Int} (h : deltaSame F k b cfg0 = .ok true) (cfg : Cfg) :
    deltaSame F k b cfg = .ok true := by
  obtain ⟨c, h1, h2⟩ := Exec.bind_eq_ok h
  obtain ⟨g1, g2⟩ := get_cache_any h1 cfg
  unfold deltaSame
  rw [g1]
  simp only [Exec.ok_bind]
  rw [compute_mul_any cfg b (by cases F <;> decide) g2]
  exact h2

theorem delta_table32 : ∀ i < 77, ∀ b < 6, 2 ≤ b → deltaRow .b32 i b = true := by decide +kernel

theorem delta_table64_0 : ∀ i < 77, ∀ b < 6, 2 ≤ b → deltaRow .b64 (i + 0) b = true := by decide +kernel

theorem delta_table64_1 : ∀ i < 77, ∀ b < 6, 2 ≤ b → deltaRow .b64 (i + 77) b = true := by decide +kernel

theorem delta_table64_2 : ∀ i < 77, ∀ b < 6, 2 ≤ b → deltaRow .b64 (i + 154) b = true := by decide +kernel

theorem delta_table64_3 : ∀ i < 77, ∀ b < 6, 2 ≤ b → deltaRow .b64 (i + 231) b = true := by decide +kernel

theorem delta_table64_4 : ∀ i < 77, ∀ b < 6, 2 ≤ b → deltaRow .b64 (i + 308) b = true := by decide +kernel

theorem delta_table64_5 : ∀ i < 77, ∀ b < 6, 2 ≤ b → deltaRow .b64 (i + 385) b = true := by decide +kernel

theorem delta_table64_6 : ∀ i < 77, ∀ b < 6, 2 ≤ b → deltaRow .b64 (i + 462) b = true := by decide +kernel

theorem delta_table64_7 : ∀ i < 77, ∀ b < 6, 2 ≤ b → deltaRow .b64 (i + 539) b = true := by decide +kernel

theorem delta_table64 (i : Nat) (hi : i < 616) (b : Nat) (h1 : b < 6) (h2 : 2 ≤ b) : deltaRow .b64 i b = true := by
  have key : ∀ m, (∀ j < 77, ∀ b < 6, 2 ≤ b → deltaRow .b64 (j + m) b = true) → m ≤ i → i < m + 77 →
      deltaRow .b64 i b = true := by
    intro m h h3 h4
    have := h (i - m) (by omega) b h1 h2
    rwa [Nat.sub_add_cancel h3] at this
  by_cases c0 : i < 77
  · exact key 0 delta_table64_0 (by omega) (by omega)
  by_cases c1 : i < 154
  · exact key 77 delta_table64_1 (by omega) (by omega)
  by_cases c2 : i < 231
  · exact key 154 delta_table64_2 (by omega) (by omega)
  by_cases c3 : i < 308
  · exact key 231 delta_table64_3 (by omega) (by omega)
  by_cases c4 : i < 385
  · exact key 308 delta_table64_4 (by omega) (by omega)
  by_cases c5 : i < 462
  · exact key 385 delta_table64_5 (by omega) (by omega)
  by_cases c6 : i < 539
  · exact key 462 delta_table64_6 (by omega) (by omega)
  exact key 539 delta_table64_7 (by omega) (by omega)

theorem deltaSame_true (cfg : Cfg) (F : Fmt) {k b : Int} (h1 : F.min_k ≤ k) (h2 : k ≤ F.max_k) (h3 : 2 ≤ b)
    (h4 : b ≤ 5) : deltaSame F k b cfg = .ok true := by
  obtain ⟨i, rfl⟩ : ∃ i : Nat, k = F.min_k + i := ⟨(k - F.min_k).toNat, by omega⟩
  obtain ⟨c, rfl⟩ : ∃ c : Nat, b = c := ⟨b.toNat, by omega⟩
  have h : deltaRow F i c = true := by
    cases F
    · have : Fmt.b32.max_k = Fmt.b32.min_k + 76 := by decide
      exact delta_table32 i (by omega) c (by omega) (by omega)
    · have : Fmt.b64.max_k = Fmt.b64.min_k + 615 := by decide
      exact delta_table64 i (by omega) c (by omega) (by omega)
  exact deltaSame_any (of_decide_eq_true h) cfg

theorem verify_delta_loop_true (cfg : Cfg) (F : Fmt) (count : Nat) : ∀ k : Int, F.min_k ≤ k →
    k + count ≤ F.max_k + 1 → verify_delta_loop cfg F count k = .ok true := by
  induction count with
  | zero => intro k _ _; rfl
  | succ count ih =>
    intro k h1 h2
    have : delta_agrees cfg F k = .ok true := deltaSame_true cfg F h1 (by omega) (by cases F <;> decide)
      (by cases F <;> decide)
    simp only [verify_delta_loop, this, Exec.ok_bind, if_true]
    exact ih (k + 1) (by omega) (by push_cast at h2; omega)

/-! ## The tools that call `grisu_exact` -/

/-- `tool_setup` with the calls of `grisu_exact` made in another configuration. -/
def tool_setup' (cfg cfg' : Cfg) (F : Fmt) (e_shifted : Nat) : Exec (Option ToolSetup) := do
  let x := wrap F.q (e_shifted * 2 ^ F.p)
  let e : Int := e_shifted + F.exponent_bias - F.q + 1
  let minus_k ← floor_log10_pow2 cfg (e + 1 - F.alpha)
  let k := -minus_k
  let l ← floor_log2_pow10 cfg k
  let beta := e + l + 1
  let harsh ← grisu_exact cfg' F true x .nearest_to_odd .do_not_care .assert_finite
  let generous ← grisu_exact cfg' F true x .nearest_to_even .do_not_care .assert_finite
  let kappa_min := harsh.exponent + k
  let kappa_max := generous.exponent + k
  if kappa_min ≠ kappa_max then .ok none
  else
    let cache ← get_cache cfg F k
    cassert cfg (decide (-beta < F.q))
    .ok (some { e, k, beta, kappa := kappa_min, divisor := tool_divisor F kappa_min.toNat, cache })

theorem tool_pattern {F : Fmt} {e : Nat} (h1 : 1 ≤ e) (h2 : e ≤ 2 ^ F.exponent_bits - 2) :
    FiniteNonzero F (wrap F.q (e * 2 ^ F.p)) := by
  constructor <;> unfold wrap <;> cases F <;>
    simp only [Fmt.exponent_bits, Fmt.q, Fmt.p, Spec.width, mag, Spec.infPattern] at * <;> omega

theorem tool_setup_eq (cfg cfg' : Cfg) {F : Fmt} {e : Nat} (h1 : 1 ≤ e) (h2 : e ≤ 2 ^ F.exponent_bits - 2) :
    tool_setup cfg F e = tool_setup' cfg cfg' F e := by
  have hf := tool_pattern h1 h2
  have e1 : ∀ mode, Spec.IsNearest mode = true → grisu_exact cfg F true (wrap F.q (e * 2 ^ F.p)) mode .do_not_care .assert_finite =
      grisu_exact cfg' F true (wrap F.q (e * 2 ^ F.p)) mode .do_not_care .assert_finite := by
    intro mode hm
    obtain ⟨r, r1, r2⟩ := C17_portable cfg cfg' F true _ mode .do_not_care .assert_finite hf
      (by cases mode <;> simp_all [IsTruncating, Spec.IsNearest])
    rw [r1, r2]
  unfold tool_setup tool_setup'
  simp only
  rw [e1 .nearest_to_odd rfl, e1 .nearest_to_even rfl]

/-- The biased exponents the first tool reports. -/
def expectedRounding (F : Fmt) (e : Nat) : List RoundingLine :=
  match F with
  | .b32 => []
  | .b64 => if e = 288 ∨ e = 494 ∨ e = 680 ∨ e = 1238 then [⟨5, (e : Int) - 1086, e * 2 ^ 52⟩] else []

/-- The biased exponents the second tool reports. -/
def expectedRemoval (F : Fmt) (e : Nat) : List RemovalLine :=
  match F with
  | .b32 => if e = 98 then [⟨98 * 2 ^ 23, -60, .lt⟩] else if e = 217 then [⟨217 * 2 ^ 23, 59, .gt⟩] else []
  | .b64 => if e = 431 then [⟨431 * 2 ^ 52, -655, .lt⟩] else if e = 883 then [⟨883 * 2 ^ 52, -203, .gt⟩] else []

/-- Both tools find nothing wrong with a biased exponent, and print the expected lines. -/
def stepOk (cfg : Cfg) (F : Fmt) (e : Nat) : Exec Bool := do
  match ← tool_setup' cfg ⟨true, false⟩ F e with
  | none => .ok false
  | some t =>
    let r ← rounding_report cfg F e t true
    let s ← removal_check cfg F e t true
    .ok (decide (r = (expectedRounding F e, true)) && decide (s = (expectedRemoval F e, true)))

def stepRow (F : Fmt) (e : Nat) : Bool := decide (stepOk cfg0 F e = .ok true)

theorem tool_setup_any {cfg' : Cfg} {F : Fmt} {e : Nat} {o : Option ToolSetup} (h : tool_setup' cfg0 cfg' F e = .ok o)
    (cfg : Cfg) : tool_setup' cfg cfg' F e = .ok o ∧ ∀ t, o = some t → t.cache < 2 ^ (2 * F.q) := by
  unfold tool_setup' at h ⊢
  obtain ⟨mk, h1, h⟩ := Exec.bind_eq_ok h
  obtain ⟨l, h2, h⟩ := Exec.bind_eq_ok h
  obtain ⟨harsh, h3, h⟩ := Exec.bind_eq_ok h
  obtain ⟨generous, h4, h⟩ := Exec.bind_eq_ok h
  simp only [floor_log10_pow2_any h1 cfg, floor_log2_pow10_any h2 cfg, h3, h4, Exec.ok_bind]
  dsimp only at h
  split at h
  · rename_i hk
    rw [if_pos hk]
    cases h
    exact ⟨rfl, fun t ht => by cases ht⟩
  · rename_i hk
    rw [if_neg hk]
    obtain ⟨c, h5, h⟩ := Exec.bind_eq_ok h
    obtain ⟨g1, g2⟩ := get_cache_any h5 cfg
    obtain ⟨⟨⟩, h6, h⟩ := Exec.bind_eq_ok h
    rw [g1]
    simp only [Exec.ok_bind, cassert_any h6 cfg]
    cases h
    exact ⟨rfl, fun t ht => by cases ht; exact g2⟩

theorem fr_lt (F : Fmt) : F.sign_bit_mask ||| F.boundary_bit < 2 ^ F.q := by cases F <;> decide

theorem fl_lt (F : Fmt) : F.sign_bit_mask - F.edge_case_boundary_bit < 2 ^ F.q := by cases F <;> decide

theorem rounding_report_any (cfg : Cfg) {F : Fmt} {e : Nat} {t : ToolSetup} (hc : t.cache < 2 ^ (2 * F.q)) (b : Bool) :
    rounding_report cfg F e t b = rounding_report cfg0 F e t b := by
  have : rounding_steps cfg F t = rounding_steps cfg0 F t := by
    unfold rounding_steps
    simp only [compute_mul_any cfg (-t.beta) (fr_lt F) hc]
  unfold rounding_report
  rw [this]

theorem removal_check_any (cfg : Cfg) {F : Fmt} {e : Nat} {t : ToolSetup} (hc : t.cache < 2 ^ (2 * F.q)) (b : Bool) :
    removal_check cfg F e t b = removal_check cfg0 F e t b := by
  have he : ∀ c : Cfg, equal_fractional_parts c F .to_nearest (F.sign_bit_mask - F.edge_case_boundary_bit) t.e (-t.k) =
      .ok (decide (t.e ≥ F.lower_bound_q_mp_m3 ∧ t.e ≤ F.max_exponent_for_k_geq_0)) := by
    intro c
    simp only [equal_fractional_parts, ne_eq, not_true_eq_false, if_false, is_product_integer]
  unfold removal_check
  simp only [compute_mul_any cfg (-t.beta) (fr_lt F) hc, compute_mul_any cfg (-t.beta) (fl_lt F) hc, he]

theorem stepOk_any {F : Fmt} {e : Nat} (h : stepOk cfg0 F e = .ok true) (cfg : Cfg) : stepOk cfg F e = .ok true := by
  unfold stepOk at h ⊢
  obtain ⟨o, h1, h⟩ := Exec.bind_eq_ok h
  obtain ⟨g1, g2⟩ := tool_setup_any h1 cfg
  rw [g1]
  simp only [Exec.ok_bind]
  cases o with
  | none => exact h
  | some t =>
    dsimp only at h ⊢
    rw [rounding_report_any cfg (g2 t rfl), removal_check_any cfg (g2 t rfl)]
    exact h

theorem step_table32 : ∀ e < 254, stepRow .b32 (e + 1) = true := by decide +kernel

theorem step_table64_0 : ∀ e < 128, stepRow .b64 (e + 1) = true := by decide +kernel

theorem step_table64_1 : ∀ e < 128, stepRow .b64 (e + 129) = true := by decide +kernel

theorem step_table64_2 : ∀ e < 128, stepRow .b64 (e + 257) = true := by decide +kernel

theorem step_table64_3 : ∀ e < 128, stepRow .b64 (e + 385) = true := by decide +kernel

theorem step_table64_4 : ∀ e < 128, stepRow .b64 (e + 513) = true := by decide +kernel

theorem step_table64_5 : ∀ e < 128, stepRow .b64 (e + 641) = true := by decide +kernel

theorem step_table64_6 : ∀ e < 128, stepRow .b64 (e + 769) = true := by decide +kernel

theorem step_table64_7 : ∀ e < 128, stepRow .b64 (e + 897) = true := by decide +kernel

theorem step_table64_8 : ∀ e < 128, stepRow .b64 (e + 1025) = true := by decide +kernel

theorem step_table64_9 : ∀ e < 128, stepRow .b64 (e + 1153) = true := by decide +kernel

theorem step_table64_10 : ∀ e < 128, stepRow .b64 (e + 1281) = true := by decide +kernel

theorem step_table64_11 : ∀ e < 128, stepRow .b64 (e + 1409) = true := by decide +kernel

theorem step_table64_12 : ∀ e < 128, stepRow .b64 (e + 1537) = true := by decide +kernel

theorem step_table64_13 : ∀ e < 128, stepRow .b64 (e + 1665) = true := by decide +kernel

theorem step_table64_14 : ∀ e < 128, stepRow .b64 (e + 1793) = true := by decide +kernel

theorem step_table64_15 : ∀ e < 128, stepRow .b64 (e + 1919) = true := by decide +kernel

theorem step_table64 (i : Nat) (hi : i < 2046) : stepRow .b64 (i + 1) = true := by
  have key : ∀ m, (∀ j < 128, stepRow .b64 (j + m) = true) → m ≤ i + 1 → i + 1 < m + 128 →
      stepRow .b64 (i + 1) = true := by
    intro m h h3 h4
    have := h (i + 1 - m) (by omega)
    rwa [Nat.sub_add_cancel h3] at this
  by_cases c0 : i < 128
  · exact key 1 step_table64_0 (by omega) (by omega)
  by_cases c1 : i < 256
  · exact key 129 step_table64_1 (by omega) (by omega)
  by_cases c2 : i < 384
  · exact key 257 step_table64_2 (by omega) (by omega)
  by_cases c3 : i < 512
  · exact key 385 step_table64_3 (by omega) (by omega)
  by_cases c4 : i < 640
  · exact key 513 step_table64_4 (by omega) (by omega)
  by_cases c5 : i < 768
  · exact key 641 step_table64_5 (by omega) (by omega)
  by_cases c6 : i < 896
  · exact key 769 step_table64_6 (by omega) (by omega)
  by_cases c7 : i < 1024
  · exact key 897 step_table64_7 (by omega) (by omega)
  by_cases c8 : i < 1152
  · exact key 1025 step_table64_8 (by omega) (by omega)
  by_cases c9 : i < 1280
  · exact key 1153 step_table64_9 (by omega) (by omega)
  by_cases c10 : i < 1408
  · exact key 1281 step_table64_10 (by omega) (by omega)
  by_cases c11 : i < 1536
  · exact key 1409 step_table64_11 (by omega) (by omega)
  by_cases c12 : i < 1664
  · exact key 1537 step_table64_12 (by omega) (by omega)
  by_cases c13 : i < 1792
  · exact key 1665 step_table64_13 (by omega) (by omega)
  by_cases c14 : i < 1920
  · exact key 1793 step_table64_14 (by omega) (by omega)
  exact key 1919 step_table64_15 (by omega) (by omega)

theorem stepOk_true (cfg : Cfg) (F : Fmt) {e : Nat} (h1 : 1 ≤ e) (h2 : e ≤ 2 ^ F.exponent_bits - 2) :
    stepOk cfg F e = .ok true := by
  obtain ⟨i, rfl⟩ : ∃ i : Nat, e = i + 1 := ⟨e - 1, by omega⟩
  have h : stepRow F (i + 1) = true := by
    cases F
    · have : 2 ^ Fmt.b32.exponent_bits = 256 := by decide
      exact step_table32 i (by omega)
    · have : 2 ^ Fmt.b64.exponent_bits = 2048 := by decide
      exact step_table64 i (by omega)
  exact stepOk_any (of_decide_eq_true h) cfg

/-- Everything the two tools compute for one exponent. -/
theorem step_facts (cfg : Cfg) (F : Fmt) {e : Nat} (h1 : 1 ≤ e) (h2 : e ≤ 2 ^ F.exponent_bits - 2) :
    ∃ t, tool_setup cfg F e = .ok (some t) ∧
      rounding_report cfg F e t true = .ok (expectedRounding F e, true) ∧
      removal_check cfg F e t true = .ok (expectedRemoval F e, true) := by
  have h := stepOk_true cfg F h1 h2
  obtain ⟨o, ho, h⟩ := Exec.bind_eq_ok h
  rw [← tool_setup_eq cfg ⟨true, false⟩ h1 h2] at ho
  cases o with
  | none => simp at h
  | some t =>
    obtain ⟨r, hr, h⟩ := Exec.bind_eq_ok h
    obtain ⟨s, hs, h⟩ := Exec.bind_eq_ok h
    simp only [Exec.ok.injEq, Bool.and_eq_true, decide_eq_true_eq] at h
    obtain ⟨rfl, rfl⟩ := h
    exact ⟨t, ho, hr, hs⟩

end Grisu
