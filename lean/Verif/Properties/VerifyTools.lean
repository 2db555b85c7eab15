import Verif.Proofs.VerifyTools
import Verif.Proofs.VerifyLog

/-! # The self-verification tools -/

namespace Grisu
open Spec (FiniteNonzero)

/-! ## C62 -/

/-- **C62**: for every cache entry and every shift that occurs, the length of the rounding interval computed with
the short formula is the one the full multiplication of `3 * 2^(q-p-3)` by the cache entry gives. -/
theorem C62_delta (cfg : Cfg) (F : Fmt) (k minus_beta : Int) (h1 : F.min_k ≤ k) (h2 : k ≤ F.max_k)
    (h3 : -F.gamma ≤ minus_beta) (h4 : minus_beta ≤ -F.alpha) :
    ∃ cache v, get_cache cfg F k = .ok cache ∧
      compute_mul cfg F (3 * 2 ^ (F.q - F.p - 3)) cache minus_beta = .ok v ∧
      compute_delta F .to_nearest true cache minus_beta = .ok v := by
  have h := deltaSame_true cfg F h1 h2 (by revert h3; cases F <;> exact id) (by revert h4; cases F <;> exact id)
  obtain ⟨cache, e1, h⟩ := Exec.bind_eq_ok h
  obtain ⟨v, e2, h⟩ := Exec.bind_eq_ok h
  obtain ⟨w, e3, h⟩ := Exec.bind_eq_ok h
  simp only [Exec.ok.injEq, decide_eq_true_eq] at h
  subst h
  rw [show wrap F.q (3 * 2 ^ (F.q - F.p - 3)) = 3 * 2 ^ (F.q - F.p - 3) by cases F <;> decide] at e2
  exact ⟨cache, v, e1, e2, e3⟩

example : Fmt.b64.min_k ≤ 17 ∧ (17 : Int) ≤ Fmt.b64.max_k ∧ -Fmt.b64.gamma ≤ 4 ∧ 4 ≤ -Fmt.b64.alpha ∧
    (do let c ← get_cache ⟨true, false⟩ .b64 17; compute_delta .b64 .to_nearest true c 4) = .ok 66 := by
  decide +kernel

/-- **C62**, the tool: it reports that all values agree. -/
theorem C62_tool (cfg : Cfg) (F : Fmt) : verify_delta cfg F = .ok true := by
  refine verify_delta_loop_true cfg F _ F.min_k le_rfl ?_
  cases F <;> decide

/-! ## C63 -/

/-- **C63**: a normal power of two is printed with the same exponent whether or not the ends of the rounding
interval count as inside. -/
theorem C63_same_exponent (cfg : Cfg) (F : Fmt) (e : Nat) (h1 : 1 ≤ e) (h2 : e ≤ 2 ^ F.exponent_bits - 2) :
    ∃ r r', grisu_exact cfg F true (e * 2 ^ F.p) .nearest_to_odd .do_not_care .assert_finite = .ok r ∧
      grisu_exact cfg F true (e * 2 ^ F.p) .nearest_to_even .do_not_care .assert_finite = .ok r' ∧
      r.exponent = r'.exponent := by
  obtain ⟨t, h, -⟩ := step_facts cfg F h1 h2
  have hw : wrap F.q (e * 2 ^ F.p) = e * 2 ^ F.p := by
    unfold wrap
    apply Nat.mod_eq_of_lt
    cases F <;> simp only [Fmt.exponent_bits, Fmt.q, Fmt.p] at * <;> omega
  obtain ⟨mk, -, h⟩ := Exec.bind_eq_ok h
  obtain ⟨l, -, h⟩ := Exec.bind_eq_ok h
  obtain ⟨r, e1, h⟩ := Exec.bind_eq_ok h
  obtain ⟨r', e2, h⟩ := Exec.bind_eq_ok h
  rw [hw] at e1 e2
  refine ⟨r, r', e1, e2, ?_⟩
  dsimp only at h
  split at h
  · cases h
  · omega

example : 1 ≤ 1023 ∧ 1023 ≤ 2 ^ Fmt.b64.exponent_bits - 2 ∧
    grisu_exact ⟨true, false⟩ .b64 true (1021 * 2 ^ 52) .nearest_to_odd .do_not_care .assert_finite =
      .ok ⟨25, -2, some false⟩ := by decide +kernel

/-- **C63**, the tool: its verdict is that the search never takes more steps than allowed, and the lines it prints
are none for `float` and, for `double`, the four powers of two for which five steps are taken. -/
theorem C63_tool (cfg : Cfg) (F : Fmt) : verify_rounding_bound cfg F = .ok (match F with
    | .b32 => []
    | .b64 => [⟨5, -798, 288 * 2 ^ 52⟩, ⟨5, -592, 494 * 2 ^ 52⟩, ⟨5, -406, 680 * 2 ^ 52⟩, ⟨5, 152, 1238 * 2 ^ 52⟩],
    true) := by
  unfold verify_rounding_bound
  rw [verify_rounding_bound_loop_eq cfg F _ 1 le_rfl (by cases F <;> decide)]
  cases F <;> decide +kernel

/-! ## C64 -/

/-- **C64**, the tool: its verdict is that the only exceptional exponent is the one treated in the code.  It prints
two lines for either format, one for an exponent where the ordinary comparison decides, and one for the exponent
treated separately. -/
theorem C64_tool (cfg : Cfg) (F : Fmt) : verify_removal cfg F = .ok (match F with
    | .b32 => [⟨98 * 2 ^ 23, -60, .lt⟩, ⟨217 * 2 ^ 23, 59, .gt⟩]
    | .b64 => [⟨431 * 2 ^ 52, -655, .lt⟩, ⟨883 * 2 ^ 52, -203, .gt⟩],
    true) := by
  unfold verify_removal
  rw [verify_removal_loop_eq cfg F _ 1 le_rfl (by cases F <;> decide)]
  cases F <;> decide +kernel

/-! ## C65 -/

/-- **C65**: what each of the three checks reports.  If the comparison of every exponent from 1 to `count` ends, the
number reported is the largest `n` such that no exponent up to `n` is a mismatch, however the later ones come out. -/
theorem C65_report (step : Nat → Exec Bool) (ok : Nat → Bool) (count : Nat)
    (h : ∀ i, 1 ≤ i → i ≤ count → step i = .ok (ok i)) :
    ∃ n, verify_log_loop step count 1 true 0 = .ok n ∧ n ≤ count ∧ (∀ i, 1 ≤ i → i ≤ n → ok i = true) ∧
      (n < count → ok (n + 1) = false) := by
  by_cases hall : ∀ i, 1 ≤ i → i ≤ count → ok i = true
  · refine ⟨count, ?_, le_rfl, hall, by omega⟩
    rcases Nat.eq_zero_or_pos count with rfl | hc
    · rfl
    · rw [verify_log_loop_true count 1 0 hc fun i h1 h2 => by rw [h i h1 (by omega), hall i h1 (by omega)]]
      congr 1; omega
  · have hex : ∃ n, n < count ∧ ok (n + 1) = false := by
      by_contra hcon
      refine hall fun i h1 h2 => ?_
      by_contra hb
      exact hcon ⟨i - 1, by omega, by rw [Nat.sub_add_cancel h1]; simpa using hb⟩
    obtain ⟨h1, h2⟩ := Nat.find_spec hex
    have hmin : ∀ i, 1 ≤ i → i ≤ Nat.find hex → ok i = true := by
      intro i h3 h4
      by_contra hb
      exact Nat.find_min hex (m := i - 1) (by omega) ⟨by omega, by rw [Nat.sub_add_cancel h3]; simpa using hb⟩
    refine ⟨Nat.find hex, ?_, h1.le, hmin, fun _ => h2⟩
    rw [verify_log_loop_first count 1 0 (Nat.find hex) (fun i h3 h4 => h i h3 (by omega)) h1
      (fun i h3 h4 => hmin i h3 (by omega)) (by rw [Nat.add_comm]; exact h2)]
    congr 1
    split <;> omega

example : verify_log_loop (fun i => .ok (decide (i ≠ 3 ∧ i ≠ 5))) 6 1 true 0 = .ok 2 := by decide

/-- **C65**: the check of the logarithms to base 10 reports 1650, so all its multi-word divisions by 10 are right. -/
theorem C65_log10_pow2 (cfg : Cfg) (fuel : Nat) (hf : 4096 ≤ fuel) : verify_log10_pow2 cfg fuel = .ok 1650 := by
  unfold verify_log10_pow2
  rw [verify_log_loop_first (ok := log10_ok) 4096 1 0 1650 (fun i h1 h2 => log10_pow2_step_eq cfg hf (by omega))
    (by omega) (fun i h1 h2 => ?_) (by decide +kernel)]
  · rfl
  · unfold log10_ok
    rw [decide_eq_true (show i < 1651 ∨ i = 2621 by omega)]
    simp

/-- The two exponents around it: 2^1650 has 497 decimal digits as the formula says, 2^1651 has 498. -/
example (cfg : Cfg) : log10_pow2_step cfg 4096 1650 = .ok true ∧ log10_pow2_step cfg 4096 1651 = .ok false ∧
    10 ^ 496 ≤ 2 ^ 1650 ∧ 10 ^ 497 ≤ 2 ^ 1651 ∧ 2 ^ 1651 < 10 ^ 498 ∧
    floor_log10_pow2_raw 1651 = .ok 496 := by
  refine ⟨?_, ?_, by decide +kernel⟩
  · rw [log10_pow2_step_eq cfg le_rfl (by omega)]; decide +kernel
  · rw [log10_pow2_step_eq cfg le_rfl (by omega)]; decide +kernel

/-- **C65**: the check of the logarithms to base 5 reports the full range, without a multi-word division. -/
theorem C65_log5_pow2 (cfg : Cfg) (fuel : Nat) : verify_log5_pow2 cfg fuel = .ok 65536 :=
  verify_log_loop_true 65536 1 0 (by decide) fun _ _ h => log5_pow2_step_true cfg fuel (by omega)

/-- **C65**: the check of the logarithms to base 2 overflows a 32-bit integer before it reports anything. -/
theorem C65_log2_pow10_overflow (cfg : Cfg) : verify_log2_pow10 cfg = .fault .signedOverflow :=
  verify_log_loop_fault 616 1 1024 0 (by decide) (fun _ _ h => log2_pow10_step_true cfg (by omega))
    (log2_pow10_step_fault cfg)

end Grisu
