import Verif.Proofs.VerifyTables

/-! # The loops of the self-verification tools -/

namespace Grisu

theorem verify_rounding_bound_loop_eq (cfg : Cfg) (F : Fmt) (count : Nat) : ∀ e : Nat, 1 ≤ e →
    e + count ≤ 2 ^ F.exponent_bits - 1 →
    verify_rounding_bound_loop cfg F count e true =
      .ok ((List.range' e count).flatMap (expectedRounding F), true) := by
  induction count with
  | zero => intro e _ _; rfl
  | succ count ih =>
    intro e h1 h2
    obtain ⟨t, e1, e2, -⟩ := step_facts cfg F h1 (by omega)
    simp only [verify_rounding_bound_loop, e1, e2, Exec.ok_bind, ih (e + 1) (by omega) (by omega),
      List.range'_succ, List.flatMap_cons]

theorem verify_removal_loop_eq (cfg : Cfg) (F : Fmt) (count : Nat) : ∀ e : Nat, 1 ≤ e →
    e + count ≤ 2 ^ F.exponent_bits - 1 →
    verify_removal_loop cfg F count e true = .ok ((List.range' e count).flatMap (expectedRemoval F), true) := by
  induction count with
  | zero => intro e _ _; rfl
  | succ count ih =>
    intro e h1 h2
    obtain ⟨t, e1, -, e3⟩ := step_facts cfg F h1 (by omega)
    simp only [verify_removal_loop, e1, e3, Exec.ok_bind, ih (e + 1) (by omega) (by omega),
      List.range'_succ, List.flatMap_cons]

end Grisu
