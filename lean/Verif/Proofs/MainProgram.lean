import Verif.Model.MainProgram
import Verif.Proofs.Console
import Verif.Proofs.Benchmark

/-! # The main program: helper lemmas -/

namespace Grisu
open Printed Spec

namespace Main

/-- The lines about one function, for `n` sample lists from the number of digits `d` on. -/
def messages (name : String) (f : Registered) : Nat → Nat → List Char
  | _, 0 => []
  | d, n + 1 => (benchmark_message name f d).out ++ messages name f (d + 1) n

theorem message_result (name : String) (f : Registered) (d : Nat) : (benchmark_message name f d).result = .ok () := by
  unfold benchmark_message
  split <;> rfl

theorem digits_loop_eq (cfg : Cfg) (c : Ryu.Config) {F : Fmt} (name : String) (n : Nat) (f : Registered)
    (samples : List (List Nat)) (hx : ∀ xs ∈ samples, ∀ x ∈ xs, x < 2 ^ width F) :
    ∀ (d : Nat) (b : Buffer), maxText F + 1 ≤ b.length → ∃ b', b'.length = b.length ∧
      digits_loop_console cfg c F name n f d samples b = ⟨messages name f d samples.length, .ok b'⟩ := by
  induction samples with
  | nil => intro d b _; exact ⟨b, rfl, rfl⟩
  | cons xs samples ih =>
    intro d b hb
    obtain ⟨b1, h1, h2⟩ := Bench.sample_loop_ok cfg c n f xs (hx xs (List.mem_cons_self ..)) b hb
    obtain ⟨b2, h3, h4⟩ := ih (fun y hy => hx y (List.mem_cons_of_mem _ hy)) (d + 1) b1 (by omega)
    refine ⟨b2, by omega, ?_⟩
    rw [digits_loop_console, eq_mk (message_result name f d), mk_ok_bind, h1, run_ok_bind, h4, List.length_cons, messages]

theorem function_loop_eq (cfg : Cfg) (c : Ryu.Config) {F : Fmt} (name : String) (n : Nat) (samples : List (List Nat))
    (hx : ∀ xs ∈ samples, ∀ x ∈ xs, x < 2 ^ width F) (fs : List Registered) :
    ∀ b : Buffer, maxText F + 1 ≤ b.length → ∃ b', b'.length = b.length ∧
      function_loop_console cfg c F name n samples fs b =
        ⟨fs.flatMap fun f => messages name f 0 samples.length, .ok b'⟩ := by
  induction fs with
  | nil => intro b _; exact ⟨b, rfl, rfl⟩
  | cons f fs ih =>
    intro b hb
    obtain ⟨b1, h1, h2⟩ := digits_loop_eq cfg c name n f samples hx 0 b hb
    obtain ⟨b2, h3, h4⟩ := ih b1 (by omega)
    refine ⟨b2, by omega, ?_⟩
    rw [function_loop_console, h2, mk_ok_bind, h4, List.flatMap_cons]

theorem run_eq (cfg : Cfg) (c : Ryu.Config) {F : Fmt} (name : String) {n : Nat} (hn : 1 ≤ n) (samples : List (List Nat))
    (hx : ∀ xs ∈ samples, ∀ x ∈ xs, x < 2 ^ width F) (fs : List Registered) :
    benchmark_run_console cfg c F name n samples fs =
      ⟨fs.flatMap fun f => messages name f 0 samples.length, .ok ()⟩ := by
  obtain ⟨b, -, h⟩ := function_loop_eq cfg c name n samples hx fs (List.replicate 40 none)
    (by cases F <;> simp [maxText])
  unfold benchmark_run_console cassert
  rw [h]
  simp only [decide_eq_true hn, ge_iff_le, Bool.or_true, if_true, run_ok_bind,
    mk_ok_bind, pure_eq, List.append_nil]

theorem bench_ok {α β γ : Type} (t1 name t2 t3 t4 t5 t6 : String) {x : Exec α} {a : α} (hx : x = .ok a)
    {y : α → Printed Unit} {o : List Char} (hy : y a = ⟨o, .ok ()⟩) {z : α → Exec β} {b : β} (hz : z a = .ok b)
    {g : α → β → Exec γ} {r : γ} (hg : g a b = .ok r) {δ : Type} (fin : β → γ → δ) : (do
      say t1
      say name
      say t2
      say t3
      let samples ← run x
      y samples
      say t4
      say t5
      let u ← run (z samples)
      let v ← run (g samples u)
      say t6
      pure (fin u v) : Printed δ) =
    ⟨t1.toList ++ (name.toList ++ (t2.toList ++ (t3.toList ++ ([] ++ (o ++ (t4.toList ++ (t5.toList ++ ([] ++ ([] ++
      (t6.toList ++ [])))))))))), .ok (fin b r)⟩ := by
  subst hx
  simp only [say_bind, run_ok_bind, hy, mk_ok_bind, hz, hg, pure_eq, List.nil_append]

theorem bench_fault {α δ : Type} (t1 name t2 t3 : String) {x : Exec α} {e : Fault} (hx : x = .fault e)
    (k : α → Printed δ) : (do
      say t1
      say name
      say t2
      say t3
      let samples ← run x
      k samples : Printed δ) = ⟨t1.toList ++ (name.toList ++ (t2.toList ++ (t3.toList ++ []))), .fault e⟩ := by
  subst hx
  rfl

end Main
end Grisu
