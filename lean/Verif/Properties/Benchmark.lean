import Verif.Proofs.Benchmark

/-! # C78: the benchmark runs for every sample and its result files say what was measured -/

namespace Grisu
open Spec

/-- **C78**: whatever the engine delivers, whatever the functions registered and the number of iterations, the
measurement loop ends without undefined behaviour: 40 characters are enough for every sample. -/
theorem C78_run (cfg : Cfg) (c : Ryu.Config) (F : Fmt) (iterations : Nat) (samples : List (List Nat))
    (functions : List Registered) (hi : 1 ≤ iterations) (hx : ∀ xs ∈ samples, ∀ x ∈ xs, x < 2 ^ width F) :
    benchmark_run cfg c F iterations samples functions = .ok () := Bench.run_ok cfg c hi samples hx functions

/-- **C78**, the whole benchmark: unless the generator keeps discarding what the engine delivers, the file for uniformly
distributed samples has one line for each function and each sample, with the name of the function, a text that denotes
the sample and its bit pattern in hexadecimal; the other file has one line for each function, each number of digits and
each sample, and the text in a line for a number of digits has that number of digits.  The samples for `d` digits are as
many as asked for; they are those numbers that need `d` digits, or zero for one digit. -/
theorem C78_files (cfg : Cfg) (c : Ryu.Config) (F : Fmt) (parse : Bool → Nat → Int → Option Nat) (general : List Nat)
    (draws : List (List (Int × List Draw))) (iterations : Nat) (functions written : List Registered)
    (hp : CorrectParser F parse) (hg : ∀ x ∈ general, x < 2 ^ width F) (hi : 1 ≤ iterations)
    (hl : draws.length = genDigits F)
    (hd : ∀ i l, draws[i]? = some l → ∀ e ∈ l, ∀ d ∈ e.2, DrawOk F (1 + i) d) :
    benchmark_test cfg c F parse general draws iterations functions written = .fault .loopFuel ∨
    ∃ (uniform digits : List (List Char)) (samples : List (List Nat)),
      benchmark_test cfg c F parse general draws iterations functions written = .ok (uniform, digits) ∧
      samples.map List.length = draws.map List.length ∧
      (∀ i xs, samples[i]? = some xs → ∀ x ∈ xs,
        (1 + i = 1 ∧ x = 0) ∨ (FiniteNonzero F x ∧ LeastDigits F x (1 + i))) ∧
      List.Forall₂ (fun (k : Registered × Nat) line => UniformLine F k.1.name k.2 line)
        (written.flatMap fun f => general.map fun x => (f, x)) uniform ∧
      List.Forall₂ (fun (k : Registered × Nat × Nat) line => DigitsLine F k.1.name k.2.1 k.2.2 line)
        (written.flatMap fun f => (samples.zipIdx 1).flatMap fun p => p.1.map fun x => (f, p.2, x)) digits := by
  unfold benchmark_test prepare_samples
  rcases Bench.prepare_loop_spec cfg hp draws 1 le_rfl (by omega) hd with h | ⟨samples, h, h1, h2⟩
  · left
    rw [h]
    rfl
  · right
    have hx : ∀ xs ∈ general :: samples, ∀ x ∈ xs, x < 2 ^ width F := by
      intro xs hxs x hx
      rcases List.mem_cons.mp hxs with rfl | hxs
      · exact hg x hx
      · obtain ⟨i, hi⟩ := List.mem_iff_getElem?.mp hxs
        exact Bench.sample_lt (h2 i xs hi x hx)
    obtain ⟨uniform, b1, h3, h4, h5⟩ := Bench.uniform_file_spec cfg general hg written (List.replicate 64 none)
      (by cases F <;> simp [maxText])
    obtain ⟨digits, b2, h6, h7, h8⟩ := Bench.digits_file_spec cfg samples h2 written b1
      (by rw [h4]; cases F <;> simp [maxText])
    refine ⟨uniform, digits, samples, ?_, h1, h2, h5, h8⟩
    rw [h]
    simp only [Exec.ok_bind, Bench.run_ok cfg c hi _ hx functions, List.headD_cons, List.tail_cons, h3, h6]

/-- **C78**, why the number of digits of the text is that of the sample: the text printed for a number other than zero has
as many digits as the number needs. -/
theorem C78_text_digits (cfg : Cfg) (F : Fmt) (x : Nat) (text : List Char) (h : FiniteNonzero F x)
    (hp : Prints cfg F x .nearest_to_even .tie_to_even text) : LeastDigits F x (significantDigits text) := by
  obtain ⟨r, hr, rfl⟩ := prints_inv h hp
  obtain ⟨r1, e1, m1⟩ := C02_roundtrip_nearest cfg F false x .nearest_to_even .tie_to_even .assert_finite h rfl
  obtain ⟨r2, e2, m2⟩ := C03_shortest_nearest cfg F false x .nearest_to_even .tie_to_even .assert_finite h rfl
  rw [hr] at e1 e2
  cases e1
  cases e2
  rw [Bench.digits_of_sci _ _ _ (printable h hr).1.pos]
  exact ⟨⟨_, _, rfl, m1⟩, fun s t hs => m2 s t hs⟩

-- one uniform sample, an infinity, and one sample of two digits
example : ∀ i l, ([[], [(0, [⟨1, 2, -1⟩])], [], [], [], [], [], [], []] : List (List (Int × List Draw)))[i]? = some l →
    ∀ e ∈ l, ∀ d ∈ e.2, DrawOk .b32 (1 + i) d := by
  intro i l h e he d hd
  rcases i with _ | _ | i
  · simp at h; subst h; simp at he
  · simp at h; subst h
    rw [List.mem_singleton] at he
    subst he
    rw [List.mem_singleton] at hd
    subst hd
    exact ⟨by decide, by decide, by decide, by decide, by decide, by decide⟩
  · rcases i with _ | _ | _ | _ | _ | _ | _ | i <;> simp at h <;> subst h <;> simp at he
example : benchmark_test ⟨true, false⟩ ⟨.uint128, false, true, false⟩ .b32
    (fun neg s t => if neg = false ∧ s = 12 ∧ t = -1 then some 0x3F99999A else none) [0x7F800000]
    [[], [(0, [⟨1, 2, -1⟩])], [], [], [], [], [], [], []] 3
    [.grisu_exact, .ryu, .grisu_exact_wo_correct_rounding] [.ryu] =
    .ok (["\"Ryu\",Infinity,0x7f800000,".toList], ["\"Ryu\",2,1.2E0,".toList]) := by decide +kernel
example : significantDigits "-1.25E-3".toList = 3 := by decide +kernel
example : FiniteNonzero .b32 0x3F99999A := ⟨by decide, by decide, by decide⟩
-- an assertion stops a benchmark of no iterations
example (c : Ryu.Config) (F : Fmt) (samples : List (List Nat)) (fs : List Registered) :
    benchmark_run ⟨true, false⟩ c F 0 samples fs = .fault .assertion := rfl

end Grisu
