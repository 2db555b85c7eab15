import Verif.Proofs.MainProgram
import Verif.Properties.Console
import Verif.Properties.WriteCache
import Verif.Properties.Benchmark
import Verif.Properties.Ryu
import Verif.Properties.LiveLoop

/-! # C86: the test program as a whole -/

namespace Grisu
open Printed Spec ResultFiles

def formatName : Fmt → String
  | .b32 => "binary32"
  | .b64 => "binary64"

/-- What the benchmark announces for a function and a number of digits, 0 standing for uniformly distributed samples. -/
def announcement (F : Fmt) (name : List Char) (digits : Nat) : List Char :=
  "Benchmarking ".toList ++ name ++ (if digits = 0 then " with uniformly random ".toList ++ (formatName F).toList ++ "'s...\n".toList
    else " with (approximately) uniformly random ".toList ++ (formatName F).toList ++ "'s of ".toList ++
      Nat.toDigits 10 digits ++ " digits...\n".toList)

/-- What the benchmark prints when the functions are run in the given order. -/
def benchmarkText (F : Fmt) (functions : List Registered) : List Char :=
  "[Running benchmark for ".toList ++ (formatName F).toList ++ lines ["...]", "Generating random samples..."] ++
    (functions.flatMap fun f => (List.range (genDigits F + 1)).flatMap fun d => announcement F f.name d) ++
    lines ["Benchmarking done.", "Now writing to files...", "Done.", "", ""]

theorem message_out (F : Fmt) (f : Registered) (d : Nat) :
    (benchmark_message (formatName F) f d).out = announcement F f.name d := by
  unfold benchmark_message announcement
  by_cases h : d = 0
  · rw [if_pos h, if_pos h]
    simp only [List.append_assoc]
    rfl
  · rw [if_neg h, if_neg h]
    simp only [List.append_assoc]
    rfl

theorem messages_eq (F : Fmt) (f : Registered) (n : Nat) : ∀ d,
    Main.messages (formatName F) f d n = (List.range' d n).flatMap fun d => announcement F f.name d := by
  induction n with
  | zero => intro d; rfl
  | succ n ih => intro d; rw [Main.messages, message_out, ih, List.range'_succ, List.flatMap_cons]

theorem bench_start (cfg : Cfg) (c : Ryu.Config) (F : Fmt) (parse : Bool → Nat → Int → Option Nat)
    (uniform_samples digits_samples iterations : Nat) (input : BenchmarkInput) :
    benchmark_console cfg c F parse uniform_samples digits_samples iterations input = (do
      say "[Running benchmark for "
      say (formatName F)
      say "...]\n"
      say "Generating random samples...\n"
      let samples ← run (prepare_samples cfg F parse ((List.range uniform_samples).map input.general)
        ((List.range' 1 (max_digits F)).map fun digits => (List.range digits_samples).map (input.draws digits)))
      benchmark_run_console cfg c F (formatName F) iterations samples input.functions
      say "Benchmarking done.\n"
      say "Now writing to files...\n"
      let u ← run (uniform_file cfg F (samples.headD []) input.written (List.replicate 64 none))
      let v ← run (digits_file cfg F samples.tail input.written u.2)
      say "Done.\n\n\n"
      pure (⟨"number_of_samples,".toList ++ decimal_nat uniform_samples ++
          "\nname,sample,bit_representation,time\n".toList, u.1⟩,
        ⟨"number_of_samples_per_digits,".toList ++ decimal_nat digits_samples ++ "\nname,digits,sample,time\n".toList, v.1⟩) : Printed (BenchmarkFile × BenchmarkFile)) := by
  unfold benchmark_console formatName
  cases F <;> rfl

/-- What the two result files of a benchmark contain (compare C78): the number of samples and the names of the columns;
a line for each function and each sample, in order; and in the second file as many samples for each number of digits as its
first line says, which need that number of digits. -/
def BenchmarkFilesOk (F : Fmt) (uniform_samples digits_samples : Nat) (general : Nat → Nat) (written : List Registered)
    (files : BenchmarkFile × BenchmarkFile) : Prop :=
  files.1.header = "number_of_samples,".toList ++ Nat.toDigits 10 uniform_samples ++
    lines ["", "name,sample,bit_representation,time"] ∧
  files.2.header = "number_of_samples_per_digits,".toList ++ Nat.toDigits 10 digits_samples ++
    lines ["", "name,digits,sample,time"] ∧
  List.Forall₂ (fun (k : Registered × Nat) line => UniformLine F k.1.name k.2 line)
    (written.flatMap fun f => (List.range uniform_samples).map fun i => (f, general i)) files.1.lines ∧
  ∃ samples : List (List Nat), samples.length = genDigits F ∧ (∀ xs ∈ samples, xs.length = digits_samples) ∧
    (∀ i xs, samples[i]? = some xs → ∀ x ∈ xs,
      (1 + i = 1 ∧ x = 0) ∨ (FiniteNonzero F x ∧ LeastDigits F x (1 + i))) ∧
    List.Forall₂ (fun (k : Registered × Nat × Nat) line => DigitsLine F k.1.name k.2.1 k.2.2 line)
      (written.flatMap fun f => (samples.zipIdx 1).flatMap fun p => p.1.map fun x => (f, p.2, x)) files.2.lines

/-- **C86**: the benchmark announces each function and each number of digits in turn, and writes the files.  It can only stop
if the generator keeps discarding what the engine delivers. -/
theorem C86_benchmark (cfg : Cfg) (c : Ryu.Config) (F : Fmt) (parse : Bool → Nat → Int → Option Nat)
    (uniform_samples digits_samples iterations : Nat) (input : BenchmarkInput)
    (hp : CorrectParser F parse) (hg : ∀ i, input.general i < 2 ^ width F) (hi : 1 ≤ iterations)
    (hd : ∀ digits i, ∀ d ∈ (input.draws digits i).2, DrawOk F digits d) :
    benchmark_console cfg c F parse uniform_samples digits_samples iterations input =
      ⟨"[Running benchmark for ".toList ++ (formatName F).toList ++ lines ["...]", "Generating random samples..."],
        .fault .loopFuel⟩ ∨
    ∃ files, benchmark_console cfg c F parse uniform_samples digits_samples iterations input =
        ⟨benchmarkText F input.functions, .ok files⟩ ∧
      BenchmarkFilesOk F uniform_samples digits_samples input.general input.written files := by
  have l1 : "...]\n".toList ++ "Generating random samples...\n".toList = lines ["...]", "Generating random samples..."] := by
    decide +kernel
  have l2 : "Benchmarking done.\n".toList ++ ("Now writing to files...\n".toList ++ "Done.\n\n\n".toList) =
      lines ["Benchmarking done.", "Now writing to files...", "Done.", "", ""] := by decide +kernel
  have l3 : "\nname,sample,bit_representation,time\n".toList = lines ["", "name,sample,bit_representation,time"] := by
    decide +kernel
  have l4 : "\nname,digits,sample,time\n".toList = lines ["", "name,digits,sample,time"] := by decide +kernel
  have hm : max_digits F = genDigits F := by cases F <;> rfl
  obtain ⟨general, hgen⟩ : ∃ general, (List.range uniform_samples).map input.general = general := ⟨_, rfl⟩
  obtain ⟨draws, hdraws⟩ : ∃ draws, ((List.range' 1 (max_digits F)).map fun digits =>
    (List.range digits_samples).map (input.draws digits)) = draws := ⟨_, rfl⟩
  have hstart := bench_start cfg c F parse uniform_samples digits_samples iterations input
  rw [hgen, hdraws] at hstart
  have hl : draws.length = genDigits F := by rw [← hdraws, List.length_map, List.length_range', hm]
  have hg' : ∀ x ∈ general, x < 2 ^ width F := by
    intro x hx
    rw [← hgen] at hx
    obtain ⟨i, -, rfl⟩ := List.mem_map.mp hx
    exact hg i
  have hd' : ∀ i l, draws[i]? = some l → ∀ e ∈ l, ∀ d ∈ e.2, DrawOk F (1 + i) d := by
    intro i l h e he d hd1
    rw [← hdraws, List.getElem?_map, Option.map_eq_some_iff] at h
    obtain ⟨n, hn, rfl⟩ := h
    obtain ⟨j, -, rfl⟩ := List.mem_map.mp he
    obtain ⟨hlt, hn⟩ := List.getElem?_eq_some_iff.mp hn
    rw [List.getElem_range'] at hn
    rw [show 1 + i = n by omega]
    exact hd n j d hd1
  rcases Bench.prepare_loop_spec cfg hp draws 1 le_rfl (by omega) hd' with h | ⟨samples, h, h1, h2⟩
  · left
    have hs : prepare_samples cfg F parse general draws = .fault .loopFuel := by
      unfold prepare_samples
      rw [h]
      rfl
    refine hstart.trans
      ((Main.bench_fault _ _ _ _ hs _).trans (mk_congr ?_ rfl))
    rw [← l1]
    generalize "...]\n".toList = s1
    generalize "Generating random samples...\n".toList = s2
    simp only [List.append_assoc, List.append_nil]
  · right
    have hs : prepare_samples cfg F parse general draws = .ok (general :: samples) := by
      unfold prepare_samples
      rw [h]
      rfl
    have hx : ∀ xs ∈ general :: samples, ∀ x ∈ xs, x < 2 ^ width F := by
      intro xs hxs x hx
      rcases List.mem_cons.mp hxs with rfl | hxs
      · exact hg' x hx
      · obtain ⟨i, hi⟩ := List.mem_iff_getElem?.mp hxs
        exact Bench.sample_lt (h2 i xs hi x hx)
    obtain ⟨uniform, b1, h3, h4, h5⟩ := Bench.uniform_file_spec cfg general hg' input.written (List.replicate 64 none)
      (by cases F <;> simp [maxText])
    obtain ⟨digits, b2, h6, h7, h8⟩ := Bench.digits_file_spec cfg samples h2 input.written b1
      (by rw [h4]; cases F <;> simp [maxText])
    have hlen : samples.length = genDigits F := by
      have := congrArg List.length h1
      rw [List.length_map, List.length_map] at this
      omega
    refine ⟨_, hstart.trans
      ((Main.bench_ok _ _ _ _ _ _ _ hs (Main.run_eq cfg c (formatName F) hi _ hx input.functions) h3 h6 _).trans
        (mk_congr ?_ rfl)), ?_, ?_, ?_, samples, hlen, ?_, h2, h8⟩
    · unfold benchmarkText
      rw [← l1, ← l2, List.length_cons, hlen]
      have : (fun f => Main.messages (formatName F) f 0 (genDigits F + 1)) =
          fun f : Registered => (List.range (genDigits F + 1)).flatMap fun d => announcement F f.name d := by
        funext f
        rw [messages_eq, List.range_eq_range']
      rw [this]
      generalize "...]\n".toList = s1
      generalize "Generating random samples...\n".toList = s2
      generalize "Benchmarking done.\n".toList = s3
      generalize "Now writing to files...\n".toList = s4
      generalize "Done.\n\n\n".toList = s5
      generalize "[Running benchmark for ".toList = s6
      simp only [List.append_assoc, List.append_nil, List.nil_append]
    · show _ ++ _ ++ _ = _
      rw [l3]
      rfl
    · show _ ++ _ ++ _ = _
      rw [l4]
      rfl
    · rw [← hgen] at h5
      simp only [List.map_map] at h5
      exact h5
    · intro xs hxs
      have : xs.length ∈ samples.map List.length := List.mem_map_of_mem hxs
      rw [h1, ← hdraws, List.map_map] at this
      obtain ⟨d, -, hd1⟩ := List.mem_map.mp this
      rw [← hd1]
      simp only [Function.comp, List.length_map, List.length_range]

/-- **C86**: the performance test prints two lines, whatever is drawn. -/
theorem C86_perf_test (cfg : Cfg) (F : Fmt) (xs : List Nat) (h : ∀ x ∈ xs, x < 2 ^ width F) :
    perf_test_console cfg F xs = ⟨lines [match (generalizing := false) F with
      | .b32 => "[Running the algorithm with uniformly randomly generated float inputs...]"
      | .b64 => "[Running the algorithm with uniformly randomly generated double inputs...]", "Done.", "", ""], .ok ()⟩ := by
  have key : ∀ (t1 n t2 d : String) (x : Exec Unit), x = .ok () → (do
      say t1
      say n
      say t2
      run x
      say d : Printed Unit) = ⟨t1.toList ++ (n.toList ++ (t2.toList ++ ([] ++ d.toList))), .ok ()⟩ := by
    intro t1 n t2 d x hx
    subst hx
    rfl
  cases F <;> exact (key _ _ _ _ _ (C71_perf_test cfg _ xs h)).trans (mk_congr (by decide +kernel) rfl)

/-- **C86**: the cache generator prints no message about an overflow; its files are those of C77. -/
theorem C86_generate_cache (cfg : Cfg) (v : Nat) : generate_cache_console cfg (.ok v) =
    ⟨lines ["[Generating cache...]", "Done.", "", ""],
      .ok (text binary32_generated_cache, text binary64_generated_cache)⟩ := by
  have key : ∀ (t d : String) (x y : Exec (List Char × List Char)) (f32 f64 : List Char), x = .ok (f32, []) →
      y = .ok (f64, []) → (do
      say t
      let u ← run x
      sayChars u.2
      let v ← run y
      sayChars v.2
      say d
      pure (u.1, v.1) : Printed (List Char × List Char)) =
        ⟨t.toList ++ ([] ++ ([] ++ ([] ++ ([] ++ (d.toList ++ []))))), .ok (f32, f64)⟩ := by
    intro t d x y f32 f64 hx hy
    subst hx hy
    rfl
  exact (key _ _ _ _ _ _ (C77_float cfg (.ok v)) (C77_double cfg v)).trans (mk_congr (by decide +kernel) rfl)

/-- **C86**: if the check of the logarithms is selected, the program has a signed overflow there and none of the others
selected is reached. -/
theorem C86_log_first (cfg : Cfg) (c : Ryu.Config) (fuel : Nat) (w : World) (o : Options) (hf : 4096 ≤ fuel)
    (h : o.verify_log_computation = true) :
    main_program cfg c fuel w o = ⟨lines logLines, .fault .signedOverflow⟩ := by
  have key : ∀ (x : Printed Unit) (f : Option Unit → Printed Files) (l : List Char) (e : Fault), x = ⟨l, .fault e⟩ →
      (when_defined o.verify_log_computation x >>= f) = ⟨l, .fault e⟩ := by
    intro x f l e hx
    rw [h, hx]
    rfl
  exact key _ _ _ _ (C85_log cfg fuel hf)

/-- What is printed if an option is set. -/
def selected (option : Bool) (t : List Char) : List Char := if option then t else []

/-- C85 -/
def cacheLengthText : List Char := lines [
  "[Verifying cache length upper bound...]",
  "", "Verify for IEEE-754 binary32 (float) type for negative k...", "Maximum required bits: 57",
  "", "Verify for IEEE-754 binary32 (float) type for positive k...", "Maximum required bits: 61",
  "", "Verify for IEEE-754 binary64 (double) type for negative k...", "Maximum required bits: 125",
  "", "Verify for IEEE-754 binary64 (double) type for positive k...", "Maximum required bits: 125",
  "", "Done.", "", ""]

def generateText : List Char := lines ["[Generating cache...]", "Done.", "", ""]

/-- C85 -/
def deltaText : List Char := lines [
  "[Verifying delta computation...]",
  "delta computation for binary32: verified.",
  "delta computation for binary64: verified.",
  "Done.", "", ""]

/-- C85 -/
def boundText (show_float : Fmt → Nat → List Char) : List Char := lines [
    "[Verifying correct rounding bound...]",
    "correct rounding bound computation for binary32: verified."] ++
  roundingText "5" "-798" (show_float .b64 (288 * 2 ^ 52)) "1200000000000000" ++
  roundingText "5" "-592" (show_float .b64 (494 * 2 ^ 52)) "1ee0000000000000" ++
  roundingText "5" "-406" (show_float .b64 (680 * 2 ^ 52)) "2a80000000000000" ++
  roundingText "5" "152" (show_float .b64 (1238 * 2 ^ 52)) "4d60000000000000" ++ lines [
    "correct rounding bound computation for binary64: verified.",
    "Done.", "", ""]

/-- C85 -/
def exceptionsText (show_float : Fmt → Nat → List Char) : List Char := lines [
    "[Verifying incorrect rounding removal...]"] ++
  removalText (show_float .b32 (98 * 2 ^ 23)) "31000000" "-60" "z^(f) < delta^(f)\n" ++
  removalText (show_float .b32 (217 * 2 ^ 23)) "6c800000" "59" "z^(f) > delta^(f)\n" ++ lines [
    "Incorrect rounding removal for binary32: verified."] ++
  removalText (show_float .b64 (431 * 2 ^ 52)) "1af0000000000000" "-655" "z^(f) < delta^(f)\n" ++
  removalText (show_float .b64 (883 * 2 ^ 52)) "3730000000000000" "-203" "z^(f) > delta^(f)\n" ++ lines [
    "Incorrect rounding removal for binary64: verified.",
    "Done.", "", ""]

/-- C85 -/
def uniformText (F : Fmt) (n : Nat) : List Char :=
  (match F with
    | .b32 => lines ["[Testing uniformly randomly generated float inputs...]"] ++
        "Uniform random test for float with ".toList ++ Nat.toDigits 10 n
    | .b64 => lines ["[Testing uniformly randomly generated double inputs...]"] ++
        "Uniform random test for double with ".toList ++ Nat.toDigits 10 n) ++
  lines [" examples succeeded.", "Done.", "", ""]

def perfText (F : Fmt) : List Char := lines [match F with
    | .b32 => "[Running the algorithm with uniformly randomly generated float inputs...]"
    | .b64 => "[Running the algorithm with uniformly randomly generated double inputs...]", "Done.", "", ""]

/-- What the programs other than the check of the logarithms and the interactive test print. -/
def mainText (w : World) (o : Options) : List Char :=
  selected o.verify_cache_length cacheLengthText ++
  selected o.generate_cache generateText ++
  selected o.verify_delta_computation deltaText ++
  selected o.verify_correct_rounding_bound (boundText w.show_float) ++
  selected o.verify_incorrect_rounding_removal (exceptionsText w.show_float) ++
  selected o.uniform_random_test_float (uniformText .b32 10000000) ++
  selected o.uniform_random_test_double (uniformText .b64 10000000) ++
  selected o.uniform_random_perf_test_float (perfText .b32) ++
  selected o.uniform_random_perf_test_double (perfText .b64) ++
  selected o.benchmark_test_float (benchmarkText .b32 w.benchmark_float.functions) ++
  selected o.benchmark_test_double (benchmarkText .b64 w.benchmark_double.functions)

theorem cache_length_eq (cfg : Cfg) (fuel : Nat) (hf : 64 ≤ fuel) : verify_cache_length cfg fuel = ⟨cacheLengthText, .ok ()⟩ := by
  unfold cacheLengthText
  exact C85_cache_length cfg fuel hf

theorem delta_eq (cfg : Cfg) : verify_delta_computation cfg = ⟨deltaText, .ok ()⟩ := by
  unfold deltaText
  exact C85_delta cfg

theorem bound_eq (cfg : Cfg) (show_float : Fmt → Nat → List Char) :
    verify_correct_rounding_bound cfg show_float = ⟨boundText show_float, .ok ()⟩ := by
  unfold boundText
  exact C85_rounding_bound cfg show_float

theorem exceptions_eq (cfg : Cfg) (show_float : Fmt → Nat → List Char) :
    verify_incorrect_rounding_removal cfg show_float = ⟨exceptionsText show_float, .ok ()⟩ := by
  unfold exceptionsText
  exact C85_removal cfg show_float

theorem stream_lt {F : Fmt} {f : Nat → Nat} (h : ∀ i, f i < 2 ^ width F) (n : Nat) :
    ∀ x ∈ (List.range n).map f, x < 2 ^ width F := by
  intro x hx
  obtain ⟨i, -, rfl⟩ := List.mem_map.mp hx
  exact h i

theorem uniform_eq (cfg : Cfg) (c : Ryu.Config) (F : Fmt) {f : Nat → Nat} (h : ∀ i, f i < 2 ^ width F) {n m : Nat} (hn : n = m) :
    uniform_random_test_console cfg c F ((List.range n).map f) = ⟨uniformText F m, .ok ()⟩ := by
  subst hn
  rw [C85_uniform cfg c F _ (stream_lt h n)]
  unfold uniformText
  rw [List.length_map, List.length_range]
  cases F <;> rfl

theorem perf_eq (cfg : Cfg) (F : Fmt) {f : Nat → Nat} (h : ∀ i, f i < 2 ^ width F) (n : Nat) :
    perf_test_console cfg F ((List.range n).map f) = ⟨perfText F, .ok ()⟩ := by
  rw [C86_perf_test cfg F _ (stream_lt h n)]
  unfold perfText
  cases F <;> rfl

theorem generate_eq (cfg : Cfg) (v : Nat) : generate_cache_console cfg (.ok v) =
    ⟨generateText, .ok (text binary32_generated_cache, text binary64_generated_cache)⟩ := by
  unfold generateText
  exact C86_generate_cache cfg v

theorem append_all (a1 a2 a3 a4 a5 a6 a7 a8 a9 a10 a11 : List Char) :
    [] ++ (a1 ++ (a2 ++ (a3 ++ (a4 ++ (a5 ++ (a6 ++ (a7 ++ (a8 ++ (a9 ++ ([] ++ (a10 ++ (a11 ++ ([] ++ ([] ++ [])))))))))))))) =
      a1 ++ a2 ++ a3 ++ a4 ++ a5 ++ a6 ++ a7 ++ a8 ++ a9 ++ a10 ++ a11 := by
  simp only [List.append_assoc, List.append_nil, List.nil_append]

theorem append_live (a1 a2 a3 a4 a5 a6 a7 a8 a9 a10 a11 b c : List Char) :
    [] ++ (a1 ++ (a2 ++ (a3 ++ (a4 ++ (a5 ++ (a6 ++ (a7 ++ (a8 ++ (a9 ++ ([] ++ (a10 ++ (a11 ++ (b ++ c))))))))))))) =
      a1 ++ a2 ++ a3 ++ a4 ++ a5 ++ a6 ++ a7 ++ a8 ++ a9 ++ a10 ++ a11 ++ b ++ c := by
  simp only [List.append_assoc, List.nil_append]

theorem append_prefix (a1 a2 a3 a4 a5 a6 a7 a8 a9 : List Char) {v a10 a11 : List Char} (h : v <+: a10 ++ a11) :
    [] ++ (a1 ++ (a2 ++ (a3 ++ (a4 ++ (a5 ++ (a6 ++ (a7 ++ (a8 ++ (a9 ++ ([] ++ v)))))))))) <+:
      a1 ++ a2 ++ a3 ++ a4 ++ a5 ++ a6 ++ a7 ++ a8 ++ a9 ++ a10 ++ a11 := by
  simp only [List.append_assoc, List.nil_append, List.prefix_append_right_inj]
  exact h

/-- What may be drawn at random and how the library reads numbers. -/
structure World.Fine (w : World) : Prop where
  uniform_float : ∀ i, w.uniform_float i < 2 ^ width .b32
  uniform_double : ∀ i, w.uniform_double i < 2 ^ width .b64
  perf_float : ∀ i, w.perf_float i < 2 ^ width .b32
  perf_double : ∀ i, w.perf_double i < 2 ^ width .b64
  parser : ∀ F, CorrectParser F (w.parse_decimal F)
  general_float : ∀ i, w.benchmark_float.general i < 2 ^ width .b32
  general_double : ∀ i, w.benchmark_double.general i < 2 ^ width .b64
  draws_float : ∀ digits i, ∀ d ∈ (w.benchmark_float.draws digits i).2, DrawOk .b32 digits d
  draws_double : ∀ digits i, ∀ d ∈ (w.benchmark_double.draws digits i).2, DrawOk .b64 digits d

/-- A program is asked for if its macro is defined, and then its files are as described. -/
def FileOk {α : Type} (option : Bool) (P : α → Prop) : Option α → Prop
  | none => option = false
  | some a => option = true ∧ P a

/-- The files of the test program. -/
structure FilesOk (w : World) (o : Options) (files : Files) : Prop where
  caches : FileOk o.generate_cache (fun p => p = (text binary32_generated_cache, text binary64_generated_cache)) files.caches
  benchmark_float : FileOk o.benchmark_test_float
    (BenchmarkFilesOk .b32 1000000 100000 w.benchmark_float.general w.benchmark_float.written) files.benchmark_float
  benchmark_double : FileOk o.benchmark_test_double
    (BenchmarkFilesOk .b64 1000000 100000 w.benchmark_double.general w.benchmark_double.written) files.benchmark_double

/-- A program that ends with the text `t` and a result as described, or stops for want of random numbers after a part of the
text. -/
def EndsWith {α : Type} (p : Printed α) (P : α → Prop) (t : List Char) : Prop :=
  (∃ a, p = ⟨t, .ok a⟩ ∧ P a) ∨ ∃ t', t' <+: t ∧ p = ⟨t', .fault .loopFuel⟩

theorem ends_when {α : Type} {o : Bool} {p : Printed α} {P : α → Prop} {t : List Char} (h : o = true → EndsWith p P t) :
    EndsWith (when_defined o p) (FileOk o P) (selected o t) := by
  cases o
  · exact Or.inl ⟨none, rfl, rfl⟩
  · rcases h rfl with ⟨a, rfl, ha⟩ | ⟨t', ht, rfl⟩
    · exact Or.inl ⟨some a, congrArg (fun t => (⟨t, .ok (some a)⟩ : Printed (Option α))) (List.append_nil t), rfl, ha⟩
    · exact Or.inr ⟨t', ht, rfl⟩

theorem ends_eq {p : Printed Unit} {t : List Char} (h : p = ⟨t, .ok ()⟩) : EndsWith p (fun _ => True) t :=
  Or.inl ⟨(), h, trivial⟩

theorem ends_none {α : Type} {o : Bool} {p : Printed α} (h : o = false) :
    EndsWith (when_defined o p) (fun _ => True) [] := by
  subst h
  exact Or.inl ⟨none, rfl, trivial⟩

theorem ends_bind {α β : Type} {p : Printed α} {q : α → Printed β} {P : α → Prop} {Q : β → Prop} {t u : List Char}
    (h : EndsWith p P t) (h' : ∀ a, P a → EndsWith (q a) Q u) : EndsWith (p >>= q) Q (t ++ u) := by
  rcases h with ⟨a, rfl, ha⟩ | ⟨t', ht, rfl⟩
  · rcases h' a ha with ⟨b, hb, hQ⟩ | ⟨u', hu, hb⟩
    · exact Or.inl ⟨b, by rw [mk_ok_bind, hb], hQ⟩
    · exact Or.inr ⟨t ++ u', (List.prefix_append_right_inj t).mpr hu, by rw [mk_ok_bind, hb]⟩
  · exact Or.inr ⟨t', ht.trans (List.prefix_append t u), rfl⟩

theorem ends_text {α : Type} {p : Printed α} {P : α → Prop} {t u : List Char} (h : t = u) (e : EndsWith p P t) :
    EndsWith p P u := h ▸ e

theorem bench_ends (cfg : Cfg) (c : Ryu.Config) (F : Fmt) (parse : Bool → Nat → Int → Option Nat)
    (uniform_samples digits_samples iterations : Nat) (input : BenchmarkInput)
    (hp : CorrectParser F parse) (hg : ∀ i, input.general i < 2 ^ width F) (hi : 1 ≤ iterations)
    (hd : ∀ digits i, ∀ d ∈ (input.draws digits i).2, DrawOk F digits d) :
    EndsWith (benchmark_console cfg c F parse uniform_samples digits_samples iterations input)
      (BenchmarkFilesOk F uniform_samples digits_samples input.general input.written) (benchmarkText F input.functions) := by
  rcases C86_benchmark cfg c F parse uniform_samples digits_samples iterations input hp hg hi hd with h | ⟨files, h, hf⟩
  · refine Or.inr ⟨_, ?_, h⟩
    unfold benchmarkText
    rw [List.append_assoc (_ ++ _) _ _]
    exact List.prefix_append _ _
  · exact Or.inl ⟨files, h, hf⟩

/-- **C86**: with any selection of programs other than the check of the logarithms and the interactive test, the program
runs to its end, prints exactly the texts of those selected, in order, and writes their files; or the benchmark's generator
runs out of random numbers, and it has printed a part of that. -/
theorem C86_main (cfg : Cfg) (c : Ryu.Config) (fuel : Nat) (w : World) (o : Options) (hf : 64 ≤ fuel) (hw : w.Fine)
    (h0 : o.generate_cache = true → ∃ v, w.shl64 = .ok v)
    (h1 : o.verify_log_computation = false) (h2 : o.live_test_float = false) (h3 : o.live_test_double = false) :
    (∃ files, main_program cfg c fuel w o = ⟨mainText w o, .ok files⟩ ∧ FilesOk w o files) ∨
    ∃ t, t <+: mainText w o ∧ main_program cfg c fuel w o = ⟨t, .fault .loopFuel⟩ := by
  have e10 : EndsWith (when_defined o.misc_test (pure ())) (fun _ => True) [] := by
    cases o.misc_test
    · exact Or.inl ⟨none, rfl, trivial⟩
    · exact Or.inl ⟨some (), rfl, trivial⟩
  show EndsWith (main_program cfg c fuel w o) (FilesOk w o) (mainText w o)
  unfold main_program mainText
  exact ends_text (append_all _ _ _ _ _ _ _ _ _ _ _) <|
    ends_bind (ends_none h1) fun _ _ =>
    ends_bind (ends_when fun _ => ends_eq (cache_length_eq cfg fuel hf)) fun _ _ =>
    ends_bind (ends_when (o := o.generate_cache) (p := generate_cache_console cfg w.shl64)
      (P := fun p => p = (text binary32_generated_cache, text binary64_generated_cache)) (t := generateText) (by
        intro ho
        obtain ⟨v, hv⟩ := h0 ho
        rw [hv]
        exact Or.inl ⟨_, generate_eq cfg v, rfl⟩)) fun caches hcaches =>
    ends_bind (ends_when fun _ => ends_eq (delta_eq cfg)) fun _ _ =>
    ends_bind (ends_when fun _ => ends_eq (bound_eq cfg w.show_float)) fun _ _ =>
    ends_bind (ends_when fun _ => ends_eq (exceptions_eq cfg w.show_float)) fun _ _ =>
    ends_bind (ends_when fun _ => ends_eq (uniform_eq cfg c .b32 hw.uniform_float
      (show number_of_uniform_random_tests_float = 10000000 from rfl))) fun _ _ =>
    ends_bind (ends_when fun _ => ends_eq (uniform_eq cfg c .b64 hw.uniform_double
      (show number_of_uniform_random_tests_double = 10000000 from rfl))) fun _ _ =>
    ends_bind (ends_when fun _ => ends_eq (perf_eq cfg .b32 hw.perf_float
      number_of_uniform_random_perf_tests_float)) fun _ _ =>
    ends_bind (ends_when fun _ => ends_eq (perf_eq cfg .b64 hw.perf_double
      number_of_uniform_random_perf_tests_double)) fun _ _ =>
    ends_bind e10 fun _ _ =>
    ends_bind (ends_when fun _ => bench_ends cfg c .b32 (w.parse_decimal .b32) number_of_uniform_benchmark_samples_float
      number_of_digits_benchmark_samples_per_digits_float number_of_benchmark_iterations_float w.benchmark_float
      (hw.parser _) hw.general_float (by decide) hw.draws_float) fun float hfloat =>
    ends_bind (ends_when fun _ => bench_ends cfg c .b64 (w.parse_decimal .b64) number_of_uniform_benchmark_samples_double
      number_of_digits_benchmark_samples_per_digits_double number_of_benchmark_iterations_double w.benchmark_double
      (hw.parser _) hw.general_double (by decide) hw.draws_double) fun double hdouble =>
    ends_bind (ends_none (p := live_console cfg w .b32) h2) fun _ _ =>
    ends_bind (ends_none (p := live_console cfg w .b64) h3) fun _ _ =>
    (Or.inl ⟨_, rfl, hcaches, hfloat, hdouble⟩ : EndsWith (pure ⟨caches, float, double⟩) (FilesOk w o) [])

/-- The program as it is in the repository: the two benchmarks. -/
theorem C86_repository (cfg : Cfg) (c : Ryu.Config) (fuel : Nat) (w : World) (hf : 64 ≤ fuel) (hw : w.Fine) :
    (∃ float double, main_program cfg c fuel w .repository =
      ⟨benchmarkText .b32 w.benchmark_float.functions ++ benchmarkText .b64 w.benchmark_double.functions,
        .ok ⟨none, some float, some double⟩⟩ ∧
      BenchmarkFilesOk .b32 1000000 100000 w.benchmark_float.general w.benchmark_float.written float ∧
      BenchmarkFilesOk .b64 1000000 100000 w.benchmark_double.general w.benchmark_double.written double) ∨
    ∃ t, t <+: benchmarkText .b32 w.benchmark_float.functions ++ benchmarkText .b64 w.benchmark_double.functions ∧
      main_program cfg c fuel w .repository = ⟨t, .fault .loopFuel⟩ := by
  have h : mainText w .repository =
      benchmarkText .b32 w.benchmark_float.functions ++ benchmarkText .b64 w.benchmark_double.functions := by
    unfold mainText Options.repository selected
    simp only [if_true, if_false, Bool.false_eq_true, List.nil_append]
  rw [← h]
  rcases C86_main cfg c fuel w .repository hf hw (by rintro ⟨⟩) rfl rfl rfl with ⟨⟨f1, f2, f3⟩, e, h1, h2, h3⟩ | h
  · left
    cases f1 with
    | some => cases h1.1
    | none =>
      cases f2 with
      | none => cases h2
      | some float =>
        cases f3 with
        | none => cases h3
        | some double => exact ⟨float, double, e, h2.2, h3.2⟩
  · exact Or.inr h

theorem ok_bind {α β : Type} {p : Printed α} {a : α} {q : α → Printed β} {t u : List Char} {r : Exec β} (h : p = ⟨t, .ok a⟩)
    (h' : q a = ⟨u, r⟩) : (p >>= q) = ⟨t ++ u, r⟩ := by
  subst h
  rw [mk_ok_bind, h']

theorem when_bind {α β : Type} {o : Bool} {p : Printed α} {a : α} {q : Option α → Printed β} {t u : List Char} {r : Exec β}
    (h : o = true → p = ⟨t, .ok a⟩) (h' : ∀ a, q a = ⟨u, r⟩) : (when_defined o p >>= q) = ⟨selected o t ++ u, r⟩ := by
  cases o
  · exact ok_bind rfl (h' none)
  · exact ok_bind (a := some a) (by rw [h rfl]; exact mk_congr (List.append_nil t) rfl) (h' _)

theorem none_bind {α β : Type} {o : Bool} {p : Printed α} {q : Option α → Printed β} {u : List Char} {r : Exec β}
    (h : o = false) (h' : q none = ⟨u, r⟩) : (when_defined o p >>= q) = ⟨[] ++ u, r⟩ := by
  subst h
  exact ok_bind rfl h'

theorem fault_bind {α β : Type} {o : Bool} {p : Printed α} {q : Option α → Printed β} {u : List Char} {e : Fault}
    (h : o = true) (h' : p = ⟨u, .fault e⟩) : (when_defined o p >>= q) = ⟨u, .fault e⟩ := by
  subst h h'
  rfl

/-- The two benchmarks before something that does not end. -/
theorem bench_tail {α α' β : Type} {o o' : Bool} {p : Printed α} {p' : Printed α'} {P : α → Prop} {P' : α' → Prop}
    {t t' u : List Char} (h : EndsWith p P t) (h' : EndsWith p' P' t') :
    ∃ v, (∀ q : Option α → Option α' → Printed β, (∀ a b, q a b = ⟨u, .fault .loopFuel⟩) →
        (do
          let a ← when_defined o p
          let b ← when_defined o' p'
          q a b) = ⟨v, .fault .loopFuel⟩) ∧
      (v = selected o t ++ (selected o' t' ++ u) ∨ (o = true ∨ o' = true) ∧ v <+: selected o t ++ selected o' t') := by
  have second : ∃ v, (∀ q : Option α' → Printed β, (∀ b, q b = ⟨u, .fault .loopFuel⟩) →
      (when_defined o' p' >>= q) = ⟨v, .fault .loopFuel⟩) ∧
      (v = selected o' t' ++ u ∨ o' = true ∧ v <+: selected o' t') := by
    rcases h' with ⟨a, ha, -⟩ | ⟨t1, ht, ha⟩
    · exact ⟨_, fun q hq => when_bind (fun _ => ha) hq, Or.inl rfl⟩
    · cases o'
      · exact ⟨_, fun q hq => none_bind rfl (hq none), Or.inl rfl⟩
      · exact ⟨t1, fun q hq => fault_bind rfl ha, Or.inr ⟨rfl, ht⟩⟩
  obtain ⟨v, hv, hv'⟩ := second
  have first : ∀ v', v' = selected o t ++ v →
      (v' = selected o t ++ (selected o' t' ++ u) ∨ (o = true ∨ o' = true) ∧ v' <+: selected o t ++ selected o' t') := by
    rintro v' rfl
    rcases hv' with rfl | ⟨ho, hp⟩
    · exact Or.inl rfl
    · exact Or.inr ⟨Or.inr ho, (List.prefix_append_right_inj _).mpr hp⟩
  rcases h with ⟨a, ha, -⟩ | ⟨t1, ht, ha⟩
  · exact ⟨_, fun q hq => when_bind (fun _ => ha) fun a => hv _ (hq a), first _ rfl⟩
  · cases o
    · exact ⟨_, fun q hq => none_bind rfl (hv _ (hq none)), first _ rfl⟩
    · exact ⟨t1, fun q hq => fault_bind rfl ha, Or.inr ⟨Or.inl rfl, ht.trans (List.prefix_append _ _)⟩⟩

/-- **C86**: if the interactive test for `float` is selected, or the one for `double` alone, the program prints the texts
of the other programs selected and then replies to the lines typed, without end: the interactive test for `double` is
never reached after the one for `float`.  If a benchmark is selected too, its generator may run out of random numbers
before. -/
theorem C86_live (cfg : Cfg) (c : Ryu.Config) (fuel : Nat) (w : World) (o : Options) (hf : 64 ≤ fuel) (hw : w.Fine)
    (h0 : o.generate_cache = true → ∃ v, w.shl64 = .ok v) (h1 : o.verify_log_computation = false) (F : Fmt)
    (h4 : o.live_test_float = decide (F = .b32)) (h5 : F = .b64 → o.live_test_double = true)
    (typed : List (List Char)) (terminated : Bool) (hi : w.input = ⟨typed, terminated, true⟩)
    (hp : ∀ l x, w.parse_line F l = some x → x < 2 ^ width F) (hn : w.parse_line F [] = none) :
    (∃ replies : List (List Char), main_program cfg c fuel w o = ⟨mainText w o ++
        lines [match (generalizing := false) F with
          | .b32 => "[Start live test for float's]"
          | .b64 => "[Start live test for double's]"] ++ replies.flatten, .fault .loopFuel⟩ ∧
      List.Forall₂ (Reply F) (requests (w.parse_line F) typed w.requests) replies) ∨
    (o.benchmark_test_float = true ∨ o.benchmark_test_double = true) ∧
      ∃ t, t <+: mainText w o ∧ main_program cfg c fuel w o = ⟨t, .fault .loopFuel⟩ := by
  obtain ⟨replies, hl, hr⟩ := C79_dialogue cfg F (w.parse_line F) w.requests typed terminated hp hn
  have hlive : live_console cfg w F = ⟨lines [match (generalizing := false) F with
          | .b32 => "[Start live test for float's]"
          | .b64 => "[Start live test for double's]"] ++ replies.flatten, .fault .loopFuel⟩ := by
    have key : ∀ (x : Exec (List Char)) (t : List Char), x = .ok t → (do
        let out ← run x
        sayChars out
        run (.fault .loopFuel) : Printed Unit) = ⟨[] ++ (t ++ []), .fault .loopFuel⟩ := by
      intro x t hx
      subst hx
      rfl
    unfold live_console
    rw [hi, key _ _ hl]
    refine mk_congr ?_ rfl
    rw [List.nil_append, List.append_nil]
    refine congrArg (· ++ replies.flatten) ?_
    cases F <;> decide +kernel
  generalize lines [match (generalizing := false) F with
          | .b32 => "[Start live test for float's]"
          | .b64 => "[Start live test for double's]"] = start at hlive ⊢
  have e10 : ∀ {β : Type} {q : Option Unit → Printed β} {u : List Char} {r : Exec β}, (∀ a, q a = ⟨u, r⟩) →
      (when_defined o.misc_test (pure ()) >>= q) = ⟨[] ++ u, r⟩ := by
    intro β q u r h
    cases o.misc_test
    · exact ok_bind rfl (h none)
    · exact ok_bind rfl (h (some ()))
  have e13 : ∀ {β : Type} {q : Printed β}, (do
      let _ ← when_defined o.live_test_float (live_console cfg w .b32)
      let _ ← when_defined o.live_test_double (live_console cfg w .b64)
      q) = ⟨start ++ replies.flatten, .fault .loopFuel⟩ := by
    intro β q
    cases F with
    | b32 => exact fault_bind h4 hlive
    | b64 => exact (none_bind h4 (fault_bind (h5 rfl) hlive)).trans (mk_congr (List.nil_append _) rfl)
  -- the benchmarks and the interactive test
  obtain ⟨u, hu, hu'⟩ := bench_tail
    (bench_ends cfg c .b32 (w.parse_decimal .b32) number_of_uniform_benchmark_samples_float
      number_of_digits_benchmark_samples_per_digits_float number_of_benchmark_iterations_float w.benchmark_float
      (hw.parser _) hw.general_float (by decide) hw.draws_float)
    (bench_ends cfg c .b64 (w.parse_decimal .b64) number_of_uniform_benchmark_samples_double
      number_of_digits_benchmark_samples_per_digits_double number_of_benchmark_iterations_double w.benchmark_double
      (hw.parser _) hw.general_double (by decide) hw.draws_double)
    (o := o.benchmark_test_float) (o' := o.benchmark_test_double) (u := start ++ replies.flatten)
    (β := Files)
  have all : main_program cfg c fuel w o = ⟨[] ++ (selected o.verify_cache_length cacheLengthText ++
      (selected o.generate_cache generateText ++ (selected o.verify_delta_computation deltaText ++
      (selected o.verify_correct_rounding_bound (boundText w.show_float) ++
      (selected o.verify_incorrect_rounding_removal (exceptionsText w.show_float) ++
      (selected o.uniform_random_test_float (uniformText .b32 10000000) ++
      (selected o.uniform_random_test_double (uniformText .b64 10000000) ++
      (selected o.uniform_random_perf_test_float (perfText .b32) ++
      (selected o.uniform_random_perf_test_double (perfText .b64) ++ ([] ++ u)))))))))), .fault .loopFuel⟩ := by
    unfold main_program
    exact (none_bind (p := verify_log_computation cfg fuel) h1 <|
      when_bind (fun _ => cache_length_eq cfg fuel hf) fun _ =>
      when_bind (o := o.generate_cache) (p := generate_cache_console cfg w.shl64) (t := generateText)
        (a := (text binary32_generated_cache, text binary64_generated_cache)) (by
          intro ho
          obtain ⟨v, hv⟩ := h0 ho
          rw [hv]
          exact generate_eq cfg v) fun caches =>
      when_bind (fun _ => delta_eq cfg) fun _ =>
      when_bind (fun _ => bound_eq cfg w.show_float) fun _ =>
      when_bind (fun _ => exceptions_eq cfg w.show_float) fun _ =>
      when_bind (fun _ => uniform_eq cfg c .b32 hw.uniform_float
        (show number_of_uniform_random_tests_float = 10000000 from rfl)) fun _ =>
      when_bind (fun _ => uniform_eq cfg c .b64 hw.uniform_double
        (show number_of_uniform_random_tests_double = 10000000 from rfl)) fun _ =>
      when_bind (fun _ => perf_eq cfg .b32 hw.perf_float number_of_uniform_random_perf_tests_float) fun _ =>
      when_bind (fun _ => perf_eq cfg .b64 hw.perf_double number_of_uniform_random_perf_tests_double) fun _ =>
      e10 fun _ => hu _ fun float double => e13 (q := pure (⟨caches, float, double⟩ : Files)))
  rw [all]
  unfold mainText
  rcases hu' with rfl | ⟨hb, hu'⟩
  · left
    exact ⟨replies, mk_congr (append_live _ _ _ _ _ _ _ _ _ _ _ _ _) rfl, hr⟩
  · right
    refine ⟨hb, _, ?_, rfl⟩
    exact append_prefix _ _ _ _ _ _ _ _ _ hu'

-- a world in which the standard input has two lines
def sampleWorld : World where
  uniform_float := fun i => i % 2 ^ 32
  uniform_double := fun i => 2 ^ 63 + i % 2 ^ 32
  perf_float := fun i => 0x7F800000 + i % 2
  perf_double := fun _ => 1
  benchmark_float := ⟨fun i => i % 2 ^ 32, fun _ _ => (0, []), [.grisu_exact, .ryu], [.ryu, .grisu_exact]⟩
  benchmark_double := ⟨fun _ => 1, fun _ _ => (0, []), [.ryu], [.ryu]⟩
  show_float := fun _ x => Nat.toDigits 10 x
  parse_decimal := fun _ _ _ _ => none
  parse_line := fun F l => if F = .b32 ∧ l = "-1.5".toList then some 0xBFC00000 else none
  shl64 := .ok 0
  input := ⟨["abc".toList, "-1.5".toList], true, true⟩
  requests := 2

theorem sampleWorld_fine : sampleWorld.Fine where
  uniform_float := fun i => Nat.mod_lt i (by decide)
  uniform_double := fun i => by
    have := Nat.mod_lt i (show 0 < 2 ^ 32 by decide)
    show 2 ^ 63 + i % 2 ^ 32 < 2 ^ 64
    omega
  perf_float := fun i => by
    show 0x7F800000 + i % 2 < 2 ^ 32
    omega
  perf_double := fun _ => show 1 < 2 ^ 64 by decide
  parser := by rintro F neg s t b ⟨⟩
  general_float := fun i => Nat.mod_lt i (by decide)
  general_double := fun _ => show 1 < 2 ^ 64 by decide
  draws_float := by intro _ _ d h; cases h
  draws_double := by intro _ _ d h; cases h

-- the repository's program with it
example (cfg : Cfg) (c : Ryu.Config) := C86_repository cfg c 64 sampleWorld le_rfl sampleWorld_fine
-- 22 lines for two functions, in order
example : announcement .b32 Registered.ryu.name 0 ++ announcement .b32 Registered.ryu.name 9 =
    lines ["Benchmarking Ryu with uniformly random binary32's...",
      "Benchmarking Ryu with (approximately) uniformly random binary32's of 9 digits..."] := by decide +kernel
-- two programs selected
example : mainText sampleWorld ⟨false, false, true, false, false, false, true, false, false, false, true, false, false, false,
      false⟩ =
    lines ["[Generating cache...]", "Done.", "", "", "[Testing uniformly randomly generated float inputs...]",
      "Uniform random test for float with 10000000 examples succeeded.", "Done.", "", ""] := by decide +kernel
-- both interactive tests selected: only the first is seen
example (cfg : Cfg) (c : Ryu.Config) := C86_live cfg c 64 sampleWorld ⟨false, true, false, false, false, false, false, false,
  false, false, true, false, false, true, true⟩ le_rfl sampleWorld_fine (by rintro ⟨⟩) rfl .b32 rfl (by rintro ⟨⟩)
  ["abc".toList, "-1.5".toList] true rfl (by
    intro l x h
    simp only [sampleWorld] at h
    split at h
    · cases h; decide
    · cases h) (by decide)
-- with the check of the logarithms nothing else is seen
example (cfg : Cfg) (c : Ryu.Config) := C86_log_first cfg c 4096 sampleWorld ⟨true, true, true, true, true, true, true, true,
  true, true, true, true, true, true, true⟩ le_rfl rfl

end Grisu
