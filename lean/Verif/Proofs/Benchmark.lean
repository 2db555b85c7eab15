import Verif.Proofs.WriteCache
import Verif.Properties.Ryu
import Verif.Properties.RandomFloat
import Verif.Properties.Best
import Verif.Model.Benchmark
import Verif.SpecBenchmark

/-! # The benchmark -/

namespace Grisu
namespace Bench
open Spec

theorem fine {cfg : Cfg} {F : Fmt} {x : Nat} : FiniteNonzero F x → IsTruncating (isNeg F x) .nearest_to_even = false ∨
    ¬ (Spec.ZeroDivisibility F x ∧ (cfg.x64 = true ∨ cfg.ndebug = false)) := fun _ => Or.inl rfl

/-! ## Running -/

theorem call_ok (cfg : Cfg) (c : Ryu.Config) {F : Fmt} (f : Registered) {x : Nat} (hx : x < 2 ^ width F) {b : Buffer}
    (hb : maxText F + 1 ≤ b.length) : ∃ b', f.call cfg c F x b = .ok b' ∧ b'.length = b.length := by
  have key : ∀ crs, ∃ b', (fp_to_chars cfg F x b .nearest_to_even crs >>= fun r => Exec.ok r.1) = .ok b' ∧
      b'.length = b.length := by
    intro crs
    obtain ⟨text, hl, -, e, -⟩ := C34_no_nul cfg F x .nearest_to_even crs hx fine b hb
    rw [e]
    refine ⟨_, rfl, ?_⟩
    simp
    omega
  cases f with
  | grisu_exact => exact key .tie_to_even
  | grisu_exact_wo_correct_rounding => exact key .do_not_care
  | ryu =>
    have := C70_terminated c cfg F x b hx
    obtain ⟨b', h1, h2⟩ := key .tie_to_even
    refine ⟨b', ?_, h2⟩
    show ryu_buffered c F x b = _
    rw [← h1, ← this]
    cases F <;> rfl

theorem call_loop_ok (cfg : Cfg) (c : Ryu.Config) {F : Fmt} (f : Registered) {x : Nat} (hx : x < 2 ^ width F) (n : Nat) :
    ∀ b : Buffer, maxText F + 1 ≤ b.length → ∃ b', call_loop cfg c F f x n b = .ok b' ∧ b'.length = b.length := by
  induction n with
  | zero => intro b _; exact ⟨b, rfl, rfl⟩
  | succ n ih =>
    intro b hb
    obtain ⟨b1, h1, h2⟩ := call_ok cfg c f hx hb
    obtain ⟨b2, h3, h4⟩ := ih b1 (by omega)
    exact ⟨b2, by rw [call_loop, h1]; exact h3, by omega⟩

theorem sample_loop_ok (cfg : Cfg) (c : Ryu.Config) {F : Fmt} (n : Nat) (f : Registered) (xs : List Nat)
    (hx : ∀ x ∈ xs, x < 2 ^ width F) :
    ∀ b : Buffer, maxText F + 1 ≤ b.length → ∃ b', sample_loop cfg c F n f xs b = .ok b' ∧ b'.length = b.length := by
  induction xs with
  | nil => intro b _; exact ⟨b, rfl, rfl⟩
  | cons x xs ih =>
    intro b hb
    obtain ⟨b1, h1, h2⟩ := call_loop_ok cfg c f (hx x (List.mem_cons_self ..)) n b hb
    obtain ⟨b2, h3, h4⟩ := ih (fun y hy => hx y (List.mem_cons_of_mem _ hy)) b1 (by omega)
    exact ⟨b2, by rw [sample_loop, h1]; exact h3, by omega⟩

theorem digits_loop_run_ok (cfg : Cfg) (c : Ryu.Config) {F : Fmt} (n : Nat) (f : Registered) (samples : List (List Nat))
    (hx : ∀ xs ∈ samples, ∀ x ∈ xs, x < 2 ^ width F) :
    ∀ b : Buffer, maxText F + 1 ≤ b.length →
      ∃ b', digits_loop_run cfg c F n f samples b = .ok b' ∧ b'.length = b.length := by
  induction samples with
  | nil => intro b _; exact ⟨b, rfl, rfl⟩
  | cons xs samples ih =>
    intro b hb
    obtain ⟨b1, h1, h2⟩ := sample_loop_ok cfg c n f xs (hx xs (List.mem_cons_self ..)) b hb
    obtain ⟨b2, h3, h4⟩ := ih (fun y hy => hx y (List.mem_cons_of_mem _ hy)) b1 (by omega)
    exact ⟨b2, by rw [digits_loop_run, h1]; exact h3, by omega⟩

theorem function_loop_ok (cfg : Cfg) (c : Ryu.Config) {F : Fmt} (n : Nat) (samples : List (List Nat))
    (hx : ∀ xs ∈ samples, ∀ x ∈ xs, x < 2 ^ width F) (fs : List Registered) :
    ∀ b : Buffer, maxText F + 1 ≤ b.length →
      ∃ b', function_loop cfg c F n samples fs b = .ok b' ∧ b'.length = b.length := by
  induction fs with
  | nil => intro b _; exact ⟨b, rfl, rfl⟩
  | cons f fs ih =>
    intro b hb
    obtain ⟨b1, h1, h2⟩ := digits_loop_run_ok cfg c n f samples hx b hb
    obtain ⟨b2, h3, h4⟩ := ih b1 (by omega)
    exact ⟨b2, by rw [function_loop, h1]; exact h3, by omega⟩

theorem run_ok (cfg : Cfg) (c : Ryu.Config) {F : Fmt} {n : Nat} (hn : 1 ≤ n) (samples : List (List Nat))
    (hx : ∀ xs ∈ samples, ∀ x ∈ xs, x < 2 ^ width F) (fs : List Registered) :
    benchmark_run cfg c F n samples fs = .ok () := by
  obtain ⟨b, h, -⟩ := function_loop_ok cfg c n samples hx fs (List.replicate 40 none) (by cases F <;> simp [maxText])
  unfold benchmark_run cassert
  rw [h]
  simp [hn]

/-! ## Samples -/

/-- A number of a sample list for `digits`. -/
def Sample (F : Fmt) (digits x : Nat) : Prop :=
  (digits = 1 ∧ x = 0) ∨ (FiniteNonzero F x ∧ LeastDigits F x digits)

theorem digits_samples_spec (cfg : Cfg) {F : Fmt} {parse : Bool → Nat → Int → Option Nat} (hp : CorrectParser F parse)
    {digits : Nat} (h1 : 1 ≤ digits) (h2 : digits ≤ genDigits F) (draws : List (Int × List Draw))
    (hd : ∀ e ∈ draws, ∀ d ∈ e.2, DrawOk F digits d) :
    digits_samples cfg F parse digits draws = .fault .loopFuel ∨
    ∃ xs, digits_samples cfg F parse digits draws = .ok xs ∧ xs.length = draws.length ∧ ∀ x ∈ xs, Sample F digits x := by
  induction draws with
  | nil => exact Or.inr ⟨[], rfl, rfl, by simp⟩
  | cons e draws ih =>
    rw [digits_samples]
    rcases C59_given_digits cfg F parse digits e.1 e.2 hp h1 h2 (hd e (List.mem_cons_self ..)) with ⟨b, h3, h4⟩ | h3
    · rw [h3]
      rcases ih (fun e' he' => hd e' (List.mem_cons_of_mem _ he')) with h5 | ⟨xs, h5, h6, h7⟩
      · left
        simp only [Exec.ok_bind, h5]
        rfl
      · right
        refine ⟨b :: xs, by simp only [Exec.ok_bind, h5], by simp [h6], ?_⟩
        intro x hx
        rcases List.mem_cons.mp hx with rfl | hx
        · exact h4.imp id fun h => ⟨h.1, h.2.2⟩
        · exact h7 x hx
    · left
      rw [h3]
      rfl

theorem prepare_loop_spec (cfg : Cfg) {F : Fmt} {parse : Bool → Nat → Int → Option Nat} (hp : CorrectParser F parse)
    (draws : List (List (Int × List Draw))) : ∀ digits, 1 ≤ digits → digits + draws.length ≤ genDigits F + 1 →
    (∀ i l, draws[i]? = some l → ∀ e ∈ l, ∀ d ∈ e.2, DrawOk F (digits + i) d) →
    prepare_loop cfg F parse digits draws = .fault .loopFuel ∨
    ∃ samples, prepare_loop cfg F parse digits draws = .ok samples ∧
      samples.map List.length = draws.map List.length ∧
      ∀ i xs, samples[i]? = some xs → ∀ x ∈ xs, Sample F (digits + i) x := by
  induction draws with
  | nil => intro digits _ _ _; exact Or.inr ⟨[], rfl, rfl, by simp⟩
  | cons l draws ih =>
    intro digits h1 h2 hd
    simp only [List.length_cons] at h2
    rw [prepare_loop]
    rcases digits_samples_spec cfg hp h1 (by omega) l (by simpa using hd 0 l rfl) with h3 | ⟨xs, h3, h4, h5⟩
    · left
      rw [h3]
      rfl
    · rw [h3]
      rcases ih (digits + 1) (by omega) (by omega) (fun i l' hl' => by
        have := hd (i + 1) l' (by simpa using hl')
        rwa [show digits + (i + 1) = digits + 1 + i by omega] at this) with h6 | ⟨samples, h6, h7, h8⟩
      · left
        simp only [Exec.ok_bind, h6]
        rfl
      · right
        refine ⟨xs :: samples, by simp only [Exec.ok_bind, h6], by simp [h4, h7], ?_⟩
        intro i ys hi
        cases i with
        | zero =>
          simp only [List.getElem?_cons_zero, Option.some.injEq] at hi
          subst hi
          exact h5
        | succ i =>
          rw [show digits + (i + 1) = digits + 1 + i by omega]
          exact h8 i ys (by simpa using hi)

/-! ## Writing -/

theorem denotes {cfg : Cfg} {F : Fmt} {x : Nat} {text : List Char} (hx : x < 2 ^ width F)
    (hp : Prints cfg F x .nearest_to_even .tie_to_even text) : Denotes F x text :=
  ⟨fun h => by
      obtain ⟨r, h1, h2⟩ := C81_best cfg F false x .nearest_to_even .tie_to_even .assert_finite h rfl (Or.inl (by decide))
      have h3 := prints_unique hp (prints_finite h h1)
      exact ⟨_, _, (h2 _ _).mpr ⟨rfl, rfl⟩, h3, by rw [h3]; exact read_sci _ _ _⟩,
    fun h => prints_unique hp (C32_zero cfg F x _ _ hx h),
    fun h => prints_unique hp (C32_infinity cfg F x _ _ hx h),
    fun h => prints_unique hp (C32_nan cfg F x _ _ hx h)⟩

theorem print_step (cfg : Cfg) {F : Fmt} {x : Nat} (hx : x < 2 ^ width F) {b : Buffer} (hb : maxText F + 1 ≤ b.length) :
    ∃ text b' p, Prints cfg F x .nearest_to_even .tie_to_even text ∧
      fp_to_chars cfg F x b .nearest_to_even .tie_to_even = .ok (b', p) ∧ b'.length = b.length ∧
      string_view b' = .ok text := by
  obtain ⟨text, hp, hl, hn⟩ := prints_some cfg F x .nearest_to_even .tie_to_even hx fine
  refine ⟨text, _, _, hp, C34_terminated _ _ _ _ _ _ hp b (by omega), ?_, string_view_spec _ _ hn⟩
  simp
  omega

theorem hex_bits_eq {F : Fmt} {x : Nat} (hx : x < 2 ^ width F) : hex_bits F x = Gen.hexText x (width F / 4) := by
  cases F
  · exact (Gen.hexText_eq (k := 8) (by norm_num at *; exact hx) (by norm_num)).1
  · exact (Gen.hexText_eq (k := 16) (by norm_num at *; exact hx) (by norm_num)).1

theorem uniform_line {cfg : Cfg} {F : Fmt} {x : Nat} {text : List Char} (f : Registered) (hx : x < 2 ^ width F)
    (hp : Prints cfg F x .nearest_to_even .tie_to_even text) :
    UniformLine F f.name x
      ("\"".toList ++ f.name ++ "\",".toList ++ text ++ ",0x".toList ++ hex_bits F x ++ ",".toList) := by
  refine ⟨text, '0' :: 'x' :: hex_bits F x, ?_, denotes hx hp, ?_, ?_⟩
  · simp only [List.append_assoc]
    rfl
  · rw [Gen.read_0x, hex_bits_eq hx]
    have := Gen.read_hex (a := x) (k := width F / 4) (by cases F <;> norm_num [width] at * <;> exact hx) 0 []
    rw [List.append_nil] at this
    rw [this, hexConstants]
    simp
  · rw [hex_bits_eq hx]
    simp [Gen.length_hexText]

theorem uniform_lines_spec (cfg : Cfg) {F : Fmt} (f : Registered) (xs : List Nat) (hx : ∀ x ∈ xs, x < 2 ^ width F) :
    ∀ b : Buffer, maxText F + 1 ≤ b.length → ∃ lines b', uniform_lines cfg F f xs b = .ok (lines, b') ∧
      b'.length = b.length ∧ List.Forall₂ (UniformLine F f.name) xs lines := by
  induction xs with
  | nil => intro b _; exact ⟨[], b, rfl, rfl, .nil⟩
  | cons x xs ih =>
    intro b hb
    obtain ⟨text, b1, p, hp, h1, h2, h3⟩ := print_step cfg (hx x (List.mem_cons_self ..)) hb
    obtain ⟨lines, b2, h4, h5, h6⟩ := ih (fun y hy => hx y (List.mem_cons_of_mem _ hy)) b1 (by omega)
    refine ⟨_, b2, ?_, by omega, .cons (uniform_line f (hx x (List.mem_cons_self ..)) hp) h6⟩
    rw [uniform_lines, h1]
    simp only [Exec.ok_bind, h3, h4]

theorem uniform_file_spec (cfg : Cfg) {F : Fmt} (xs : List Nat) (hx : ∀ x ∈ xs, x < 2 ^ width F) (fs : List Registered) :
    ∀ b : Buffer, maxText F + 1 ≤ b.length → ∃ lines b', uniform_file cfg F xs fs b = .ok (lines, b') ∧
      b'.length = b.length ∧
      List.Forall₂ (fun (k : Registered × Nat) line => UniformLine F k.1.name k.2 line)
        (fs.flatMap fun f => xs.map fun x => (f, x)) lines := by
  induction fs with
  | nil => intro b _; exact ⟨[], b, rfl, rfl, .nil⟩
  | cons f fs ih =>
    intro b hb
    obtain ⟨l1, b1, h1, h2, h3⟩ := uniform_lines_spec cfg f xs hx b hb
    obtain ⟨l2, b2, h4, h5, h6⟩ := ih b1 (by omega)
    refine ⟨l1 ++ l2, b2, ?_, by omega, ?_⟩
    · rw [uniform_file, h1]
      simp only [Exec.ok_bind, h4]
    · rw [List.flatMap_cons]
      refine List.rel_append ?_ h6
      rw [List.forall₂_map_left_iff]
      exact h3

theorem digits_of_sci (neg : Bool) (s : Nat) (t : Int) (hs : 0 < s) : significantDigits (sci neg s t) = numDigits s := by
  have hd := toDigits_digits s
  rw [← length_toDigits_numDigits hs]
  unfold significantDigits sci
  simp only
  generalize Nat.toDigits 10 s = ds at *
  generalize (if t + (ds.length : Int) - 1 < 0 then ['-'] else []) ++ Nat.toDigits 10 (t + (ds.length : Int) - 1).natAbs = es
  have h1 : ((if neg then ['-'] else []) ++ (ds.take 1 ++ (if ds.length > 1 then '.' :: ds.drop 1 else []) ++ 'E' :: es)) =
      ((if neg then ['-'] else []) ++ (ds.take 1 ++ (if ds.length > 1 then '.' :: ds.drop 1 else []))) ++ 'E' :: es := by
    simp
  rw [h1]
  have hne : ∀ ch ∈ ds, ch ≠ 'E' := by
    rintro ch hch rfl
    exact absurd (hd _ hch) (by decide)
  have h2 : ∀ ch ∈ (if neg then ['-'] else []) ++ (ds.take 1 ++ (if ds.length > 1 then '.' :: ds.drop 1 else [])),
      decide (ch ≠ 'E') = true := by
    intro ch hch
    rw [decide_eq_true_eq]
    rcases List.mem_append.mp hch with h | h
    · cases neg
      · simp at h
      · rw [show ch = '-' by simpa using h]; decide
    · rcases List.mem_append.mp h with h | h
      · exact hne ch (List.mem_of_mem_take h)
      · split at h
        · rcases List.mem_cons.mp h with h | h
          · rw [h]; decide
          · exact hne ch (List.mem_of_mem_drop h)
        · simp at h
  rw [List.takeWhile_append_of_pos h2, List.takeWhile_cons_of_neg (by decide), List.append_nil, List.filter_append,
    List.filter_append]
  have f1 : (if neg then ['-'] else []).filter Char.isDigit = [] := by cases neg <;> rfl
  have f2 : (ds.take 1).filter Char.isDigit = ds.take 1 :=
    List.filter_eq_self.mpr fun ch hch => hd ch (List.mem_of_mem_take hch)
  have f3 : (if ds.length > 1 then '.' :: ds.drop 1 else []).filter Char.isDigit = ds.drop 1 := by
    split
    · rw [List.filter_cons_of_neg (by decide)]
      exact List.filter_eq_self.mpr fun ch hch => hd ch (List.mem_of_mem_drop hch)
    · rw [List.drop_eq_nil_of_le (by omega)]
      rfl
  rw [f1, f2, f3, List.nil_append, List.take_append_drop]

theorem sample_lt {F : Fmt} {d x : Nat} (h : Sample F d x) : x < 2 ^ width F := by
  rcases h with ⟨-, rfl⟩ | ⟨h, -⟩
  · positivity
  · exact h.inRange

theorem sample_digits {cfg : Cfg} {F : Fmt} {d x : Nat} {text : List Char} (h : Sample F d x)
    (hp : Prints cfg F x .nearest_to_even .tie_to_even text) : significantDigits text = d := by
  rcases h with ⟨rfl, rfl⟩ | ⟨h, hl⟩
  · have := prints_unique hp (C32_zero cfg F 0 _ _ (by positivity) (by cases F <;> rfl))
    rw [this]
    cases F <;> decide
  · obtain ⟨r, hr, rfl⟩ := prints_inv h hp
    obtain ⟨r1, e1, m1⟩ := C02_roundtrip_nearest cfg F false x .nearest_to_even .tie_to_even .assert_finite h rfl
    obtain ⟨r2, e2, m2⟩ := C03_shortest_nearest cfg F false x .nearest_to_even .tie_to_even .assert_finite h rfl
    rw [hr] at e1 e2
    cases e1
    cases e2
    rw [digits_of_sci _ _ _ (printable h hr).1.pos]
    obtain ⟨⟨s, t, q1, q2⟩, q3⟩ := hl
    exact le_antisymm (q1 ▸ m2 s t q2) (q3 _ _ m1)

theorem digits_lines_spec (cfg : Cfg) {F : Fmt} (f : Registered) {d : Nat} (xs : List Nat) (hx : ∀ x ∈ xs, Sample F d x) :
    ∀ b : Buffer, maxText F + 1 ≤ b.length → ∃ lines b', digits_lines cfg F f d xs b = .ok (lines, b') ∧
      b'.length = b.length ∧ List.Forall₂ (DigitsLine F f.name d) xs lines := by
  induction xs with
  | nil => intro b _; exact ⟨[], b, rfl, rfl, .nil⟩
  | cons x xs ih =>
    intro b hb
    have hs := hx x (List.mem_cons_self ..)
    obtain ⟨text, b1, p, hp, h1, h2, h3⟩ := print_step cfg (sample_lt hs) hb
    obtain ⟨lines, b2, h4, h5, h6⟩ := ih (fun y hy => hx y (List.mem_cons_of_mem _ hy)) b1 (by omega)
    refine ⟨_, b2, ?_, by omega, .cons ⟨text, rfl, denotes (sample_lt hs) hp, sample_digits hs hp⟩ h6⟩
    rw [digits_lines, h1]
    simp only [Exec.ok_bind, h3, h4]

theorem digits_loop_file_spec (cfg : Cfg) {F : Fmt} (f : Registered) (samples : List (List Nat)) :
    ∀ d, (∀ i xs, samples[i]? = some xs → ∀ x ∈ xs, Sample F (d + i) x) →
    ∀ b : Buffer, maxText F + 1 ≤ b.length → ∃ lines b', digits_loop_file cfg F f d samples b = .ok (lines, b') ∧
      b'.length = b.length ∧ List.Forall₂ (fun (k : Nat × Nat) line => DigitsLine F f.name k.1 k.2 line)
        ((samples.zipIdx d).flatMap fun p => p.1.map fun x => (p.2, x)) lines := by
  induction samples with
  | nil => intro d _ b _; exact ⟨[], b, rfl, rfl, .nil⟩
  | cons xs samples ih =>
    intro d hx b hb
    obtain ⟨l1, b1, h1, h2, h3⟩ := digits_lines_spec cfg f xs (by simpa using hx 0 xs rfl) b hb
    obtain ⟨l2, b2, h4, h5, h6⟩ := ih (d + 1) (fun i ys hi => by
      have := hx (i + 1) ys (by simpa using hi)
      rwa [show d + (i + 1) = d + 1 + i by omega] at this) b1 (by omega)
    refine ⟨l1 ++ l2, b2, ?_, by omega, ?_⟩
    · rw [digits_loop_file, h1]
      simp only [Exec.ok_bind, h4]
    · rw [List.zipIdx_cons, List.flatMap_cons]
      refine List.rel_append ?_ h6
      rw [List.forall₂_map_left_iff]
      exact h3

theorem digits_file_spec (cfg : Cfg) {F : Fmt} (samples : List (List Nat))
    (hx : ∀ i xs, samples[i]? = some xs → ∀ x ∈ xs, Sample F (1 + i) x) (fs : List Registered) :
    ∀ b : Buffer, maxText F + 1 ≤ b.length → ∃ lines b', digits_file cfg F samples fs b = .ok (lines, b') ∧
      b'.length = b.length ∧ List.Forall₂ (fun (k : Registered × Nat × Nat) line => DigitsLine F k.1.name k.2.1 k.2.2 line)
        (fs.flatMap fun f => (samples.zipIdx 1).flatMap fun p => p.1.map fun x => (f, p.2, x)) lines := by
  induction fs with
  | nil => intro b _; exact ⟨[], b, rfl, rfl, .nil⟩
  | cons f fs ih =>
    intro b hb
    obtain ⟨l1, b1, h1, h2, h3⟩ := digits_loop_file_spec cfg f samples 1 hx b hb
    obtain ⟨l2, b2, h4, h5, h6⟩ := ih b1 (by omega)
    refine ⟨l1 ++ l2, b2, ?_, by omega, ?_⟩
    · rw [digits_file, h1]
      simp only [Exec.ok_bind, h4]
    · rw [List.flatMap_cons]
      refine List.rel_append ?_ h6
      have e : ((samples.zipIdx 1).flatMap fun p => p.1.map fun x => (f, p.2, x)) =
          ((samples.zipIdx 1).flatMap fun p => p.1.map fun x => (p.2, x)).map fun k => (f, k) := by
        rw [List.map_flatMap]
        simp only [List.map_map]
        rfl
      rw [e, List.forall₂_map_left_iff]
      exact h3

end Bench
end Grisu
