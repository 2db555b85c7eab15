import Verif.Proofs.Console

/-!
# What the test programs write to the console

Property C85.  A program is described by the text it has written and by how it ended, `Printed.out` and `Printed.result`.
`show_float F x` stands for what the standard library prints for the number with the bit pattern `x`.
-/

namespace Grisu
open Printed
open Spec (width)

/-- The text consisting of the lines `ls`. -/
def lines (ls : List String) : List Char := ls.flatMap fun l => l.toList ++ ['\n']

theorem printed_ext {α : Type} {x : Printed α} {o : List Char} {r : Exec α} (h1 : x.out = o) (h2 : x.result = r) :
    x = ⟨o, r⟩ := by
  obtain ⟨_, _⟩ := x
  cases h1
  cases h2
  rfl

theorem two_parts {x y : Printed Bool} {o1 o2 : List Char} (hx : x = ⟨o1, .ok true⟩) (hy : y = ⟨o2, .ok true⟩)
    (t v32 f32 v64 f64 d : String) : (do
      say t
      let ok ← x
      if ok then say v32 else say f32
      let ok ← y
      if ok then say v64 else say f64
      say d : Printed Unit) =
    ⟨t.toList ++ (o1 ++ (v32.toList ++ (o2 ++ (v64.toList ++ d.toList)))), .ok ()⟩ := by
  subst hx hy
  rfl

/-! ## C85 -/

/-- **C85**: the program that checks the interval lengths reports that both formats are verified, and nothing else. -/
theorem C85_delta (cfg : Cfg) : verify_delta_computation cfg = ⟨lines [
    "[Verifying delta computation...]",
    "delta computation for binary32: verified.",
    "delta computation for binary64: verified.",
    "Done.", "", ""], .ok ()⟩ := by
  refine (two_parts (delta_loop_console_eq cfg .b32 _ _ _ le_rfl (by decide))
    (delta_loop_console_eq cfg .b64 _ _ _ le_rfl (by decide)) _ _ _ _ _ _).trans ?_
  exact printed_ext (by decide +kernel) rfl

/-- A line of the program that checks the number of steps of the search. -/
def roundingText (np e : String) (x : List Char) (hex : String) : List Char :=
  "n' = ".toList ++ np.toList ++ " (e = ".toList ++ e.toList ++ ", x = ".toList ++ x ++ " [0x".toList ++ hex.toList ++
    "])\n".toList

theorem rounding_line_out {show_float : Fmt → Nat → List Char} {F : Fmt} {np e : Int} {x : Nat} {np' e' hex : String}
    (h1 : decimal_int np = np'.toList) (h2 : decimal_int e = e'.toList) (h3 : hex_significand F x = hex.toList) :
    (rounding_line show_float F ⟨np, e, x⟩).out = roundingText np' e' (show_float F x) hex := by
  unfold roundingText
  rw [← h1, ← h2, ← h3]
  simp only [List.append_assoc]
  rfl

/-- **C85**: the program that checks the number of steps of the search verifies both formats; it shows the four powers of
two (`double`) for which five steps are taken. -/
theorem C85_rounding_bound (cfg : Cfg) (show_float : Fmt → Nat → List Char) :
    verify_correct_rounding_bound cfg show_float = ⟨lines [
      "[Verifying correct rounding bound...]",
      "correct rounding bound computation for binary32: verified."] ++
      roundingText "5" "-798" (show_float .b64 (288 * 2 ^ 52)) "1200000000000000" ++
      roundingText "5" "-592" (show_float .b64 (494 * 2 ^ 52)) "1ee0000000000000" ++
      roundingText "5" "-406" (show_float .b64 (680 * 2 ^ 52)) "2a80000000000000" ++
      roundingText "5" "152" (show_float .b64 (1238 * 2 ^ 52)) "4d60000000000000" ++ lines [
      "correct rounding bound computation for binary64: verified.",
      "Done.", "", ""], .ok ()⟩ := by
  have h32 := rounding_loop_console_eq cfg show_float .b32 _ 1 le_rfl (show 1 + (2 ^ 8 - 2) ≤ 2 ^ 8 - 1 by decide)
  have h64 := rounding_loop_console_eq cfg show_float .b64 _ 1 le_rfl (show 1 + (2 ^ 11 - 2) ≤ 2 ^ 11 - 1 by decide)
  rw [show 2 ^ 8 - 2 = 2 ^ Fmt.b32.exponent_bits - 2 from rfl, rounding_lines] at h32
  rw [show 2 ^ 11 - 2 = 2 ^ Fmt.b64.exponent_bits - 2 from rfl, rounding_lines] at h64
  refine (two_parts h32 h64 _ _ _ _ _ _).trans ?_
  dsimp only
  rw [List.flatMap_cons, List.flatMap_cons, List.flatMap_cons, List.flatMap_cons, List.flatMap_nil, List.flatMap_nil,
    rounding_line_out (np' := "5") (e' := "-798") (hex := "1200000000000000") (by decide +kernel) (by decide +kernel) (by decide +kernel),
    rounding_line_out (np' := "5") (e' := "-592") (hex := "1ee0000000000000") (by decide +kernel) (by decide +kernel) (by decide +kernel),
    rounding_line_out (np' := "5") (e' := "-406") (hex := "2a80000000000000") (by decide +kernel) (by decide +kernel) (by decide +kernel),
    rounding_line_out (np' := "5") (e' := "152") (hex := "4d60000000000000") (by decide +kernel) (by decide +kernel) (by decide +kernel)]
  generalize roundingText "5" "-798" _ _ = r1
  generalize roundingText "5" "-592" _ _ = r2
  generalize roundingText "5" "-406" _ _ = r3
  generalize roundingText "5" "152" _ _ = r4
  refine printed_ext ?_ rfl
  have l1 : "[Verifying correct rounding bound...]\n".toList ++
      "correct rounding bound computation for binary32: verified.\n".toList = lines [
      "[Verifying correct rounding bound...]", "correct rounding bound computation for binary32: verified."] := by
    decide +kernel
  have l2 : "correct rounding bound computation for binary64: verified.\n".toList ++ "Done.\n\n\n".toList = lines [
      "correct rounding bound computation for binary64: verified.", "Done.", "", ""] := by decide +kernel
  rw [← l1, ← l2]
  generalize "[Verifying correct rounding bound...]\n".toList = a0
  generalize "correct rounding bound computation for binary32: verified.\n".toList = a1
  generalize "correct rounding bound computation for binary64: verified.\n".toList = a2
  generalize "Done.\n\n\n".toList = a3
  simp only [List.append_assoc, List.append_nil, List.nil_append]

/-- A line of the program that checks the removal of wrong digits. -/
def removalText (x : List Char) (hex e relation : String) : List Char :=
  "Coincidence of integer parts detected (x = ".toList ++ x ++ " [0x".toList ++ hex.toList ++ "], e = ".toList ++
    e.toList ++ "): ".toList ++ relation.toList

theorem removal_line_out {show_float : Fmt → Nat → List Char} {F : Fmt} {e : Int} {x : Nat} {o : Ordering}
    {hex e' rel : String} (h1 : hex_significand F x = hex.toList) (h2 : decimal_int e = e'.toList)
    (h3 : (match o with | .lt => "z^(f) < delta^(f)\n" | .eq => "z^(f) == delta^(f)\n" | .gt => "z^(f) > delta^(f)\n") = rel) :
    (removal_line show_float F ⟨x, e, o⟩).out = removalText (show_float F x) hex e' rel := by
  unfold removalText
  rw [← h1, ← h2, ← h3]
  simp only [List.append_assoc]
  cases o <;> rfl

/-- **C85**: the program that checks the removal of wrong digits verifies both formats; it shows two powers of two for
each, of which the second is the one the code treats separately. -/
theorem C85_removal (cfg : Cfg) (show_float : Fmt → Nat → List Char) :
    verify_incorrect_rounding_removal cfg show_float = ⟨lines [
      "[Verifying incorrect rounding removal...]"] ++
      removalText (show_float .b32 (98 * 2 ^ 23)) "31000000" "-60" "z^(f) < delta^(f)\n" ++
      removalText (show_float .b32 (217 * 2 ^ 23)) "6c800000" "59" "z^(f) > delta^(f)\n" ++ lines [
      "Incorrect rounding removal for binary32: verified."] ++
      removalText (show_float .b64 (431 * 2 ^ 52)) "1af0000000000000" "-655" "z^(f) < delta^(f)\n" ++
      removalText (show_float .b64 (883 * 2 ^ 52)) "3730000000000000" "-203" "z^(f) > delta^(f)\n" ++ lines [
      "Incorrect rounding removal for binary64: verified.",
      "Done.", "", ""], .ok ()⟩ := by
  have h32 := removal_loop_console_eq cfg show_float .b32 _ 1 le_rfl (show 1 + (2 ^ 8 - 2) ≤ 2 ^ 8 - 1 by decide)
  have h64 := removal_loop_console_eq cfg show_float .b64 _ 1 le_rfl (show 1 + (2 ^ 11 - 2) ≤ 2 ^ 11 - 1 by decide)
  rw [show 2 ^ 8 - 2 = 2 ^ Fmt.b32.exponent_bits - 2 from rfl, removal_lines] at h32
  rw [show 2 ^ 11 - 2 = 2 ^ Fmt.b64.exponent_bits - 2 from rfl, removal_lines] at h64
  refine (two_parts h32 h64 _ _ _ _ _ _).trans ?_
  dsimp only
  rw [List.flatMap_cons, List.flatMap_cons, List.flatMap_nil, List.flatMap_cons, List.flatMap_cons, List.flatMap_nil,
    removal_line_out (e' := "-60") (hex := "31000000") (by decide +kernel) (by decide +kernel) rfl,
    removal_line_out (e' := "59") (hex := "6c800000") (by decide +kernel) (by decide +kernel) rfl,
    removal_line_out (e' := "-655") (hex := "1af0000000000000") (by decide +kernel) (by decide +kernel) rfl,
    removal_line_out (e' := "-203") (hex := "3730000000000000") (by decide +kernel) (by decide +kernel) rfl]
  dsimp only
  generalize removalText _ "31000000" _ _ = r1
  generalize removalText _ "6c800000" _ _ = r2
  generalize removalText _ "1af0000000000000" _ _ = r3
  generalize removalText _ "3730000000000000" _ _ = r4
  refine printed_ext ?_ rfl
  have l0 : "[Verifying incorrect rounding removal...]\n".toList = lines ["[Verifying incorrect rounding removal...]"] := by
    decide +kernel
  have l1 : "Incorrect rounding removal for binary32: verified.\n".toList =
      lines ["Incorrect rounding removal for binary32: verified."] := by decide +kernel
  have l2 : "Incorrect rounding removal for binary64: verified.\n".toList ++ "Done.\n\n\n".toList = lines [
      "Incorrect rounding removal for binary64: verified.", "Done.", "", ""] := by decide +kernel
  rw [← l0, ← l1, ← l2]
  generalize "[Verifying incorrect rounding removal...]\n".toList = a0
  generalize "Incorrect rounding removal for binary32: verified.\n".toList = a1
  generalize "Incorrect rounding removal for binary64: verified.\n".toList = a2
  generalize "Done.\n\n\n".toList = a3
  simp only [List.append_assoc, List.append_nil]

/-- What the program that checks the logarithms prints before it stops. -/
def logLines : List String := [
  "[Verifying log computation...]",
  "floor_log10_pow2: overflow detected [e = 289]",
  "floor_log10_pow2: overflow detected [e = 485]",
  "floor_log10_pow2: overflow detected [e = 970]",
  "floor_log10_pow2: overflow detected [e = 1455]",
  "floor_log10_pow2: overflow detected [e = 1651]",
  "floor_log10_pow2: mismatch! [e = 1651, true_value = 497, computed = 496]",
  "floor_log10_pow2: mismatch! [e = -1651, true_value = -498, computed = -497]",
  "floor_log10_pow2: overflow detected [e = 2136]",
  "floor_log10_pow2: mismatch! [e = 2136, true_value = 643, computed = 642]",
  "floor_log10_pow2: mismatch! [e = -2136, true_value = -644, computed = -643]",
  "floor_log10_pow2: overflow detected [e = 2621]",
  "floor_log10_pow2: overflow detected [e = 2817]",
  "floor_log10_pow2: mismatch! [e = 2817, true_value = 848, computed = 847]",
  "floor_log10_pow2: mismatch! [e = -2817, true_value = -849, computed = -848]",
  "floor_log10_pow2: overflow detected [e = 3302]",
  "floor_log10_pow2: mismatch! [e = 3302, true_value = 994, computed = 993]",
  "floor_log10_pow2: mismatch! [e = -3302, true_value = -995, computed = -994]",
  "floor_log10_pow2: overflow detected [e = 3787]",
  "floor_log10_pow2: mismatch! [e = 3787, true_value = 1140, computed = 1139]",
  "floor_log10_pow2: mismatch! [e = -3787, true_value = -1141, computed = -1140]",
  "floor_log10_pow2: overflow detected [e = 3983]",
  "floor_log10_pow2: mismatch! [e = 3983, true_value = 1199, computed = 1198]",
  "floor_log10_pow2: mismatch! [e = -3983, true_value = -1200, computed = -1199]",
  "floor_log10_pow2 is valid up to |e| <= 1650.",
  ""]

/-- What the tool prints at an exponent where it divides, with the products as integers. -/
def log10_closed (e : Nat) : List Char :=
  "floor_log10_pow2".toList ++ (": overflow detected [e = ".toList ++ (decimal_nat e ++ ("]\n".toList ++
    ((log_compare "floor_log10_pow2" (fun v => .ok (v * 0x4d104 / 0x100000)) e (log10_true e)).out ++
    (log_compare "floor_log10_pow2" (fun v => .ok (v * 0x4d104 / 0x100000)) (-(e : Int)) (-log10_true e - 1)).out))))

theorem log10_out_eq {e : Nat} (he : e ≤ 4096) : (log10_printed e).out = log10_closed e := by
  unfold log10_closed
  have e1 : log_compare "floor_log10_pow2" floor_log10_pow2_raw e (log10_true e) =
      log_compare "floor_log10_pow2" (fun v => .ok (v * 0x4d104 / 0x100000)) e (log10_true e) := by
    unfold log_compare
    rw [log10_raw_eq (by omega) (by omega)]
    norm_num
  have e2 : log_compare "floor_log10_pow2" floor_log10_pow2_raw (-(e : Int)) (-log10_true e - 1) =
      log_compare "floor_log10_pow2" (fun v => .ok (v * 0x4d104 / 0x100000)) (-(e : Int)) (-log10_true e - 1) := by
    unfold log_compare
    rw [log10_raw_eq (by omega) (by omega)]
    norm_num
  unfold log10_printed
  rw [e1, e2]
  have r1 := log_compare_result (name := "floor_log10_pow2") (t := log10_true e) (e := e)
    (f := fun v => .ok (v * 0x4d104 / 0x100000)) rfl
  have r2 := log_compare_result (name := "floor_log10_pow2") (t := -log10_true e - 1) (e := -(e : Int))
    (f := fun v => .ok (v * 0x4d104 / 0x100000)) rfl
  generalize log_compare "floor_log10_pow2" _ (-(e : Int)) _ = x2 at *
  generalize log_compare "floor_log10_pow2" _ (e : Int) _ = x1 at *
  rw [eq_mk r1, eq_mk r2]
  simp only [say_bind, sayChars_bind, mk_ok_bind, pure_eq, List.append_nil]

theorem log10_closed_all (l : List Nat) : (∀ e ∈ l, e ≤ 4096) →
    (l.flatMap fun e => (log10_printed e).out) = l.flatMap log10_closed := by
  induction l with
  | nil => exact fun _ => by rw [List.flatMap_nil, List.flatMap_nil]
  | cons a l ih =>
    intro h
    rw [List.flatMap_cons, List.flatMap_cons, ih fun e he => h e (List.mem_cons_of_mem _ he),
      log10_out_eq (h a (List.mem_cons_self ..))]

theorem mk_congr {α : Type} {o o' : List Char} {r r' : Exec α} (h : o = o') (h' : r = r') :
    Printed.mk o r = Printed.mk o' r' := by
  rw [h, h']

theorem log10_lines (cfg : Cfg) {fuel : Nat} (hf : 4096 ≤ fuel) :
    log_loop_console (log10_pow2_console cfg fuel) 4096 1 true 0 = ⟨log10_checked.flatMap log10_closed, .ok 1650⟩ := by
  rw [log_loop_console_eq (text := log10_text) (ok := log10_ok) 4096 1 true 0
    fun i _ h => log10_pow2_console_text cfg hf (by omega)]
  refine mk_congr ?_ ?_
  · unfold log10_text
    rw [flatMap_if, log10_filter]
    exact log10_closed_all _ log10_checked_le
  · have := C65_log10_pow2 ⟨true, true⟩ 4096 le_rfl
    unfold verify_log10_pow2 at this
    rw [← this, verify_log_loop_first (ok := log10_ok) 4096 1 0 1650 (fun i h1 h2 => rfl) (by omega) (fun i h1 h2 => ?_)
      (by decide +kernel), verify_log_loop_first (ok := log10_ok) 4096 1 0 1650
      (fun i h1 h2 => log10_pow2_step_eq ⟨true, true⟩ le_rfl (by omega)) (by omega) (fun i h1 h2 => ?_) (by decide +kernel)]
    all_goals
      unfold log10_ok
      rw [decide_eq_true (show i < 1651 ∨ i = 2621 by omega)]
      simp

theorem log_part_ok {name : String} {step : Nat → Printed Bool} {count m : Nat} {o : List Char}
    (h : log_loop_console step count 1 true 0 = ⟨o, .ok m⟩) :
    log_part name step count =
      ⟨o ++ (name.toList ++ (" is valid up to |e| <= ".toList ++ (decimal_nat m ++ ".\n\n".toList))), .ok ()⟩ := by
  unfold log_part
  rw [h]
  rfl

theorem log_part_fault {name : String} {step : Nat → Printed Bool} {count : Nat} {o : List Char} {f : Fault}
    (h : log_loop_console step count 1 true 0 = ⟨o, .fault f⟩) : log_part name step count = ⟨o, .fault f⟩ := by
  unfold log_part
  rw [h]
  rfl

theorem stops_at_second {x y z : Printed Unit} {o : List Char} {f : Fault} (hx : x = ⟨o, .ok ()⟩)
    (hy : y = ⟨[], .fault f⟩) (t d : String) : (do
      say t
      x
      y
      z
      say d : Printed Unit) = ⟨t.toList ++ o, .fault f⟩ := by
  subst hx hy
  show Printed.mk (t.toList ++ (o ++ [])) (.fault f) = _
  rw [List.append_nil]

/-- **C85**: the program that checks the logarithms prints what it finds for base 10, and then overflows a 32-bit integer
before it prints anything else. -/
theorem C85_log (cfg : Cfg) (fuel : Nat) (hf : 4096 ≤ fuel) :
    verify_log_computation cfg fuel = ⟨lines logLines, .fault .signedOverflow⟩ := by
  unfold verify_log_computation
  have h1 := log_part_ok (name := "floor_log10_pow2") (log10_lines cfg hf)
  have h2 := log_part_fault (name := "floor_log2_pow10") (log_loop_console_fault
    (step := log2_pow10_console cfg) 616 1 1024 0 (by decide)
    (fun _ _ h => log2_pow10_console_true cfg (by omega)) (log2_pow10_console_fault cfg))
  rw [stops_at_second h1 h2]
  refine mk_congr ?_ rfl
  decide +kernel

theorem four_parts {x1 x2 x3 x4 : Exec (List (Int × Nat) × Nat)} {l1 l2 l3 l4 : List (Int × Nat)} {m1 m2 m3 m4 : Nat}
    (h1 : x1 = .ok (l1, m1)) (h2 : x2 = .ok (l2, m2)) (h3 : x3 = .ok (l3, m3)) (h4 : x4 = .ok (l4, m4))
    (t t1 t2 t3 t4 d d' : String) : (do
      say t
      cache_length_part t1 x1
      cache_length_part t2 x2
      cache_length_part t3 x3
      cache_length_part t4 x4
      say d
      say d' : Printed Unit) =
    (do
      say t
      cache_length_part t1 (.ok ([], m1))
      cache_length_part t2 (.ok ([], m2))
      cache_length_part t3 (.ok ([], m3))
      cache_length_part t4 (.ok ([], m4))
      say d
      say d' : Printed Unit) := by
  subst h1 h2 h3 h4
  rfl

/-- **C85**: the program that computes the lengths of the cache entries prints the four maxima. -/
theorem C85_cache_length (cfg : Cfg) (fuel : Nat) (hf : 64 ≤ fuel) : verify_cache_length cfg fuel = ⟨lines [
    "[Verifying cache length upper bound...]",
    "", "Verify for IEEE-754 binary32 (float) type for negative k...", "Maximum required bits: 57",
    "", "Verify for IEEE-754 binary32 (float) type for positive k...", "Maximum required bits: 61",
    "", "Verify for IEEE-754 binary64 (double) type for negative k...", "Maximum required bits: 125",
    "", "Verify for IEEE-754 binary64 (double) type for positive k...", "Maximum required bits: 125",
    "", "Done.", "", ""], .ok ()⟩ := by
  refine (four_parts (C75_negative_k_files cfg fuel hf).1 (C75_positive_k_files cfg fuel hf).1
    (C75_negative_k_files cfg fuel hf).2 (C75_positive_k_files cfg fuel hf).2 _ _ _ _ _ _ _).trans ?_
  exact printed_ext (by decide +kernel) rfl

/-- **C85**: whatever numbers are drawn, the uniform random test reports their count and success, and no error. -/
theorem C85_uniform (cfg : Cfg) (c : Ryu.Config) (F : Fmt) (xs : List Nat) (h : ∀ x ∈ xs, x < 2 ^ width F) :
    uniform_random_test_console cfg c F xs = ⟨(match F with
      | .b32 => lines ["[Testing uniformly randomly generated float inputs...]"] ++
          "Uniform random test for float with ".toList ++ Nat.toDigits 10 xs.length
      | .b64 => lines ["[Testing uniformly randomly generated double inputs...]"] ++
          "Uniform random test for double with ".toList ++ Nat.toDigits 10 xs.length) ++
      lines [" examples succeeded.", "Done.", "", ""], .ok ()⟩ := by
  have hl := uniform_loop_console_eq cfg c F xs _ _ (C71_uniform_test cfg c F xs h)
  have l3 : " examples succeeded.\n".toList ++ "Done.\n\n\n".toList = lines [" examples succeeded.", "Done.", "", ""] := by
    decide +kernel
  have key : ∀ (t1 n t2 t3 t4 t5 d : String) (ds : List Char) (x : Printed Bool), x = ⟨[], .ok true⟩ → (do
      say t1
      say n
      say t2
      let ok ← x
      if ok then do
        say t3
        say n
        say t4
        sayChars ds
        say t5
      else pure ()
      say d : Printed Unit) = ⟨t1.toList ++ (n.toList ++ (t2.toList ++ ([] ++ (t3.toList ++ (n.toList ++ (t4.toList ++
        (ds ++ (t5.toList ++ d.toList)))))))), .ok ()⟩ := by
    intro t1 n t2 t3 t4 t5 d ds x hx
    subst hx
    rfl
  cases F with
  | b32 =>
    have a : "[Testing uniformly randomly generated ".toList ++ ("float".toList ++ " inputs...]\n".toList) =
        lines ["[Testing uniformly randomly generated float inputs...]"] := by decide +kernel
    have b : "Uniform random test for ".toList ++ ("float".toList ++ " with ".toList) =
        "Uniform random test for float with ".toList := by decide +kernel
    refine (key _ _ _ _ _ _ _ _ _ hl).trans (printed_ext ?_ rfl)
    rw [← a, ← b, ← l3, decimal_nat]
    generalize "[Testing uniformly randomly generated ".toList = s1
    generalize "float".toList = s2
    generalize " inputs...]\n".toList = s3
    generalize "Uniform random test for ".toList = s4
    generalize " with ".toList = s5
    generalize " examples succeeded.\n".toList = s6
    generalize "Done.\n\n\n".toList = s7
    simp only [List.append_assoc, List.nil_append]
  | b64 =>
    have a : "[Testing uniformly randomly generated ".toList ++ ("double".toList ++ " inputs...]\n".toList) =
        lines ["[Testing uniformly randomly generated double inputs...]"] := by decide +kernel
    have b : "Uniform random test for ".toList ++ ("double".toList ++ " with ".toList) =
        "Uniform random test for double with ".toList := by decide +kernel
    refine (key _ _ _ _ _ _ _ _ _ hl).trans (printed_ext ?_ rfl)
    rw [← a, ← b, ← l3, decimal_nat]
    generalize "[Testing uniformly randomly generated ".toList = s1
    generalize "double".toList = s2
    generalize " inputs...]\n".toList = s3
    generalize "Uniform random test for ".toList = s4
    generalize " with ".toList = s5
    generalize " examples succeeded.\n".toList = s6
    generalize "Done.\n\n\n".toList = s7
    simp only [List.append_assoc, List.nil_append]

/-- Three doubles; and a text that differs would be reported. -/
example : uniform_random_test_console ⟨false, false⟩ ⟨.portable, false, false, false⟩ .b64
    [0x3FF3C0CA428C59FB, 0x8000000000000000, 0x7FF0000000000000] = ⟨lines [
      "[Testing uniformly randomly generated double inputs...]",
      "Uniform random test for double with 3 examples succeeded.", "Done.", "", ""], .ok ()⟩ :=
  printed_ext (by decide +kernel) (by decide +kernel)

example : (log_compare "floor" (fun e => .ok (e + 1)) 7 7).out = "floor: mismatch! [e = 7, true_value = 7, computed = 8]\n".toList := by
  decide +kernel

end Grisu
