import Verif.Model.Console
import Verif.Properties.VerifyTools
import Verif.Properties.CacheLength
import Verif.Properties.Ryu

/-! # What the test programs write to the console -/

namespace Grisu
open Printed

namespace Printed

theorem say_bind {β : Type} (s : String) (f : Unit → Printed β) :
    (say s >>= f) = ⟨s.toList ++ (f ()).out, (f ()).result⟩ := rfl

theorem sayChars_bind {β : Type} (s : List Char) (f : Unit → Printed β) :
    (sayChars s >>= f) = ⟨s ++ (f ()).out, (f ()).result⟩ := rfl

theorem run_ok_bind {α β : Type} (a : α) (f : α → Printed β) : (run (.ok a) >>= f) = f a := rfl

theorem run_fault_bind {α β : Type} (e : Fault) (f : α → Printed β) : (run (.fault e) >>= f) = ⟨[], .fault e⟩ := rfl

theorem mk_ok_bind {α β : Type} (o : List Char) (a : α) (f : α → Printed β) :
    ((⟨o, .ok a⟩ : Printed α) >>= f) = ⟨o ++ (f a).out, (f a).result⟩ := rfl

theorem mk_fault_bind {α β : Type} (o : List Char) (e : Fault) (f : α → Printed β) :
    ((⟨o, .fault e⟩ : Printed α) >>= f) = ⟨o, .fault e⟩ := rfl

theorem pure_eq {α : Type} (a : α) : (pure a : Printed α) = ⟨[], .ok a⟩ := rfl

theorem bind_result {α β : Type} {x : Printed α} {a : α} (h : x.result = .ok a) (f : α → Printed β) :
    (x >>= f).result = (f a).result := by
  obtain ⟨o, r⟩ := x
  obtain rfl : r = .ok a := h
  rfl

theorem eq_mk {α : Type} {x : Printed α} {a : α} (h : x.result = .ok a) : x = ⟨x.out, .ok a⟩ := by
  obtain ⟨o, r⟩ := x
  obtain rfl : r = .ok a := h
  rfl

end Printed

theorem delta_loop_console_eq (cfg : Cfg) (F : Fmt) (name : String) (count : Nat) : ∀ k : Int, F.min_k ≤ k →
    k + count ≤ F.max_k + 1 → delta_loop_console cfg F name count k = ⟨[], .ok true⟩ := by
  induction count with
  | zero => intros; rfl
  | succ count ih =>
    intro k h1 h2
    obtain ⟨cache, v, e1, e2, e3⟩ := C62_delta cfg F k (-F.gamma) h1 (by push_cast at h2; omega) le_rfl
      (by cases F <;> decide)
    rw [show 3 * 2 ^ (F.q - F.p - 3) = wrap F.q (3 * 2 ^ (F.q - F.p - 3)) by cases F <;> decide] at e2
    rw [delta_loop_console, e1, run_ok_bind]
    rw [e2, run_ok_bind, e3, run_ok_bind, if_neg (by simp)]
    exact ih (k + 1) (by omega) (by push_cast at h2; omega)

theorem say_all_eq {α : Type} {line : α → Printed Unit} (h : ∀ l, (line l).result = .ok ()) (ls : List α) :
    say_all line ls = ⟨ls.flatMap fun l => (line l).out, .ok ()⟩ := by
  induction ls with
  | nil => rfl
  | cons l ls ih =>
    rw [say_all, ih, show line l = ⟨(line l).out, .ok ()⟩ by rw [← h l], mk_ok_bind]
    rfl

theorem rounding_line_result (show_float : Fmt → Nat → List Char) (F : Fmt) (l : RoundingLine) :
    (rounding_line show_float F l).result = .ok () := rfl

theorem removal_line_result (show_float : Fmt → Nat → List Char) (F : Fmt) (l : RemovalLine) :
    (removal_line show_float F l).result = .ok () := by
  obtain ⟨_, _, o⟩ := l
  cases o <;> rfl

theorem rounding_loop_console_eq (cfg : Cfg) (show_float : Fmt → Nat → List Char) (F : Fmt) (count : Nat) : ∀ e : Nat,
    1 ≤ e → e + count ≤ 2 ^ F.exponent_bits - 1 →
    rounding_loop_console cfg show_float F count e true =
      ⟨((List.range' e count).flatMap (expectedRounding F)).flatMap fun l => (rounding_line show_float F l).out,
        .ok true⟩ := by
  induction count with
  | zero => intro e _ _; rfl
  | succ count ih =>
    intro e h1 h2
    obtain ⟨t, e1, e2, -⟩ := step_facts cfg F h1 (by omega)
    rw [rounding_loop_console, e1, run_ok_bind]
    dsimp only
    rw [e2, run_ok_bind]
    dsimp only
    rw [say_all_eq (rounding_line_result show_float F), mk_ok_bind, ih (e + 1) (by omega) (by omega),
      List.range'_succ, List.flatMap_cons, List.flatMap_append]

theorem removal_loop_console_eq (cfg : Cfg) (show_float : Fmt → Nat → List Char) (F : Fmt) (count : Nat) : ∀ e : Nat,
    1 ≤ e → e + count ≤ 2 ^ F.exponent_bits - 1 →
    removal_loop_console cfg show_float F count e true =
      ⟨((List.range' e count).flatMap (expectedRemoval F)).flatMap fun l => (removal_line show_float F l).out,
        .ok true⟩ := by
  induction count with
  | zero => intro e _ _; rfl
  | succ count ih =>
    intro e h1 h2
    obtain ⟨t, e1, -, e3⟩ := step_facts cfg F h1 (by omega)
    rw [removal_loop_console, e1, run_ok_bind]
    dsimp only
    rw [e3, run_ok_bind]
    dsimp only
    rw [say_all_eq (removal_line_result show_float F), mk_ok_bind, ih (e + 1) (by omega) (by omega),
      List.range'_succ, List.flatMap_cons, List.flatMap_append]

/-- The lines the first of the two tools prints. -/
theorem rounding_lines (F : Fmt) : (List.range' 1 (2 ^ F.exponent_bits - 2)).flatMap (expectedRounding F) = (match F with
    | .b32 => []
    | .b64 => [⟨5, -798, 288 * 2 ^ 52⟩, ⟨5, -592, 494 * 2 ^ 52⟩, ⟨5, -406, 680 * 2 ^ 52⟩, ⟨5, 152, 1238 * 2 ^ 52⟩]) := by
  have h := C63_tool ⟨true, true⟩ F
  unfold verify_rounding_bound at h
  rw [verify_rounding_bound_loop_eq _ F _ 1 le_rfl (by cases F <;> decide)] at h
  injection h with h
  exact (Prod.mk.inj h).1

/-- The lines the second of the two tools prints. -/
theorem removal_lines (F : Fmt) : (List.range' 1 (2 ^ F.exponent_bits - 2)).flatMap (expectedRemoval F) = (match F with
    | .b32 => [⟨98 * 2 ^ 23, -60, .lt⟩, ⟨217 * 2 ^ 23, 59, .gt⟩]
    | .b64 => [⟨431 * 2 ^ 52, -655, .lt⟩, ⟨883 * 2 ^ 52, -203, .gt⟩]) := by
  have h := C64_tool ⟨true, true⟩ F
  unfold verify_removal at h
  rw [verify_removal_loop_eq _ F _ 1 le_rfl (by cases F <;> decide)] at h
  injection h with h
  exact (Prod.mk.inj h).1

/-! ## The logarithms -/

theorem log_loop_console_eq {step : Nat → Printed Bool} {text : Nat → List Char} {ok : Nat → Bool} (count : Nat) :
    ∀ (e : Nat) (s : Bool) (m : Nat), (∀ i, e ≤ i → i < e + count → step i = ⟨text i, .ok (ok i)⟩) →
    log_loop_console step count e s m =
      ⟨(List.range' e count).flatMap text, verify_log_loop (fun i => .ok (ok i)) count e s m⟩ := by
  induction count with
  | zero => intros; rfl
  | succ count ih =>
    intro e s m h
    rw [log_loop_console, h e le_rfl (by omega), mk_ok_bind]
    dsimp only
    rw [ih (e + 1) _ _ fun i h1 h2 => h i (by omega) (by omega), List.range'_succ, List.flatMap_cons]
    rfl

theorem log_loop_console_fault {step : Nat → Printed Bool} {f : Fault} (n : Nat) : ∀ e count m : Nat, n < count →
    (∀ i, e ≤ i → i < e + n → step i = ⟨[], .ok true⟩) → step (e + n) = ⟨[], .fault f⟩ →
    log_loop_console step count e true m = ⟨[], .fault f⟩ := by
  induction n with
  | zero =>
    intro e count m h _ hf
    obtain ⟨c, rfl⟩ : ∃ c, count = c + 1 := ⟨count - 1, by omega⟩
    rw [Nat.add_zero] at hf
    rw [log_loop_console, hf, mk_fault_bind]
  | succ n ih =>
    intro e count m h h1 hf
    obtain ⟨c, rfl⟩ : ∃ c, count = c + 1 := ⟨count - 1, by omega⟩
    rw [log_loop_console, h1 e le_rfl (by omega), mk_ok_bind]
    exact congrArg (fun r => (⟨[] ++ r.out, r.result⟩ : Printed Nat)) (ih (e + 1) c e (by omega)
      (fun i h2 h3 => h1 i (by omega) (by omega)) (by rw [show e + 1 + n = e + (n + 1) by omega]; exact hf))

/-- The true logarithm at one of the exponents the tool divides at. -/
def log10_true (e : Nat) : Int := (e : Int) * 0x4d104 / 2 ^ 20 + (if e < 1651 ∨ e = 2621 then 0 else 1)

/-- What the tool does at an exponent where it divides. -/
def log10_printed (e : Nat) : Printed Bool := do
  say "floor_log10_pow2"
  say ": overflow detected [e = "
  sayChars (decimal_nat e)
  say "]\n"
  let ok ← log_compare "floor_log10_pow2" floor_log10_pow2_raw e (log10_true e)
  let ok' ← log_compare "floor_log10_pow2" floor_log10_pow2_raw (-(e : Int)) (-log10_true e - 1)
  pure (ok && ok')

open Big in
theorem log10_pow2_console_eq (cfg : Cfg) {fuel e : Nat} (hf : 4096 ≤ fuel) (h : e ≤ 4096) :
    log10_pow2_console cfg fuel e = if e ∈ log10_checked then log10_printed e else ⟨[], .ok true⟩ := by
  have h2 : i32 ((e : Int) * 0x4d104) = .ok ((e : Int) * 0x4d104) := if_pos ⟨by omega, by omega⟩
  have hl := log10_room h
  have hcast : (e : Int) * 0x4d104 % 2 ^ 20 = ((e * 0x4d104 % 2 ^ 20 : Nat) : Int) := by push_cast; norm_num
  unfold log10_pow2_console log_step_console
  beta_reduce
  rw [h2, Exec.ok_bind, run_ok_bind, hcast]
  generalize hlow : e * 0x4d104 % 2 ^ 20 = low at hl hcast
  by_cases hc : e ∈ log10_checked
  · have hr := hl.mpr hc
    rw [if_pos (by rw [decide_eq_true_eq]; omega), if_pos hc]
    rw [power_of_2_spec cfg (by omega), Exec.ok_bind,
      count_divisions_spec cfg fuel 1200 (2 ^ e) 0 (by omega) (log10_checked_ok hc)
        (Nat.pow_lt_pow_right (by decide) (by omega)) (by
          rw [← Nat.one_mul (2 ^ e), bitLength_mul_pow one_ne_zero, show bitLength 1 = 1 by decide]; omega)]
    rw [Int.zero_add, log10_true_value hc, run_ok_bind]
    unfold log10_printed log10_true
    rfl
  · have hr : ¬ _ := fun hh => hc (hl.mp hh)
    rw [if_neg (by rw [decide_eq_true_eq]; omega), if_neg hc]
    rfl

theorem log_compare_result {name : String} {f : Int → Exec Int} {e t v : Int} (h : f e = .ok v) :
    (log_compare name f e t).result = .ok (decide (v = t)) := by
  unfold log_compare
  rw [h, run_ok_bind]
  by_cases hv : v = t
  · rw [if_neg (by simpa using hv), decide_eq_true hv]
    rfl
  · rw [if_pos hv, decide_eq_false hv]
    rfl

theorem log10_raw_eq {e : Int} (h1 : -4096 ≤ e) (h2 : e ≤ 4096) :
    floor_log10_pow2_raw e = .ok (e * 0x4d104 / 2 ^ 20) := by
  unfold floor_log10_pow2_raw i32
  rw [if_pos ⟨by omega, by omega⟩]
  rfl

theorem log_tail {x y : Printed Bool} {a b : Bool} (hx : x.result = .ok a) (hy : y.result = .ok b) (t1 t2 t4 : String)
    (t3 : List Char) : (do
      say t1
      say t2
      sayChars t3
      say t4
      let ok ← x
      let ok' ← y
      pure (ok && ok') : Printed Bool).result = .ok (a && b) := by
  simp only [say_bind, sayChars_bind]
  rw [bind_result hx, bind_result hy, pure_eq]

theorem log10_printed_result_eq {e : Nat} (he : e ≤ 4096) : (log10_printed e).result =
    .ok (decide ((e : Int) * 0x4d104 / 2 ^ 20 = log10_true e) &&
      decide (-(e : Int) * 0x4d104 / 2 ^ 20 = -log10_true e - 1)) := by
  have r1 := log_compare_result (name := "floor_log10_pow2") (t := log10_true e)
    (log10_raw_eq (e := e) (by omega) (by omega))
  have r2 := log_compare_result (name := "floor_log10_pow2") (t := -log10_true e - 1)
    (log10_raw_eq (e := -(e : Int)) (by omega) (by omega))
  exact log_tail r1 r2 _ _ _ _

theorem log10_checked_le : ∀ e ∈ log10_checked, e ≤ 4096 := by decide

theorem log10_checked_compare : ∀ e ∈ log10_checked, (decide ((e : Int) * 0x4d104 / 2 ^ 20 = log10_true e) &&
    decide (-(e : Int) * 0x4d104 / 2 ^ 20 = -log10_true e - 1)) = log10_ok e := by
  intro e h
  simp only [log10_checked, List.mem_cons, List.not_mem_nil, or_false] at h
  rcases h with rfl | rfl | rfl | rfl | rfl | rfl | rfl | rfl | rfl | rfl | rfl <;> decide +kernel

theorem log10_printed_result {e : Nat} (h : e ∈ log10_checked) : (log10_printed e).result = .ok (log10_ok e) := by
  rw [log10_printed_result_eq (log10_checked_le e h), log10_checked_compare e h]

/-- What the tool prints at an exponent. -/
def log10_text (e : Nat) : List Char := if e ∈ log10_checked then (log10_printed e).out else []

theorem log10_pow2_console_text (cfg : Cfg) {fuel e : Nat} (hf : 4096 ≤ fuel) (h : e ≤ 4096) :
    log10_pow2_console cfg fuel e = ⟨log10_text e, .ok (log10_ok e)⟩ := by
  rw [log10_pow2_console_eq cfg hf h, log10_text]
  by_cases hc : e ∈ log10_checked
  · rw [if_pos hc, if_pos hc]
    exact eq_mk (log10_printed_result hc)
  · rw [if_neg hc, if_neg hc]
    unfold log10_ok
    rw [decide_eq_false hc]
    rfl

theorem flatMap_if {β : Type} (p : Nat → Prop) [DecidablePred p] (g : Nat → List β) (l : List Nat) :
    (l.flatMap fun e => if p e then g e else []) = (l.filter fun e => decide (p e)).flatMap g := by
  induction l with
  | nil => rfl
  | cons a l ih =>
    rw [List.flatMap_cons, ih, List.filter_cons]
    by_cases h : p a <;> simp [h]

theorem filter_cons_range' {p : Nat → Bool} {l : List Nat} : ∀ (n s a : Nat), s ≤ a → a < s + n → p a = true →
    (∀ i, s ≤ i → i < a → p i = false) → (List.range' (a + 1) (s + n - (a + 1))).filter p = l →
    (List.range' s n).filter p = a :: l := by
  intro n
  induction n with
  | zero => intro s a h1 h2; omega
  | succ n ih =>
    intro s a h1 h2 hp hn hl
    rw [List.range'_succ, List.filter_cons]
    by_cases hs : s = a
    · subst hs
      rw [if_pos hp, ← hl, show s + (n + 1) - (s + 1) = n by omega]
    · rw [if_neg (by rw [hn s le_rfl (by omega)]; decide)]
      exact ih (s + 1) a (by omega) (by omega) hp (fun i h3 h4 => hn i (by omega) h4)
        (by rw [← hl, show s + 1 + n - (a + 1) = s + (n + 1) - (a + 1) by omega])

theorem log10_filter : (List.range' 1 4096).filter (fun e => decide (e ∈ log10_checked)) = log10_checked := by
  unfold log10_checked
  have nil : ∀ s n, 3984 ≤ s → (List.range' s n).filter
      (fun e => decide (e ∈ [289, 485, 970, 1455, 1651, 2136, 2621, 2817, 3302, 3787, 3983])) = [] := by
    intro s n hs
    rw [List.filter_eq_nil_iff]
    intro a ha
    have := (List.mem_range'_1.mp ha).1
    simp
    omega
  repeat' first
    | exact nil _ _ (by norm_num)
    | refine filter_cons_range' _ _ _ (by norm_num) (by norm_num) (by decide) (fun i h1 h2 => by simp; omega) ?_

theorem log2_pow10_console_true (cfg : Cfg) {e : Nat} (h : e ≤ 616) : log2_pow10_console cfg e = ⟨[], .ok true⟩ := by
  have h2 : i32 ((e : Int) * 0x35269e) = .ok ((e : Int) * 0x35269e) := if_pos ⟨by omega, by omega⟩
  have h1 := log2_lower e (by omega)
  have h3 : ¬((e : Int) * 0x35269e % 2 ^ 20 + 0x130 ≥ 0x100000) := by
    rw [show (e : Int) * 0x35269e % 2 ^ 20 = ((e * 0x35269e % 2 ^ 20 : Nat) : Int) by push_cast; norm_num]
    generalize e * 0x35269e % 2 ^ 20 = l at h1
    omega
  unfold log2_pow10_console log_step_console
  beta_reduce
  rw [h2, Exec.ok_bind, run_ok_bind, if_neg (by rw [decide_eq_true_eq]; exact h3)]
  rfl

theorem log2_pow10_console_fault (cfg : Cfg) : log2_pow10_console cfg 617 = ⟨[], .fault .signedOverflow⟩ := by
  unfold log2_pow10_console log_step_console i32
  beta_reduce
  rw [if_neg (by omega)]
  rfl

/-! ## The uniform random test -/

theorem uniform_random_loop_false (cfg : Cfg) (c : Ryu.Config) (F : Fmt) : ∀ (xs : List Nat) (b1 b2 : Buffer),
    uniform_random_loop cfg c F xs b1 b2 false ≠ .ok true
  | [], _, _ => by simp [uniform_random_loop]
  | x :: xs, b1, b2 => by
    intro h
    rw [uniform_random_loop] at h
    obtain ⟨r1, -, h⟩ := Exec.bind_eq_ok h
    obtain ⟨r2, -, h⟩ := Exec.bind_eq_ok h
    obtain ⟨r3, -, h⟩ := Exec.bind_eq_ok h
    obtain ⟨r4, -, h⟩ := Exec.bind_eq_ok h
    dsimp only at h
    rw [ite_self] at h
    exact uniform_random_loop_false cfg c F xs _ _ h

theorem uniform_loop_console_eq (cfg : Cfg) (c : Ryu.Config) (F : Fmt) : ∀ (xs : List Nat) (b1 b2 : Buffer),
    uniform_random_loop cfg c F xs b1 b2 true = .ok true → uniform_loop_console cfg c F xs b1 b2 true = ⟨[], .ok true⟩
  | [], _, _, _ => rfl
  | x :: xs, b1, b2, h => by
    rw [uniform_random_loop] at h
    obtain ⟨r1, e1, h⟩ := Exec.bind_eq_ok h
    obtain ⟨r2, e2, h⟩ := Exec.bind_eq_ok h
    obtain ⟨r3, e3, h⟩ := Exec.bind_eq_ok h
    obtain ⟨r4, e4, h⟩ := Exec.bind_eq_ok h
    rw [uniform_loop_console, e1, run_ok_bind]
    dsimp only at e2 e3 e4 h ⊢
    rw [e2, run_ok_bind, e3, run_ok_bind, e4, run_ok_bind]
    by_cases hv : r3 = r4
    · rw [if_neg (by simpa using hv)] at h ⊢
      exact uniform_loop_console_eq cfg c F xs _ _ h
    · rw [if_pos hv] at h
      exact absurd h (uniform_random_loop_false cfg c F xs _ _)

end Grisu
