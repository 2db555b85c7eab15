import Verif.Proofs.RyuDebug

/-!
# Ryu built with `RYU_DEBUG`

Property C98.  `Printed` is what a call writes to the standard output (`out`) and how it ends (`result`).
-/

namespace Grisu

open Spec
open Ryu (Config)

/-! ## C98 -/

/-- **C98**: the debug build returns and writes to the buffer what the ordinary build does, on every bit pattern, in every
configuration and whatever the buffer, faults included. -/
theorem C98_result (c : Config) (x : Nat) (mem : Buffer) :
    (Ryu.d2s_buffered_n_debug c x mem).result = Ryu.d2s_buffered_n c x mem ∧
    (Ryu.d2s_buffered_debug c x mem).result = Ryu.d2s_buffered c x mem ∧
    (Ryu.d2s_debug c x).result = Ryu.d2s c x ∧
    (Ryu.f2s_buffered_n_debug c x mem).result = Ryu.f2s_buffered_n c x mem ∧
    (Ryu.f2s_buffered_debug c x mem).result = Ryu.f2s_buffered c x mem ∧
    (Ryu.f2s_debug c x).result = Ryu.f2s c x := by
  have hd : ∀ mem, (Ryu.d2s_buffered_debug c x mem).result = Ryu.d2s_buffered c x mem := by
    intro mem
    unfold Ryu.d2s_buffered_debug Ryu.d2s_buffered
    rw [Printed.result_bind, Ryu.d2s_buffered_n_debug_result]
    rfl
  have hf : ∀ mem, (Ryu.f2s_buffered_debug c x mem).result = Ryu.f2s_buffered c x mem := by
    intro mem
    unfold Ryu.f2s_buffered_debug Ryu.f2s_buffered
    rw [Printed.result_bind, Ryu.f2s_buffered_n_debug_result]
    rfl
  exact ⟨Ryu.d2s_buffered_n_debug_result c x mem, hd mem, hd _, Ryu.f2s_buffered_n_debug_result c x mem, hf mem, hf _⟩

/-- **C98**: on a zero, an infinity or a NaN the trace consists of the bits. -/
theorem C98_special (c : Config) (F : Fmt) (x : Nat) (hx : x < 2 ^ width F) (h : mag F x = 0 ∨ infPattern F ≤ mag F x)
    (mem : Buffer) : ∃ bits, IsBinary (width F) x bits ∧
    (match (generalizing := false) F with
      | .b32 => (Ryu.f2s_buffered_n_debug c x mem).out
      | .b64 => (Ryu.d2s_buffered_n_debug c x mem).out) = "IN=".toList ++ bits ++ "\n".toList := by
  cases F
  · have hx : x < 2 ^ 32 := hx
    obtain ⟨f1, f2, f3⟩ := Ryu.fields32 hx
    obtain ⟨bits, b1, b2⟩ := Ryu.debug_in_out hx
    have hm : mag .b32 x < 2 ^ 31 := Nat.mod_lt _ (by norm_num [width])
    have hi : infPattern .b32 = 255 * 2 ^ 23 := rfl
    refine ⟨bits, b1, ?_⟩
    dsimp only
    unfold Ryu.f2s_buffered_n_debug
    dsimp only
    rw [f1, f2, f3, wrap_of_lt hx, Printed.out_bind (Ryu.result_debug_in _ _), b2, if_pos (by omega)]
    exact List.append_nil _
  · have hx : x < 2 ^ 64 := hx
    obtain ⟨f1, f2, f3⟩ := Ryu.fields64 hx
    obtain ⟨bits, b1, b2⟩ := Ryu.debug_in_out hx
    have hm : mag .b64 x < 2 ^ 63 := Nat.mod_lt _ (by norm_num [width])
    have hi : infPattern .b64 = 2047 * 2 ^ 52 := rfl
    refine ⟨bits, b1, ?_⟩
    dsimp only
    unfold Ryu.d2s_buffered_n_debug
    dsimp only
    rw [f1, f2, f3, wrap_of_lt hx, Printed.out_bind (Ryu.result_debug_in _ _), b2, if_pos (by omega)]
    exact List.append_nil _

/-- **C98**: on every finite nonzero input the trace shows the bits, the conversion unless the input is a double that is
an integer below `2 ^ 53`, and the significand of the decimal that is printed, its number of digits and the sum of the
exponent and that number, modulo `2 ^ 32`. -/
theorem C98_trace (c : Config) (F : Fmt) (x : Nat) (h : FiniteNonzero F x) : ∃ bits conversion s t,
    IsBinary (width F) x bits ∧
    ((F = .b64 ∧ ∃ n : Nat, value F (mag F x) = n ∧ n < 2 ^ 53) → conversion = []) ∧
    (¬ (F = .b64 ∧ ∃ n : Nat, value F (mag F x) = n ∧ n < 2 ^ 53) →
      IsTrace F (match F with | .b32 => 61 | .b64 => 125) (mag F x) s t conversion) ∧
    ∀ mem : Buffer, (sci (isNeg F x) s t).length ≤ mem.length →
      (match (generalizing := false) F with
        | .b32 => Ryu.f2s_buffered_n_debug c x mem
        | .b64 => Ryu.d2s_buffered_n_debug c x mem) =
      ⟨"IN=".toList ++ bits ++ "\n".toList ++ conversion ++ "DIGITS=".toList ++ natText s ++ "\nOLEN=".toList ++
        natText (numDigits s) ++ "\nEXP=".toList ++ natText ((t + numDigits s) % 2 ^ 32).toNat ++ "\n".toList,
        .ok ((sci (isNeg F x) s t).map some ++ mem.drop (sci (isNeg F x) s t).length,
          (sci (isNeg F x) s t).length)⟩ := by
  have cfg : Cfg := ⟨true, false⟩
  cases F
  · have hx : x < 2 ^ 32 := h.inRange
    obtain ⟨bits, b1, b2⟩ := Ryu.debug_in_out hx
    obtain ⟨f1, f2, f3⟩ := Ryu.fields32 hx
    have h0 := h.nonzero
    have h1 := h.finite
    have hi : infPattern .b32 = 255 * 2 ^ 23 := rfl
    obtain ⟨s, t, k1, k2, k3⟩ := Ryu.f2d_spec c h0 h1
    obtain ⟨g1, g2⟩ := Ryu.same_decimal cfg h k2 k3
    have s0 : 0 < s := (printable h g1).1.pos
    refine ⟨bits, _, s, t, b1, fun g => absurd g.1 (by decide), fun _ => Ryu.f2d_debug_trace c h0 h1 k1, ?_⟩
    intro mem hm
    have hres : (Ryu.f2s_buffered_n_debug c x mem).result = _ := (Ryu.f2s_buffered_n_debug_result c x mem).trans
      ((Ryu.f2s_buffered_n_eq c cfg hx mem).trans (prints_finite h g1 mem hm))
    dsimp only
    rw [Printed.eq_mk hres]
    congr 1
    unfold Ryu.f2s_buffered_n_debug
    dsimp only
    rw [f1, f2, f3, wrap_of_lt hx, Printed.out_bind (Ryu.result_debug_in _ _), b2, if_neg (by omega),
      Printed.out_bind ((Ryu.f2d_debug_result _ _ _).trans k1)]
    have hl : Ryu.decimalLength9 c s = .ok (numDigits s) := by
      rw [Ryu.decimalLength9_eq c cfg g2]
      exact C36_decimal_length cfg .b32 s s0 g2
    unfold Ryu.f_to_chars_debug
    rw [Ryu.to_chars_out hl hm]
    simp only [List.append_assoc]
    congr 13
  · have hx : x < 2 ^ 64 := h.inRange
    obtain ⟨bits, b1, b2⟩ := Ryu.debug_in_out hx
    obtain ⟨f1, f2, f3⟩ := Ryu.fields64 hx
    have h0 := h.nonzero
    have h1 := h.finite
    have hi : infPattern .b64 = 2047 * 2 ^ 52 := rfl
    have key : ∃ (v : Printed Ryu.FloatingDecimal) (s : Nat) (t : Int), v =
        (match Ryu.d2d_small_int (mag .b64 x % 2 ^ 52) (mag .b64 x / 2 ^ 52) with
          | some v => Printed.run (Ryu.small_int_loop c 18 v)
          | none => Ryu.d2d_debug c (mag .b64 x % 2 ^ 52) (mag .b64 x / 2 ^ 52)) ∧
        v.result = .ok ⟨s, t⟩ ∧ Output (fun v => Nearest .b64 PrefEven v (mag .b64 x)) s t ∧
        ClosestAt (fun v => Nearest .b64 PrefEven v (mag .b64 x)) (value .b64 (mag .b64 x)) .tie_to_even s t ∧
        ((∃ n : Nat, value .b64 (mag .b64 x) = n ∧ n < 2 ^ 53) → v.out = []) ∧
        (¬ (∃ n : Nat, value .b64 (mag .b64 x) = n ∧ n < 2 ^ 53) → IsTrace .b64 125 (mag .b64 x) s t v.out) := by
      cases hv : Ryu.d2d_small_int (mag .b64 x % 2 ^ 52) (mag .b64 x / 2 ^ 52) with
      | none =>
        obtain ⟨s, t, k1, k2, k3⟩ := Ryu.d2d_spec c h0 h1
        refine ⟨_, s, t, rfl, (Ryu.d2d_debug_result _ _ _).trans k1, k2, k3, ?_, fun _ => Ryu.d2d_debug_trace c h0 h1 k1⟩
        rintro ⟨n, n1, n2⟩
        exact absurd hv (Ryu.small_int_complete h0 n1 n2)
      | some v =>
        obtain ⟨s, t, k1, k2, k3⟩ := Ryu.small_int_spec c h0 h1 hv
        refine ⟨_, s, t, rfl, k1, k2, k3, fun _ => rfl, fun g => absurd ?_ g⟩
        obtain ⟨-, -, v1, v2, -⟩ := Ryu.small_int_value hv
        exact ⟨_, v2, v1⟩
    obtain ⟨v, s, t, hv, k1, k2, k3, k4, k5⟩ := key
    obtain ⟨g1, g2⟩ := Ryu.same_decimal cfg h k2 k3
    have s0 : 0 < s := (printable h g1).1.pos
    refine ⟨bits, v.out, s, t, b1, fun g => k4 g.2, fun g => k5 fun q => g ⟨rfl, q⟩, ?_⟩
    intro mem hm
    have hres : (Ryu.d2s_buffered_n_debug c x mem).result = _ := (Ryu.d2s_buffered_n_debug_result c x mem).trans
      ((Ryu.d2s_buffered_n_eq c cfg hx mem).trans (prints_finite h g1 mem hm))
    dsimp only
    rw [Printed.eq_mk hres]
    congr 1
    unfold Ryu.d2s_buffered_n_debug
    dsimp only
    rw [f1, f2, f3, wrap_of_lt hx, Printed.out_bind (Ryu.result_debug_in _ _), b2, if_neg (by omega)]
    have e := Printed.out_bind (f := fun d => Ryu.d_to_chars_debug c d (isNeg .b64 x) mem) k1
    rw [show v >>= (fun d => Ryu.d_to_chars_debug c d (isNeg .b64 x) mem) = _ from congrArg (· >>= _) hv] at e
    refine (congrArg (("IN=".toList ++ bits ++ "\n".toList) ++ ·) e).trans ?_
    have hl : Ryu.decimalLength17 c s = .ok (numDigits s) := by
      rw [Ryu.decimalLength17_eq c cfg g2]
      exact C36_decimal_length cfg .b64 s s0 g2
    unfold Ryu.d_to_chars_debug
    rw [Ryu.to_chars_out hl hm]
    simp only [List.append_assoc]
    congr 13

/-- 1.5 meets the hypotheses of `C98_trace` for both formats, and is not an integer. -/
example : FiniteNonzero .b64 0x3FF8000000000000 ∧ FiniteNonzero .b32 0x3FC00000 :=
  ⟨⟨by decide, by decide, by decide⟩, ⟨by decide, by decide, by decide⟩⟩

/-- The largest finite float and the negative zero double meet the hypotheses of `C98_trace` and `C98_special`. -/
example : FiniteNonzero .b32 0x7F7FFFFF ∧ mag .b64 0x8000000000000000 = 0 :=
  ⟨⟨by decide, by decide, by decide⟩, by decide⟩

/-- **C98**: the last line need not show an exponent: a negative sum is shown modulo `2 ^ 32`.  In every configuration the
double 1E-5 is reported with the exponent 4294967292. -/
theorem C98_exponent_wraps (c : Config) :
    "DIGITS=1\nOLEN=1\nEXP=4294967292\n".toList <:+
      (Ryu.d2s_buffered_n_debug c 0x3EE4F8B588E368F1 (List.replicate 25 none)).out := by
  obtain ⟨m, b, f, n⟩ := c
  cases m <;> cases b <;> cases f <;> cases n <;> decide +kernel

end Grisu
