import Verif.Proofs.RyuSizeDebug
import Verif.Properties.RyuSize

/-!
# Ryu built with both `RYU_DEBUG` and `RYU_OPTIMIZE_SIZE`

Property C100.
-/

namespace Grisu

open Spec
open Ryu (Config)

/-! ## C100 -/

/-- **C100**: with both macros the functions return and write to the buffer what they do with neither, on every bit pattern,
in every configuration and whatever the buffer, faults included. -/
theorem C100_result (c : Config) (x : Nat) (mem : Buffer) :
    (Ryu.d2s_buffered_n_size_debug c x mem).result = Ryu.d2s_buffered_n c x mem ∧
    (Ryu.d2s_buffered_size_debug c x mem).result = Ryu.d2s_buffered c x mem ∧
    (Ryu.d2s_size_debug c x).result = Ryu.d2s c x ∧
    (Ryu.f2s_buffered_n_size_debug c x mem).result = Ryu.f2s_buffered_n c x mem ∧
    (Ryu.f2s_buffered_size_debug c x mem).result = Ryu.f2s_buffered c x mem ∧
    (Ryu.f2s_size_debug c x).result = Ryu.f2s c x := by
  have hd : ∀ mem, (Ryu.d2s_buffered_size_debug c x mem).result = Ryu.d2s_buffered c x mem := by
    intro mem
    unfold Ryu.d2s_buffered_size_debug Ryu.d2s_buffered
    rw [Printed.result_bind, Ryu.d2s_buffered_n_size_debug_result, C92_double]
    rfl
  have hf : ∀ mem, (Ryu.f2s_buffered_size_debug c x mem).result = Ryu.f2s_buffered c x mem := by
    intro mem
    unfold Ryu.f2s_buffered_size_debug Ryu.f2s_buffered
    rw [Printed.result_bind, Ryu.f2s_buffered_n_size_debug_result, C92_float]
    rfl
  exact ⟨(Ryu.d2s_buffered_n_size_debug_result c x mem).trans (C92_double c x mem), hd mem, hd _,
    (Ryu.f2s_buffered_n_size_debug_result c x mem).trans (C92_float c x mem), hf mem, hf _⟩

/-- **C100**: on a zero, an infinity or a NaN the trace consists of the bits. -/
theorem C100_special (c : Config) (F : Fmt) (x : Nat) (hx : x < 2 ^ width F) (h : mag F x = 0 ∨ infPattern F ≤ mag F x)
    (mem : Buffer) : ∃ bits, IsBinary (width F) x bits ∧
    (match (generalizing := false) F with
      | .b32 => (Ryu.f2s_buffered_n_size_debug c x mem).out
      | .b64 => (Ryu.d2s_buffered_n_size_debug c x mem).out) = "IN=".toList ++ bits ++ "\n".toList := by
  cases F
  · have hx : x < 2 ^ 32 := hx
    obtain ⟨f1, f2, f3⟩ := Ryu.fields32 hx
    obtain ⟨bits, b1, b2⟩ := Ryu.debug_in_out hx
    have hm : mag .b32 x < 2 ^ 31 := Nat.mod_lt _ (by norm_num [width])
    have hi : infPattern .b32 = 255 * 2 ^ 23 := rfl
    refine ⟨bits, b1, ?_⟩
    dsimp only
    unfold Ryu.f2s_buffered_n_size_debug
    dsimp only
    rw [f1, f2, f3, wrap_of_lt hx, Printed.out_bind (Ryu.result_debug_in _ _), b2, if_pos (by omega)]
    exact List.append_nil _
  · have hx : x < 2 ^ 64 := hx
    obtain ⟨f1, f2, f3⟩ := Ryu.fields64 hx
    obtain ⟨bits, b1, b2⟩ := Ryu.debug_in_out hx
    have hm : mag .b64 x < 2 ^ 63 := Nat.mod_lt _ (by norm_num [width])
    have hi : infPattern .b64 = 2047 * 2 ^ 52 := rfl
    refine ⟨bits, b1, ?_⟩
    dsimp only
    unfold Ryu.d2s_buffered_n_size_debug
    dsimp only
    rw [f1, f2, f3, wrap_of_lt hx, Printed.out_bind (Ryu.result_debug_in _ _), b2, if_pos (by omega)]
    exact List.append_nil _

/-- **C100**: on every finite nonzero input the trace shows the bits, the conversion unless the input is a double that is
an integer below `2 ^ 53`, and the significand of the decimal that is printed, its number of digits and the sum of the
exponent and that number, modulo `2 ^ 32`.
What the conversion shows is right for all but two doubles and, without the table for floats, one float. -/
theorem C100_trace (c : Config) (F : Fmt) (x : Nat) (h : FiniteNonzero F x) : ∃ bits conversion s t,
    IsBinary (width F) x bits ∧
    ((F = .b64 ∧ ∃ n : Nat, value F (mag F x) = n ∧ n < 2 ^ 53) → conversion = []) ∧
    (¬ (F = .b64 ∧ ∃ n : Nat, value F (mag F x) = n ∧ n < 2 ^ 53) →
      (match F with
        | .b32 => c.floatTable = true ∨ mag F x ≠ 0x22e2aef2
        | .b64 => mag F x ≠ 0x1d89b2c4d2a82336 ∧ mag F x ≠ 0x705dca94e3990085) →
      IsTrace F (match F with | .b32 => if c.floatTable then 61 else 57 | .b64 => 121) (mag F x) s t conversion) ∧
    ∀ mem : Buffer, (sci (isNeg F x) s t).length ≤ mem.length →
      (match (generalizing := false) F with
        | .b32 => Ryu.f2s_buffered_n_size_debug c x mem
        | .b64 => Ryu.d2s_buffered_n_size_debug c x mem) =
      ⟨"IN=".toList ++ bits ++ "\n".toList ++ conversion ++ "DIGITS=".toList ++ natText s ++ "\nOLEN=".toList ++
        natText (numDigits s) ++ "\nEXP=".toList ++ natText ((t + numDigits s) % 2 ^ 32).toNat ++ "\n".toList,
        .ok ((sci (isNeg F x) s t).map some ++ mem.drop (sci (isNeg F x) s t).length,
          (sci (isNeg F x) s t).length)⟩ := by
  have cfg : Cfg := ⟨true, false⟩
  cases F
  · have hx : x < 2 ^ 32 := h.inRange
    obtain ⟨bits, b1, b2⟩ := Ryu.debug_in_out hx
    obtain ⟨f1, f2, f3⟩ := Ryu.fields32 hx
    have h0 := h.nonzero
    have h1 := h.finite
    have hi : infPattern .b32 = 255 * 2 ^ 23 := rfl
    obtain ⟨s, t, k1, k2, k3⟩ := Ryu.f2d_spec c h0 h1
    have k0 := Ryu.f2d_size_eq c (f := mag .b32 x % 2 ^ 23) (E := mag .b32 x / 2 ^ 23) (Nat.mod_lt _ (by norm_num))
      (by omega) (by omega)
    obtain ⟨g1, g2⟩ := Ryu.same_decimal cfg h k2 k3
    have s0 : 0 < s := (printable h g1).1.pos
    refine ⟨bits, _, s, t, b1, fun g => absurd g.1 (by decide), fun _ g => Ryu.f2d_size_debug_trace_all c h0 h1 g k1, ?_⟩
    intro mem hm
    have hres : (Ryu.f2s_buffered_n_size_debug c x mem).result = _ := (Ryu.f2s_buffered_n_size_debug_result c x mem).trans
      ((C92_float c x mem).trans <| (Ryu.f2s_buffered_n_eq c cfg hx mem).trans (prints_finite h g1 mem hm))
    dsimp only
    rw [Printed.eq_mk hres]
    congr 1
    unfold Ryu.f2s_buffered_n_size_debug
    dsimp only
    rw [f1, f2, f3, wrap_of_lt hx, Printed.out_bind (Ryu.result_debug_in _ _), b2, if_neg (by omega),
      Printed.out_bind ((Ryu.f2d_size_debug_result _ _ _).trans (k0.trans k1))]
    have hl : Ryu.decimalLength9 c s = .ok (numDigits s) := by
      rw [Ryu.decimalLength9_eq c cfg g2]
      exact C36_decimal_length cfg .b32 s s0 g2
    unfold Ryu.f_to_chars_debug
    rw [Ryu.to_chars_out hl hm]
    simp only [List.append_assoc]
    congr 13
  · have hx : x < 2 ^ 64 := h.inRange
    obtain ⟨bits, b1, b2⟩ := Ryu.debug_in_out hx
    obtain ⟨f1, f2, f3⟩ := Ryu.fields64 hx
    have h0 := h.nonzero
    have h1 := h.finite
    have hi : infPattern .b64 = 2047 * 2 ^ 52 := rfl
    have key : ∃ (v : Printed Ryu.FloatingDecimal) (s : Nat) (t : Int), v =
        (match Ryu.d2d_small_int (mag .b64 x % 2 ^ 52) (mag .b64 x / 2 ^ 52) with
          | some v => Printed.run (Ryu.small_int_loop c 18 v)
          | none => Ryu.d2d_size_debug c (mag .b64 x % 2 ^ 52) (mag .b64 x / 2 ^ 52)) ∧
        v.result = .ok ⟨s, t⟩ ∧ Output (fun v => Nearest .b64 PrefEven v (mag .b64 x)) s t ∧
        ClosestAt (fun v => Nearest .b64 PrefEven v (mag .b64 x)) (value .b64 (mag .b64 x)) .tie_to_even s t ∧
        ((∃ n : Nat, value .b64 (mag .b64 x) = n ∧ n < 2 ^ 53) → v.out = []) ∧
        (¬ (∃ n : Nat, value .b64 (mag .b64 x) = n ∧ n < 2 ^ 53) →
          mag .b64 x ≠ 0x1d89b2c4d2a82336 ∧ mag .b64 x ≠ 0x705dca94e3990085 → IsTrace .b64 121 (mag .b64 x) s t v.out) := by
      cases hv : Ryu.d2d_small_int (mag .b64 x % 2 ^ 52) (mag .b64 x / 2 ^ 52) with
      | none =>
        obtain ⟨s, t, k1, k2, k3⟩ := Ryu.d2d_spec c h0 h1
        have k0 := Ryu.d2d_size_eq c (f := mag .b64 x % 2 ^ 52) (E := mag .b64 x / 2 ^ 52) (Nat.mod_lt _ (by norm_num))
          (by omega) (by omega)
        refine ⟨_, s, t, rfl, (Ryu.d2d_size_debug_result _ _ _).trans (k0.trans k1), k2, k3, ?_, 
          fun _ g => Ryu.d2d_size_debug_trace c h0 h1 g.1 g.2 k1⟩
        rintro ⟨n, n1, n2⟩
        exact absurd hv (Ryu.small_int_complete h0 n1 n2)
      | some v =>
        obtain ⟨s, t, k1, k2, k3⟩ := Ryu.small_int_spec c h0 h1 hv
        refine ⟨_, s, t, rfl, k1, k2, k3, fun _ => rfl, fun g => absurd ?_ g⟩
        obtain ⟨-, -, v1, v2, -⟩ := Ryu.small_int_value hv
        exact ⟨_, v2, v1⟩
    obtain ⟨v, s, t, hv, k1, k2, k3, k4, k5⟩ := key
    obtain ⟨g1, g2⟩ := Ryu.same_decimal cfg h k2 k3
    have s0 : 0 < s := (printable h g1).1.pos
    refine ⟨bits, v.out, s, t, b1, fun g => k4 g.2, fun g g' => k5 (fun q => g ⟨rfl, q⟩) g', ?_⟩
    intro mem hm
    have hres : (Ryu.d2s_buffered_n_size_debug c x mem).result = _ := (Ryu.d2s_buffered_n_size_debug_result c x mem).trans
      ((C92_double c x mem).trans <| (Ryu.d2s_buffered_n_eq c cfg hx mem).trans (prints_finite h g1 mem hm))
    dsimp only
    rw [Printed.eq_mk hres]
    congr 1
    unfold Ryu.d2s_buffered_n_size_debug
    dsimp only
    rw [f1, f2, f3, wrap_of_lt hx, Printed.out_bind (Ryu.result_debug_in _ _), b2, if_neg (by omega)]
    have e := Printed.out_bind (f := fun d => Ryu.d_to_chars_debug c d (isNeg .b64 x) mem) k1
    rw [show v >>= (fun d => Ryu.d_to_chars_debug c d (isNeg .b64 x) mem) = _ from congrArg (· >>= _) hv] at e
    refine (congrArg (("IN=".toList ++ bits ++ "\n".toList) ++ ·) e).trans ?_
    have hl : Ryu.decimalLength17 c s = .ok (numDigits s) := by
      rw [Ryu.decimalLength17_eq c cfg g2]
      exact C36_decimal_length cfg .b64 s s0 g2
    unfold Ryu.d_to_chars_debug
    rw [Ryu.to_chars_out hl hm]
    simp only [List.append_assoc]
    congr 13

/-- 1.5 meets the hypotheses of `C100_trace` for both formats; it is not an integer and not one of the three. -/
example : FiniteNonzero .b64 0x3FF8000000000000 ∧ FiniteNonzero .b32 0x3FC00000 ∧
    mag .b64 0x3FF8000000000000 ≠ 0x1d89b2c4d2a82336 ∧ mag .b64 0x3FF8000000000000 ≠ 0x705dca94e3990085 ∧
    mag .b32 0x3FC00000 ≠ 0x22e2aef2 :=
  ⟨⟨by decide, by decide, by decide⟩, ⟨by decide, by decide, by decide⟩, by decide, by decide, by decide⟩

/-- A NaN of each format meets the hypotheses of `C100_special`. -/
example : infPattern .b64 ≤ mag .b64 0xFFF8000000000001 ∧ infPattern .b32 ≤ mag .b32 0x7FC00000 := ⟨by decide, by decide⟩

set_option exponentiation.threshold 1000 in
/-- **C100**: the first of the two doubles.  In every configuration the middle one of the three integers, in units of
`10 ^ -184`, is shown as 2178999185345151730, which is one too small. -/
theorem C100_one_too_small (c : Config) :
    "\nV =2178999185345151730\nV-=2178999185345151580\ne10=-184\n".toList <:+:
      (Ryu.d2s_buffered_n_size_debug c 0x1d89b2c4d2a82336 (List.replicate 25 none)).out ∧
    ⌊value .b64 0x1d89b2c4d2a82336 / 10 ^ (-184 : Int)⌋₊ = 2178999185345151731 := by
  refine ⟨?_, ?_⟩
  · obtain ⟨m, b, f, n⟩ := c
    cases m <;> cases b <;> cases f <;> cases n <;> decide +kernel
  · rw [show value .b64 0x1d89b2c4d2a82336 = 7233432835334966 * 2 ^ (-603 : Int) by norm_num [value, mantBits, ulpExp],
      Nat.floor_eq_iff (by positivity)]
    norm_num

set_option exponentiation.threshold 1000 in
/-- **C100**: the second of the two doubles.  In every configuration the middle one of the three integers, in units of
`10 ^ 215`, is shown as 1850063423920730049, which is one too large. -/
theorem C100_one_too_large (c : Config) :
    "\nV =1850063423920730049\nV-=1850063423920729938\ne10=215\n".toList <:+:
      (Ryu.d2s_buffered_n_size_debug c 0x705dca94e3990085 (List.replicate 25 none)).out ∧
    ⌊value .b64 0x705dca94e3990085 / 10 ^ (215 : Int)⌋₊ = 1850063423920730048 := by
  refine ⟨?_, ?_⟩
  · obtain ⟨m, b, f, n⟩ := c
    cases m <;> cases b <;> cases f <;> cases n <;> decide +kernel
  · rw [show value .b64 0x705dca94e3990085 = 8385515147034757 * 2 ^ (722 : Int) by norm_num [value, mantBits, ulpExp],
      Nat.floor_eq_iff (by positivity)]
    norm_num

/-- **C100**: the float.  Without the table for floats the digit shown after 61442653 is 2 instead of 3. -/
theorem C100_wrong_digit (c : Config) (hf : c.floatTable = false) :
    "\n61442653 2\n".toList <:+: (Ryu.f2s_buffered_n_size_debug c 0x22e2aef2 (List.replicate 16 none)).out ∧
    ⌊value .b32 0x22e2aef2 / 10 ^ (-26 : Int)⌋₊ = 614426533 := by
  refine ⟨?_, ?_⟩
  · obtain ⟨m, b, f, n⟩ := c
    obtain rfl : f = false := hf
    cases m <;> cases b <;> cases n <;> decide +kernel
  · rw [show value .b32 0x22e2aef2 = 14855922 * 2 ^ (-81 : Int) by norm_num [value, mantBits, ulpExp],
      Nat.floor_eq_iff (by positivity)]
    norm_num

/-- A configuration without the table. -/
example : (⟨.uint128, false, false, true⟩ : Config).floatTable = false := rfl

end Grisu
