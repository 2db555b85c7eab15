import Verif.Proofs.RyuSizeMain
import Verif.Properties.Ryu

/-!
# Ryu with `RYU_OPTIMIZE_SIZE`

Property C92.  `Config` is the build configuration of Ryu, as for C68-C72; the functions ending in `_size` are those of a
build with `RYU_OPTIMIZE_SIZE`, which computes its powers of 5 instead of reading them from the large tables.
-/

namespace Grisu

open Spec (FiniteNonzero RoundsTo isNeg mag value dec numDigits sci maxText width Prints)
open Ryu (Config)

/-! ## C92 -/

/-- **C92**: with `RYU_OPTIMIZE_SIZE`, `d2s_buffered_n` has the same effect as without, on every input and every array. -/
theorem C92_double (c : Config) (x : Nat) (mem : Buffer) :
    Ryu.d2s_buffered_n_size c x mem = Ryu.d2s_buffered_n c x mem := by
  have hf : wrap 64 x &&& (2 ^ 52 - 1) < 2 ^ 52 := by
    rw [Nat.and_two_pow_sub_one_eq_mod]
    exact Nat.mod_lt _ (Nat.two_pow_pos 52)
  have hE : wrap 32 (wrap 64 x / 2 ^ 52 &&& (2 ^ 11 - 1)) < 2048 := by
    rw [Nat.and_two_pow_sub_one_eq_mod]
    unfold wrap
    omega
  unfold Ryu.d2s_buffered_n_size Ryu.d2s_buffered_n
  dsimp only
  split
  · rfl
  · rename_i h
    rw [Ryu.d2d_size_eq c hf (by omega) (by omega)]
    cases Ryu.d2d_small_int (wrap 64 x &&& (2 ^ 52 - 1)) (wrap 32 (wrap 64 x / 2 ^ 52 &&& (2 ^ 11 - 1))) <;> rfl

/-- **C92**: with `RYU_OPTIMIZE_SIZE`, `f2s_buffered_n` has the same effect as without, on every input and every array. -/
theorem C92_float (c : Config) (x : Nat) (mem : Buffer) :
    Ryu.f2s_buffered_n_size c x mem = Ryu.f2s_buffered_n c x mem := by
  have hf : wrap 32 x &&& (2 ^ 23 - 1) < 2 ^ 23 := by
    rw [Nat.and_two_pow_sub_one_eq_mod]
    exact Nat.mod_lt _ (Nat.two_pow_pos 23)
  have hE : wrap 32 x / 2 ^ 23 &&& (2 ^ 8 - 1) < 256 := by
    rw [Nat.and_two_pow_sub_one_eq_mod]
    exact Nat.mod_lt _ (by norm_num)
  unfold Ryu.f2s_buffered_n_size Ryu.f2s_buffered_n
  dsimp only
  split
  · rfl
  · rename_i h
    rw [Ryu.f2d_size_eq c hf (by omega) (by omega)]

/-- **C92** for the variants that add a NUL or allocate the array. -/
theorem C92_terminated (c : Config) (x : Nat) (mem : Buffer) :
    Ryu.d2s_buffered_size c x mem = Ryu.d2s_buffered c x mem ∧ Ryu.d2s_size c x = Ryu.d2s c x ∧
    Ryu.f2s_buffered_size c x mem = Ryu.f2s_buffered c x mem ∧ Ryu.f2s_size c x = Ryu.f2s c x := by
  have d : ∀ mem, Ryu.d2s_buffered_size c x mem = Ryu.d2s_buffered c x mem := fun mem => by
    unfold Ryu.d2s_buffered_size Ryu.d2s_buffered
    rw [C92_double]
  have f : ∀ mem, Ryu.f2s_buffered_size c x mem = Ryu.f2s_buffered c x mem := fun mem => by
    unfold Ryu.f2s_buffered_size Ryu.f2s_buffered
    rw [C92_float]
  exact ⟨d mem, d _, f mem, f _⟩

/-- **C92**: hence the decimals of such a build read back as the input, are as short as possible, and closest among
those as short. -/
theorem C92_decimal (c : Config) (F : Fmt) (x : Nat) (h : FiniteNonzero F x) : ∃ s t,
    (∀ mem : Buffer, (sci (isNeg F x) s t).length ≤ mem.length →
      (match (generalizing := false) F with
        | .b32 => Ryu.f2s_buffered_n_size c x mem | .b64 => Ryu.d2s_buffered_n_size c x mem) =
        .ok ((sci (isNeg F x) s t).map some ++ mem.drop (sci (isNeg F x) s t).length,
          (sci (isNeg F x) s t).length)) ∧
    RoundsTo F .nearest_to_even (isNeg F x) (dec s t) (mag F x) ∧
    (∀ s' t', RoundsTo F .nearest_to_even (isNeg F x) (dec s' t') (mag F x) → numDigits s ≤ numDigits s') ∧
    (∀ s' t', RoundsTo F .nearest_to_even (isNeg F x) (dec s' t') (mag F x) → numDigits s' ≤ numDigits s →
      |dec s t - value F (mag F x)| ≤ |dec s' t' - value F (mag F x)| ∧
      ((s', t') ≠ (s, t) → |dec s t - value F (mag F x)| = |dec s' t' - value F (mag F x)| → s % 2 = 0)) := by
  obtain ⟨s, t, h1, h2⟩ := C69_decimal c F x h
  refine ⟨s, t, fun mem hm => ?_, h2⟩
  have := h1 mem hm
  cases F
  · dsimp only at this ⊢
    rw [C92_float, this]
  · dsimp only at this ⊢
    rw [C92_double, this]

/-- **C92**: and the program that compares Ryu's text with the library's would find them equal for such a build as
well. -/
theorem C92_same_text (c : Config) (cfg : Cfg) (x : Nat) (mem : Buffer) :
    (x < 2 ^ 64 → Ryu.d2s_buffered_n_size c x mem = fp_to_chars_n cfg .b64 x mem .nearest_to_even .tie_to_even) ∧
    (x < 2 ^ 32 → Ryu.f2s_buffered_n_size c x mem = fp_to_chars_n cfg .b32 x mem .nearest_to_even .tie_to_even) :=
  ⟨fun hx => (C92_double c x mem).trans (C70_double c cfg x mem hx),
    fun hx => (C92_float c x mem).trans (C70_float c cfg x mem hx)⟩

/-! The texts agree although the computed powers are shorter than the stored ones and the third step differs. -/

-- 21789991853451517e-182: the scaled number is one too small, at a digit that is not printed
example : Ryu.d_step3_neg_size ⟨.uint128, false, false, false⟩ 7233432835334966 (-605) 1 true ≠
    Ryu.d_step3_neg ⟨.uint128, false, false, false⟩ 7233432835334966 (-605) 1 true := by decide +kernel
-- 185006342392073e219: it is one too large
example : Ryu.d_step3_pos_size ⟨.uint128, false, false, false⟩ 8385515147034757 720 1 false ≠
    Ryu.d_step3_pos ⟨.uint128, false, false, false⟩ 8385515147034757 720 1 false := by decide +kernel
-- a `float` whose digit behind the point is 8 instead of 9
example : Ryu.f_step3_neg_size ⟨.uint128, false, false, false⟩ 15980504 (-115) 1 true ≠
    Ryu.f_step3_neg ⟨.uint128, false, false, false⟩ 15980504 (-115) 1 true := by decide +kernel

-- the smallest and the largest `double`, and 0.1f
example : Ryu.d2s_buffered_n_size ⟨.portable, true, false, false⟩ 1 (List.replicate 6 none) =
    .ok ("5E-324".toList.map some, 6) := by decide +kernel
example : Ryu.d2s_buffered_n_size ⟨.uint128, false, false, false⟩ 0x7fefffffffffffff (List.replicate 22 none) =
    .ok ("1.7976931348623157E308".toList.map some, 22) := by decide +kernel
example : Ryu.f2s_buffered_n_size ⟨.intrinsics, false, false, true⟩ 0xbdcccccd (List.replicate 5 none) =
    .ok ("-1E-1".toList.map some, 5) := by decide +kernel

end Grisu
