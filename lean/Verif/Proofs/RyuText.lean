import Verif.Proofs.RyuSmallInt
import Verif.Proofs.Printing

/-!
# Ryu: printing

`to_chars` of Ryu and `fp_to_chars_impl` perform the same writes.
-/

namespace Grisu

theorem Exec.bind_assoc {α β γ : Type} (x : Exec α) (f : α → Exec β) (g : β → Exec γ) :
    (x >>= f) >>= g = x >>= fun a => f a >>= g := by
  cases x <;> rfl

theorem Exec.bind_congr {α β : Type} {x y : Exec α} {f g : α → Exec β} (h : x = y) (hf : ∀ a, f a = g a) :
    x >>= f = y >>= g := by
  rw [h, funext hf]

end Grisu

namespace Grisu.Ryu

open Spec

theorem digit_table_eq : DIGIT_TABLE = radix_100_table := by decide +kernel

theorem digit_at_eq (i : Nat) : digit_at i = radix_at i := by
  unfold digit_at at_ radix_at
  rw [digit_table_eq]
  cases radix_100_table[i]? <;> rfl

theorem copyDigits_eq (mem : Buffer) (i : Int) (t : Nat) : copyDigits mem i t = copy2 mem i t := by
  unfold copyDigits copy2
  simp only [digit_at_eq]

theorem print4_eq (index : Int) (olength fuel : Nat) (mem : Buffer) (o i : Nat) :
    print4 index olength fuel mem o i = print_loop index olength fuel mem o i := by
  induction fuel generalizing mem o i with
  | zero => rfl
  | succ fuel ih =>
    rw [print4, print_loop]
    simp only [copyDigits_eq, ih]

theorem print_end_eq (mem : Buffer) (index : Int) (olength o i : Nat) :
    print_end mem index olength o i = print_rest mem index olength o i >>= fun mem =>
      (if olength > 1 then do
        let mem ← put mem (index + 1) '.'
        .ok (mem, index + olength + 1)
      else .ok (mem, index + 1) : Exec (Buffer × Int)) := by
  unfold print_end print_rest
  simp only [copyDigits_eq, digit_at_eq]
  rw [Exec.bind_assoc]

theorem decimalLength17_eq (c : Config) (cfg : Cfg) {s : Nat} (h : s < 10 ^ 17) :
    decimalLength17 c s = decimal_length cfg .b64 s := by
  unfold decimalLength17 decimal_length rassert
  dsimp only
  rw [cassert_true (by simpa using h), if_pos (by simp; right; simpa using h)]

theorem decimalLength9_eq (c : Config) (cfg : Cfg) {s : Nat} (h : s < 10 ^ 9) :
    decimalLength9 c s = decimal_length cfg .b32 s := by
  unfold decimalLength9 decimal_length rassert
  dsimp only
  rw [cassert_true (by simpa using h), if_pos (by simp; right; simpa using h)]

theorem f_to_chars_eq (c : Config) (cfg : Cfg) {s : Nat} (t : Int) (sign : Bool) (mem : Buffer) (h : s < 10 ^ 9) :
    f_to_chars c ⟨s, t⟩ sign mem =
      put_sign mem sign >>= fun (mem, buf) => fp_to_chars_impl cfg .b32 s t mem buf := by
  unfold f_to_chars
  refine Exec.bind_congr rfl ?_
  rintro ⟨mem, index⟩
  unfold fp_to_chars_impl
  dsimp only
  refine Exec.bind_congr (decimalLength9_eq c cfg h) ?_
  intro olength
  simp only [print_high, Exec.ok_bind]
  rw [wrap_of_lt (by omega)]
  refine Exec.bind_congr (print4_eq _ _ _ _ _ _) ?_
  rintro ⟨mem, o, i⟩
  dsimp only
  rw [print_end_eq, Exec.bind_assoc]
  refine Exec.bind_congr rfl ?_
  intro mem
  refine Exec.bind_congr rfl ?_
  rintro ⟨mem, index⟩
  refine Exec.bind_congr rfl ?_
  intro mem
  simp only [copyDigits_eq]
  split
  · rw [Exec.bind_assoc]
    rfl
  · rfl

theorem d_to_chars_eq (c : Config) (cfg : Cfg) {s : Nat} (t : Int) (sign : Bool) (mem : Buffer) (h : s < 10 ^ 17) :
    d_to_chars c ⟨s, t⟩ sign mem =
      put_sign mem sign >>= fun (mem, buf) => fp_to_chars_impl cfg .b64 s t mem buf := by
  unfold d_to_chars
  refine Exec.bind_congr rfl ?_
  rintro ⟨mem, index⟩
  unfold fp_to_chars_impl
  dsimp only
  refine Exec.bind_congr (decimalLength17_eq c cfg h) ?_
  intro olength
  refine Exec.bind_congr ?_ ?_
  · unfold print_high rem32
    simp only [copyDigits_eq, div1e8_eq c (show s < 2 ^ 64 by omega), sub_zero]
  rintro ⟨mem, o, i⟩
  refine Exec.bind_congr (print4_eq _ _ _ _ _ _) ?_
  rintro ⟨mem, o, i⟩
  dsimp only
  rw [print_end_eq, Exec.bind_assoc]
  refine Exec.bind_congr rfl ?_
  intro mem
  refine Exec.bind_congr rfl ?_
  rintro ⟨mem, index⟩
  refine Exec.bind_congr rfl ?_
  intro mem
  simp only [copyDigits_eq]
  split
  · rw [Exec.bind_assoc]
    rfl
  · rfl

/-! ## The calls -/

theorem fields64 {x : Nat} (hx : x < 2 ^ 64) : decide (wrap 64 x / 2 ^ 63 &&& 1 ≠ 0) = isNeg .b64 x ∧
    wrap 64 x &&& (2 ^ 52 - 1) = mag .b64 x % 2 ^ 52 ∧
    wrap 32 (wrap 64 x / 2 ^ 52 &&& (2 ^ 11 - 1)) = mag .b64 x / 2 ^ 52 := by
  rw [wrap_of_lt hx, Nat.and_two_pow_sub_one_eq_mod, Nat.and_two_pow_sub_one_eq_mod, Nat.and_one_is_mod]
  unfold isNeg mag width wrap
  dsimp only
  refine ⟨?_, by omega, by omega⟩
  rw [decide_eq_decide]
  omega

theorem fields32 {x : Nat} (hx : x < 2 ^ 32) : decide (wrap 32 x / 2 ^ 31 &&& 1 ≠ 0) = isNeg .b32 x ∧
    wrap 32 x &&& (2 ^ 23 - 1) = mag .b32 x % 2 ^ 23 ∧
    wrap 32 x / 2 ^ 23 &&& (2 ^ 8 - 1) = mag .b32 x / 2 ^ 23 := by
  rw [wrap_of_lt hx, Nat.and_two_pow_sub_one_eq_mod, Nat.and_two_pow_sub_one_eq_mod, Nat.and_one_is_mod]
  unfold isNeg mag width
  dsimp only
  refine ⟨?_, by omega, by omega⟩
  rw [decide_eq_decide]
  omega

/-- `fp_to_chars_n` by cases. -/
theorem fp_to_chars_n_cases (cfg : Cfg) {F : Fmt} {x : Nat} (hx : x < 2 ^ width F) (mem : Buffer)
    (mode : RoundingMode) (crs : Crs) : fp_to_chars_n cfg F x mem mode crs =
      if mag F x < infPattern F then
        put_sign mem (isNeg F x) >>= fun (mem, buf) =>
          if 0 < mag F x then
            grisu_exact cfg F false x mode crs .assert_finite >>= fun v =>
              fp_to_chars_impl cfg F v.significand v.exponent mem buf
          else putList mem buf ['0', 'E', '0'] >>= fun mem => .ok (mem, buf + 3)
      else if infPattern F < mag F x then putList mem 0 ['N', 'a', 'N'] >>= fun mem => .ok (mem, 3)
      else put_sign mem (isNeg F x) >>= fun (mem, buf) =>
        putList mem buf ['I', 'n', 'f', 'i', 'n', 'i', 't', 'y'] >>= fun mem => .ok (mem, buf + 8) := by
  obtain ⟨c1, c2, -, -, -, -, -, -, -, c10, -, -⟩ := C27_classification F x hx
  unfold fp_to_chars_n
  rw [(C28_bits F x hx).1]
  dsimp only
  by_cases hf : mag F x < infPattern F
  · rw [if_pos (c1.mpr hf), if_pos hf, c10]
    refine Exec.bind_congr rfl ?_
    rintro ⟨mem, buf⟩
    dsimp only
    by_cases h0 : 0 < mag F x
    · rw [if_pos (c2.mpr (by omega)), if_pos h0]
    · rw [if_neg (mt c2.mp (by omega)), if_neg h0]
  · rw [if_neg (mt c1.mp hf), if_neg hf, c10]
    by_cases hn : infPattern F < mag F x
    · rw [if_pos ((shl_fields hx hf).mpr hn), if_pos hn]
    · rw [if_neg (mt (shl_fields hx hf).mp hn), if_neg hn]

theorem copy_special_eq (mem : Buffer) (sign exponent mantissa : Bool) :
    copy_special_str mem sign exponent mantissa =
      if mantissa then putList mem 0 ['N', 'a', 'N'] >>= fun mem => .ok (mem, 3)
      else put_sign mem sign >>= fun (mem, buf) =>
        if exponent then
          putList mem buf ['I', 'n', 'f', 'i', 'n', 'i', 't', 'y'] >>= fun mem => .ok (mem, buf + 8)
        else putList mem buf ['0', 'E', '0'] >>= fun mem => .ok (mem, buf + 3) := by
  unfold copy_special_str put_sign
  cases mantissa <;> cases sign <;> cases exponent <;> simp [Exec.bind_assoc]

/-- Ryu's decimal is the one of `grisu_exact`. -/
theorem same_decimal (cfg : Cfg) {F : Fmt} {x s : Nat} {t : Int} (h : FiniteNonzero F x)
    (o : Output (fun v => Nearest F PrefEven v (mag F x)) s t)
    (cl : ClosestAt (fun v => Nearest F PrefEven v (mag F x)) (value F (mag F x)) .tie_to_even s t) :
    grisu_exact cfg F false x .nearest_to_even .tie_to_even .assert_finite = .ok ⟨s, t, none⟩ ∧
      s < 10 ^ maxDigits F := by
  obtain ⟨s', t', h1, h2, h3, -⟩ := main_nearest cfg false .assert_finite h (mode := .nearest_to_even)
    (crs := .tie_to_even) rfl (by decide)
  have hI : Interval? (Reads F .nearest_to_even x) := by
    rw [reads_eq h]
    exact interval? _ (FiniteNonzero.input h)
  obtain ⟨rfl, rfl⟩ := ClosestAt.unique hI (by decide) o h2 cl h3
  exact ⟨h1, (printable h h1).1.digits⟩

theorem d2s_buffered_n_eq (c : Config) (cfg : Cfg) {x : Nat} (hx : x < 2 ^ 64) (mem : Buffer) :
    d2s_buffered_n c x mem = fp_to_chars_n cfg .b64 x mem .nearest_to_even .tie_to_even := by
  obtain ⟨f1, f2, f3⟩ := fields64 hx
  unfold d2s_buffered_n
  dsimp only
  rw [f1, f2, f3, fp_to_chars_n_cases cfg (F := .b64) hx]
  have hi : infPattern .b64 = 2047 * 2 ^ 52 := rfl
  have hm : mag .b64 x < 2 ^ 63 := Nat.mod_lt _ (by norm_num [width])
  by_cases hs : mag .b64 x / 2 ^ 52 = 2 ^ 11 - 1 ∨ (mag .b64 x / 2 ^ 52 = 0 ∧ mag .b64 x % 2 ^ 52 = 0)
  · rw [if_pos hs, copy_special_eq]
    by_cases hf : mag .b64 x < infPattern .b64
    · have h0 : mag .b64 x = 0 := by omega
      rw [if_pos hf, h0]
      rfl
    · rw [if_neg hf]
      by_cases hn : infPattern .b64 < mag .b64 x
      · rw [if_pos hn, if_pos (by simp; omega)]
      · rw [if_neg hn, if_neg (by simp; omega)]
        refine Exec.bind_congr rfl ?_
        rintro ⟨mem, buf⟩
        dsimp only
        rw [if_pos (by simp; omega)]
  · rw [if_neg hs]
    have h0 : 0 < mag .b64 x := by omega
    have h1 : mag .b64 x < infPattern .b64 := by omega
    have fin : FiniteNonzero .b64 x := ⟨hx, h0, h1⟩
    have key : ∃ s t, (match d2d_small_int (mag .b64 x % 2 ^ 52) (mag .b64 x / 2 ^ 52) with
        | some v => small_int_loop c 18 v
        | none => d2d c (mag .b64 x % 2 ^ 52) (mag .b64 x / 2 ^ 52)) = .ok ⟨s, t⟩ ∧
        Output (fun v => Nearest .b64 PrefEven v (mag .b64 x)) s t ∧
        ClosestAt (fun v => Nearest .b64 PrefEven v (mag .b64 x)) (value .b64 (mag .b64 x)) .tie_to_even s t := by
      cases hv : d2d_small_int (mag .b64 x % 2 ^ 52) (mag .b64 x / 2 ^ 52) with
      | none => exact d2d_spec c h0 h1
      | some v => exact small_int_spec c h0 h1 hv
    obtain ⟨s, t, k1, k2, k3⟩ := key
    obtain ⟨g1, g2⟩ := same_decimal cfg fin k2 k3
    have pull : (match d2d_small_int (mag .b64 x % 2 ^ 52) (mag .b64 x / 2 ^ 52) with
        | some v => do
          let v ← small_int_loop c 18 v
          d_to_chars c v (isNeg .b64 x) mem
        | none => do
          let v ← d2d c (mag .b64 x % 2 ^ 52) (mag .b64 x / 2 ^ 52)
          d_to_chars c v (isNeg .b64 x) mem) = d_to_chars c ⟨s, t⟩ (isNeg .b64 x) mem := by
      cases hv : d2d_small_int (mag .b64 x % 2 ^ 52) (mag .b64 x / 2 ^ 52) with
      | none =>
        rw [hv] at k1
        dsimp only at k1 ⊢
        rw [k1, Exec.ok_bind]
      | some v =>
        rw [hv] at k1
        dsimp only at k1 ⊢
        rw [k1, Exec.ok_bind]
    refine pull.trans ?_
    rw [if_pos h1, d_to_chars_eq c cfg t _ _ g2]
    refine Exec.bind_congr rfl ?_
    rintro ⟨mem, buf⟩
    dsimp only
    rw [if_pos h0, g1]
    rfl

theorem f2s_buffered_n_eq (c : Config) (cfg : Cfg) {x : Nat} (hx : x < 2 ^ 32) (mem : Buffer) :
    f2s_buffered_n c x mem = fp_to_chars_n cfg .b32 x mem .nearest_to_even .tie_to_even := by
  obtain ⟨f1, f2, f3⟩ := fields32 hx
  unfold f2s_buffered_n
  dsimp only
  rw [f1, f2, f3, fp_to_chars_n_cases cfg (F := .b32) hx]
  have hi : infPattern .b32 = 255 * 2 ^ 23 := rfl
  have hm : mag .b32 x < 2 ^ 31 := Nat.mod_lt _ (by norm_num [width])
  by_cases hs : mag .b32 x / 2 ^ 23 = 2 ^ 8 - 1 ∨ (mag .b32 x / 2 ^ 23 = 0 ∧ mag .b32 x % 2 ^ 23 = 0)
  · rw [if_pos hs, copy_special_eq]
    by_cases hf : mag .b32 x < infPattern .b32
    · have h0 : mag .b32 x = 0 := by omega
      rw [if_pos hf, h0]
      rfl
    · rw [if_neg hf]
      by_cases hn : infPattern .b32 < mag .b32 x
      · rw [if_pos hn, if_pos (by simp; omega)]
      · rw [if_neg hn, if_neg (by simp; omega)]
        refine Exec.bind_congr rfl ?_
        rintro ⟨mem, buf⟩
        dsimp only
        rw [if_pos (by simp; omega)]
  · rw [if_neg hs]
    have h0 : 0 < mag .b32 x := by omega
    have h1 : mag .b32 x < infPattern .b32 := by omega
    have fin : FiniteNonzero .b32 x := ⟨hx, h0, h1⟩
    obtain ⟨s, t, k1, k2, k3⟩ := f2d_spec c h0 h1
    obtain ⟨g1, g2⟩ := same_decimal cfg fin k2 k3
    rw [k1, if_pos h1, Exec.ok_bind, f_to_chars_eq c cfg t _ _ g2]
    refine Exec.bind_congr rfl ?_
    rintro ⟨mem, buf⟩
    dsimp only
    rw [if_pos h0, g1]
    rfl

end Grisu.Ryu
