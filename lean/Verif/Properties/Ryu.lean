import Verif.Proofs.RyuText
import Verif.Model.UniformTest
import Verif.Properties.Text
import Verif.Proofs.Logs

/-!
# Ryu, the reference the tests compare with

Properties C68-C72.  `Config` is the build configuration of Ryu: which 64-bit multiplication is available, whether the
platform is a 32-bit one, whether the table for `float` is used, and whether asserts are compiled out.
-/

namespace Grisu

open Spec (FiniteNonzero RoundsTo isNeg mag value dec numDigits sci maxText readText infPattern width Prints
  IsTruncating IsFloorLog)
open Ryu (Config DOUBLE_POW5_INV_SPLIT DOUBLE_POW5_SPLIT FLOAT_POW5_INV_SPLIT FLOAT_POW5_SPLIT)

/-! ## C68 -/

/-- The number of bits of `n`. -/
def numBits (n : Nat) : Nat := Nat.log2 n + 1

set_option maxRecDepth 10000 in
/-- **C68**: each entry of `DOUBLE_POW5_INV_SPLIT` is `⌊2^k / 5^q⌋ + 1`, with `k` the length of `5^q` plus 124, and the
table covers `q = 0, ..., 341`. -/
theorem C68_double_inv : DOUBLE_POW5_INV_SPLIT.map (fun w => w.1 + 2 ^ 64 * w.2) =
    (List.range 342).map fun q => 2 ^ (numBits (5 ^ q) + 124) / 5 ^ q + 1 := by decide +kernel

set_option maxRecDepth 10000 in
/-- **C68**: each entry of `DOUBLE_POW5_SPLIT` consists of the leading 125 bits of `5^i` (followed by zeros if there are
fewer); the table covers `i = 0, ..., 325`. -/
theorem C68_double_pow : DOUBLE_POW5_SPLIT.map (fun w => w.1 + 2 ^ 64 * w.2) =
    (List.range 326).map fun i => 5 ^ i * 2 ^ 125 / 2 ^ numBits (5 ^ i) := by decide +kernel

/-- **C68**: the same for `FLOAT_POW5_INV_SPLIT`, with 58 in place of 124. -/
theorem C68_float_inv : FLOAT_POW5_INV_SPLIT =
    (List.range 55).map fun q => 2 ^ (numBits (5 ^ q) + 58) / 5 ^ q + 1 := by decide +kernel

/-- **C68**: the same for `FLOAT_POW5_SPLIT`, with 61 in place of 125. -/
theorem C68_float_pow : FLOAT_POW5_SPLIT =
    (List.range 47).map fun i => 5 ^ i * 2 ^ 61 / 2 ^ numBits (5 ^ i) := by decide +kernel

set_option maxRecDepth 10000 in
/-- **C68**: every word fits in 64 bits. -/
theorem C68_words : (∀ w ∈ DOUBLE_POW5_INV_SPLIT ++ DOUBLE_POW5_SPLIT, w.1 < 2 ^ 64 ∧ w.2 < 2 ^ 64) ∧
    ∀ w ∈ FLOAT_POW5_INV_SPLIT ++ FLOAT_POW5_SPLIT, w < 2 ^ 64 := by decide +kernel

example : numBits (5 ^ 10) = 24 ∧ DOUBLE_POW5_SPLIT[10]? = some (0, 5 ^ 10 * 2 ^ 61 / 2 ^ 24) := by decide +kernel

/-! ## C69 -/

/-- **C69**: on every finite nonzero input and in every configuration, `d2s_buffered_n` (`f2s_buffered_n`) returns and
writes a decimal that reads back as the input, has as few digits as possible, and among those with as few digits is the
closest to the input, with an even significand if there are two. -/
theorem C69_decimal (c : Config) (F : Fmt) (x : Nat) (h : FiniteNonzero F x) : ∃ s t,
    (∀ mem : Buffer, (sci (isNeg F x) s t).length ≤ mem.length →
      (match (generalizing := false) F with | .b32 => Ryu.f2s_buffered_n c x mem | .b64 => Ryu.d2s_buffered_n c x mem) =
        .ok ((sci (isNeg F x) s t).map some ++ mem.drop (sci (isNeg F x) s t).length,
          (sci (isNeg F x) s t).length)) ∧
    RoundsTo F .nearest_to_even (isNeg F x) (dec s t) (mag F x) ∧
    (∀ s' t', RoundsTo F .nearest_to_even (isNeg F x) (dec s' t') (mag F x) → numDigits s ≤ numDigits s') ∧
    (∀ s' t', RoundsTo F .nearest_to_even (isNeg F x) (dec s' t') (mag F x) → numDigits s' ≤ numDigits s →
      |dec s t - value F (mag F x)| ≤ |dec s' t' - value F (mag F x)| ∧
      ((s', t') ≠ (s, t) → |dec s t - value F (mag F x)| = |dec s' t' - value F (mag F x)| → s % 2 = 0)) := by
  obtain ⟨r, h1, h2⟩ := C02_roundtrip_nearest ⟨true, false⟩ F false x .nearest_to_even .tie_to_even .assert_finite h rfl
  obtain ⟨r', h1', h3⟩ := C03_shortest_nearest ⟨true, false⟩ F false x .nearest_to_even .tie_to_even .assert_finite h rfl
  obtain rfl : r = r' := Exec.ok.inj (h1.symm.trans h1')
  obtain ⟨r', h1', h4⟩ := C04_closest_nearest ⟨true, false⟩ F false x .nearest_to_even .tie_to_even .assert_finite h rfl
    (by decide)
  obtain rfl : r = r' := Exec.ok.inj (h1.symm.trans h1')
  obtain ⟨r', h1', h5⟩ := C05_tie_policy ⟨true, false⟩ F false x .nearest_to_even .tie_to_even .assert_finite h rfl
    (by decide)
  obtain rfl : r = r' := Exec.ok.inj (h1.symm.trans h1')
  refine ⟨r.significand, r.exponent, ?_, h2, h3, fun s' t' g1 g2 => ⟨h4 s' t' g1 g2, fun g3 g4 =>
    (h5 s' t' g1 g2 g3 g4).2.1 rfl⟩⟩
  intro mem hm
  have hx := h.inRange
  have := prints_finite h h1 mem hm
  cases F
  · dsimp only
    rw [Ryu.f2s_buffered_n_eq c ⟨true, false⟩ hx]
    exact this
  · dsimp only
    rw [Ryu.d2s_buffered_n_eq c ⟨true, false⟩ hx]
    exact this

-- the least normal double on a 32-bit platform without wide multiplication, and an integer
example : FiniteNonzero .b64 0x0010000000000000 := ⟨by decide, by decide, by decide⟩
example : Ryu.d2s_buffered_n ⟨.portable, true, false, false⟩ 0x0010000000000000 (List.replicate 24 none) =
    .ok ("2.2250738585072014E-308".toList.map some ++ [none], 23) := by decide +kernel
example : Ryu.d2s_buffered_n ⟨.uint128, false, false, false⟩ 0xC0FE208000000000 (List.replicate 8 none) =
    .ok ("-1.234E5".toList.map some, 8) := by decide +kernel
example : Ryu.f2s_buffered_n ⟨.uint128, false, true, false⟩ 0x00000001 (List.replicate 5 none) =
    .ok ("1E-45".toList.map some, 5) := by decide +kernel

/-! ## C70 -/

/-- **C70**: on every bit pattern, in every configuration of the two libraries and whatever the buffer,
`d2s_buffered_n` does what `fp_to_chars_n` does in its default modes: the same bytes, the same length, or a write outside
the buffer at the same place. -/
theorem C70_double (c : Config) (cfg : Cfg) (x : Nat) (mem : Buffer) (hx : x < 2 ^ 64) :
    Ryu.d2s_buffered_n c x mem = fp_to_chars_n cfg .b64 x mem .nearest_to_even .tie_to_even :=
  Ryu.d2s_buffered_n_eq c cfg hx mem

/-- **C70** for `float`. -/
theorem C70_float (c : Config) (cfg : Cfg) (x : Nat) (mem : Buffer) (hx : x < 2 ^ 32) :
    Ryu.f2s_buffered_n c x mem = fp_to_chars_n cfg .b32 x mem .nearest_to_even .tie_to_even :=
  Ryu.f2s_buffered_n_eq c cfg hx mem

/-- **C70** for the variants that add a NUL. -/
theorem C70_terminated (c : Config) (cfg : Cfg) (F : Fmt) (x : Nat) (mem : Buffer) (hx : x < 2 ^ width F) :
    (match (generalizing := false) F with | .b32 => Ryu.f2s_buffered c x mem | .b64 => Ryu.d2s_buffered c x mem) =
      (fp_to_chars cfg F x mem .nearest_to_even .tie_to_even >>= fun r => .ok r.1) := by
  cases F
  · dsimp only
    unfold Ryu.f2s_buffered fp_to_chars
    rw [Ryu.f2s_buffered_n_eq c cfg hx]
    cases fp_to_chars_n cfg .b32 x mem .nearest_to_even .tie_to_even with
    | fault f => rfl
    | ok r =>
      obtain ⟨m, p⟩ := r
      simp only [Exec.ok_bind]
      cases put m p (Char.ofNat 0) <;> rfl
  · dsimp only
    unfold Ryu.d2s_buffered fp_to_chars
    rw [Ryu.d2s_buffered_n_eq c cfg hx]
    cases fp_to_chars_n cfg .b64 x mem .nearest_to_even .tie_to_even with
    | fault f => rfl
    | ok r =>
      obtain ⟨m, p⟩ := r
      simp only [Exec.ok_bind]
      cases put m p (Char.ofNat 0) <;> rfl

-- a NaN, and a buffer that is too short
example : Ryu.d2s_buffered_n ⟨.intrinsics, false, false, false⟩ 0xFFF0000000000001 (List.replicate 4 none) =
    .ok ([some 'N', some 'a', some 'N', none], 3) := by decide +kernel
example : Ryu.f2s_buffered_n ⟨.portable, true, false, false⟩ 0x40490FDB (List.replicate 8 none) =
    .fault .outOfBounds := by decide +kernel

/-! ## C71 -/

/-- What `fp_to_chars` leaves in a buffer reads as its text. -/
theorem string_view_spec : ∀ (text : List Char) (rest : Buffer), (∀ ch ∈ text, ch ≠ '\x00') →
    string_view ((text ++ ['\x00']).map some ++ rest) = .ok text
  | [], _, _ => rfl
  | ch :: text, rest, h => by
    have ih := string_view_spec text rest fun c hc => h c (List.mem_cons_of_mem _ hc)
    show (if ch = Char.ofNat 0 then Exec.ok [] else do
      let view ← string_view ((text ++ ['\x00']).map some ++ rest)
      .ok (ch :: view)) = _
    rw [if_neg (h ch (List.mem_cons_self ..)), ih]
    rfl

theorem uniform_random_loop_spec (cfg : Cfg) (c : Config) (F : Fmt) : ∀ (xs : List Nat) (b1 b2 : Buffer),
    (∀ x ∈ xs, x < 2 ^ width F) → maxText F + 1 ≤ b1.length → maxText F + 1 ≤ b2.length →
    uniform_random_loop cfg c F xs b1 b2 true = .ok true
  | [], _, _, _, _, _ => rfl
  | x :: xs, b1, b2, h, h1, h2 => by
    have hx := h x (List.mem_cons_self ..)
    have hm : FiniteNonzero F x → IsTruncating (isNeg F x) .nearest_to_even = false ∨
        ¬ (Spec.ZeroDivisibility F x ∧ (cfg.x64 = true ∨ cfg.ndebug = false)) := fun _ => Or.inl rfl
    obtain ⟨text, hl, hn, e1, -⟩ := C34_no_nul cfg F x .nearest_to_even .tie_to_even hx hm b1 h1
    obtain ⟨text', hl', hn', e2, -⟩ := C34_no_nul cfg F x .nearest_to_even .tie_to_even hx hm b2 h2
    obtain ⟨t0, p0, q0, -⟩ := prints_some cfg F x .nearest_to_even .tie_to_even hx hm
    have f1 := C34_terminated _ _ _ _ _ _ p0 b1 (by omega)
    have f2 := C34_terminated _ _ _ _ _ _ p0 b2 (by omega)
    have e3 : ryu_buffered c F x b2 = .ok ((t0 ++ ['\x00']).map some ++ b2.drop (t0.length + 1)) := by
      have := C70_terminated c cfg F x b2 hx
      rw [f2, Exec.ok_bind] at this
      cases F <;> exact this
    have hn0 : ∀ ch ∈ t0, ch ≠ '\x00' := by
      have : t0 = text := by
        rw [f1] at e1
        simp only [Exec.ok.injEq, Prod.mk.injEq, Nat.cast_inj] at e1
        have l := e1.2
        have e := e1.1
        rw [l] at e
        have e := List.append_cancel_right e
        have e := List.map_injective_iff.mpr (Option.some_injective _) e
        exact List.append_cancel_right e
      rw [this]; exact hn
    rw [uniform_random_loop, f1]
    simp only [Exec.ok_bind]
    rw [e3]
    simp only [Exec.ok_bind]
    rw [string_view_spec _ _ hn0, string_view_spec _ _ hn0]
    simp only [Exec.ok_bind, ne_eq, not_true_eq_false, if_false]
    refine uniform_random_loop_spec cfg c F xs _ _ (fun y hy => h y (List.mem_cons_of_mem _ hy)) ?_ ?_
    · simp; omega
    · simp; omega

/-- **C71**: whatever the numbers drawn and however many, the uniform random test reports success, without reading or
writing outside its two arrays. -/
theorem C71_uniform_test (cfg : Cfg) (c : Config) (F : Fmt) (xs : List Nat) (h : ∀ x ∈ xs, x < 2 ^ width F) :
    uniform_random_test cfg c F xs = .ok true :=
  uniform_random_loop_spec cfg c F xs _ _ h (by cases F <;> simp [maxText]) (by cases F <;> simp [maxText])

/-- **C71**: the performance test stays within its array. -/
theorem C71_perf_test (cfg : Cfg) (F : Fmt) (xs : List Nat) (h : ∀ x ∈ xs, x < 2 ^ width F) :
    uniform_random_perf_test cfg F xs = .ok () := by
  have key : ∀ (xs : List Nat) (b : Buffer), (∀ x ∈ xs, x < 2 ^ width F) → maxText F + 1 ≤ b.length →
      perf_loop cfg F xs b = .ok () := by
    intro xs
    induction xs with
    | nil => intros; rfl
    | cons x xs ih =>
      intro b h hb
      obtain ⟨text, hl, -, e, -⟩ := C34_no_nul cfg F x .nearest_to_even .tie_to_even (h x (List.mem_cons_self ..))
        (fun _ => Or.inl rfl) b hb
      rw [perf_loop, e]
      simp only [Exec.ok_bind]
      exact ih _ (fun y hy => h y (List.mem_cons_of_mem _ hy)) (by simp; omega)
  exact key xs _ h (by cases F <;> simp [maxText])

/-- **C71**: the arrays that `d2s` and `f2s` allocate are long enough for every input, and they return the text of
`fp_to_chars_n` and a NUL. -/
theorem C71_allocated (c : Config) (cfg : Cfg) (F : Fmt) (x : Nat) (hx : x < 2 ^ width F) :
    ∃ text, Prints cfg F x .nearest_to_even .tie_to_even text ∧ ∃ rest,
      (match (generalizing := false) F with | .b32 => Ryu.f2s c x | .b64 => Ryu.d2s c x) =
        .ok ((text ++ ['\x00']).map some ++ rest) := by
  obtain ⟨t0, p0, q0, -⟩ := prints_some cfg F x .nearest_to_even .tie_to_even hx fun _ => Or.inl rfl
  refine ⟨t0, p0, (List.replicate (maxText F + 1) none).drop (t0.length + 1), ?_⟩
  have f := C34_terminated _ _ _ _ _ _ p0 (List.replicate (maxText F + 1) none) (by simp; omega)
  have := C70_terminated c cfg F x (List.replicate (maxText F + 1) none) hx
  rw [f, Exec.ok_bind] at this
  cases F <;> exact this

-- three doubles; and the test can fail: with a printer of something else it would report so
example : uniform_random_test ⟨false, false⟩ ⟨.portable, false, false, false⟩ .b64
    [0x3FF3C0CA428C59FB, 0x8000000000000000, 0x7FF0000000000000] = .ok true := by decide +kernel
example : string_view [some '1', some 'E', none] = .fault .uninitialised ∧
    string_view [some '1', some '\x00', none] = .ok ['1'] := by decide
example : Ryu.f2s ⟨.uint128, false, false, false⟩ 0x8F52F89D = .ok ("-1.04016806E-29\x00".toList.map some) := by
  decide +kernel

/-! ## C72 -/

theorem floor_log_nat {u v P B a b c d : Nat} (hu : 1 < u) (hb : 0 < b) (hB : 0 < B)
    (h1 : u ^ a ≤ v ^ b) (h2 : v ^ d < u ^ c) (hdet : b * c = a * d + 1)
    (h3 : a * B ≤ P * b) (h4 : P * d < c * B) {n : Nat} (hn : n < b + d) : IsFloorLog u v n (n * P / B : Nat) := by
  obtain ⟨g1, g2⟩ := floor_log_of_cert hu hb h1 h2 hdet hn
  rw [floor_eq_of_cert hB hb h3 h4 hdet hn]
  unfold IsFloorLog
  rw [← Nat.cast_succ, zpow_natCast, zpow_natCast, zpow_natCast]
  exact ⟨by exact_mod_cast g1, by exact_mod_cast g2⟩

/-- **C72**: on the whole documented range, `log2pow5` is the integer part of `log_2 (5^e)`, and `pow5bits` and
`ceil_log2pow5` are one more (the number of bits of `5^e`). -/
theorem C72_log2pow5 (c : Config) (e : Nat) (h : e ≤ 3528) : ∃ k : Int, IsFloorLog 2 5 e k ∧
    Ryu.log2pow5 c e = .ok k ∧ Ryu.pow5bits c e = .ok (k + 1) ∧ Ryu.ceil_log2pow5 c e = .ok (k + 1) := by
  have hw : wrap 32 (Ryu.u32 e * 1217359) = e * 1217359 := by
    unfold wrap Ryu.u32
    omega
  have hl : Ryu.log2pow5 c e = .ok ((e * 1217359 / 2 ^ 19 : Nat) : Int) := by
    unfold Ryu.log2pow5 Ryu.rassert
    rw [if_pos (by simp), if_pos (by simp; omega), hw]
    rfl
  refine ⟨_, floor_log_nat (a := 7804) (b := 3361) (c := 1493) (d := 643) (by norm_num) (by norm_num) (by norm_num)
    (by decide +kernel) (by decide +kernel) (by norm_num) (by norm_num) (by norm_num) (by omega), hl, ?_, ?_⟩
  · unfold Ryu.pow5bits Ryu.rassert
    rw [if_pos (by simp), if_pos (by simp; omega), hw]
    rfl
  · unfold Ryu.ceil_log2pow5
    rw [hl]
    rfl

/-- **C72**: on the whole documented range, `log10Pow2` is the integer part of `log_10 (2^e)`. -/
theorem C72_log10Pow2 (c : Config) (e : Nat) (h : e ≤ 1650) : ∃ k : Nat, Ryu.log10Pow2 c e = .ok k ∧
    IsFloorLog 10 2 e k := by
  have hw : wrap 32 (Ryu.u32 e * 78913) = e * 78913 := by
    unfold wrap Ryu.u32
    omega
  refine ⟨_, ?_, floor_log_nat (P := 78913) (B := 2 ^ 18) (a := 351) (b := 1166) (c := 146) (d := 485) (by norm_num)
    (by norm_num) (by norm_num) (by decide +kernel) (by decide +kernel) (by norm_num) (by norm_num) (by norm_num)
    (by omega)⟩
  unfold Ryu.log10Pow2 Ryu.rassert
  rw [if_pos (by simp), if_pos (by simp; omega), hw]
  rfl

/-- **C72**: on the whole documented range, `log10Pow5` is the integer part of `log_10 (5^e)`. -/
theorem C72_log10Pow5 (c : Config) (e : Nat) (h : e ≤ 2620) : ∃ k : Nat, Ryu.log10Pow5 c e = .ok k ∧
    IsFloorLog 10 5 e k := by
  have hw : wrap 32 (Ryu.u32 e * 732923) = e * 732923 := by
    unfold wrap Ryu.u32
    omega
  refine ⟨_, ?_, floor_log_nat (P := 732923) (B := 2 ^ 20) (a := 339) (b := 485) (c := 1493) (d := 2136) (by norm_num)
    (by norm_num) (by norm_num) (by decide +kernel) (by decide +kernel) (by norm_num) (by norm_num) (by norm_num)
    (by omega)⟩
  unfold Ryu.log10Pow5 Ryu.rassert
  rw [if_pos (by simp), if_pos (by simp; omega), hw]
  rfl

set_option exponentiation.threshold 5000 in
/-- **C72**, the ranges are the largest possible: with asserts compiled out, the next value of each is wrong. -/
theorem C72_sharp (mul : Ryu.Mul64) (b f : Bool) :
    (∀ k, Ryu.log10Pow2 ⟨mul, b, f, true⟩ 1651 = .ok k → ¬ IsFloorLog 10 2 1651 k) ∧
    (∀ k, Ryu.log10Pow5 ⟨mul, b, f, true⟩ 2621 = .ok k → ¬ IsFloorLog 10 5 2621 k) ∧
    (∀ k, Ryu.log2pow5 ⟨mul, b, f, true⟩ 3529 = .ok k → ¬ IsFloorLog 2 5 3529 k) := by
  refine ⟨fun k hk h => ?_, fun k hk h => ?_, fun k hk h => ?_⟩
  · have : Ryu.log10Pow2 ⟨mul, b, f, true⟩ 1651 = .ok 496 := rfl
    obtain rfl := Exec.ok.inj (this.symm.trans hk)
    have h2 : (10 : ℚ) ^ (497 : Nat) ≤ 2 ^ (1651 : Nat) := by exact_mod_cast (by decide +kernel : 10 ^ 497 ≤ 2 ^ 1651)
    exact absurd h.2 (not_lt.mpr (by exact_mod_cast h2))
  · have : Ryu.log10Pow5 ⟨mul, b, f, true⟩ 2621 = .ok 1831 := rfl
    obtain rfl := Exec.ok.inj (this.symm.trans hk)
    have h2 : (10 : ℚ) ^ (1832 : Nat) ≤ 5 ^ (2621 : Nat) := by exact_mod_cast (by decide +kernel : 10 ^ 1832 ≤ 5 ^ 2621)
    exact absurd h.2 (not_lt.mpr (by exact_mod_cast h2))
  · have : Ryu.log2pow5 ⟨mul, b, f, true⟩ 3529 = .ok 2 := rfl
    obtain rfl := Exec.ok.inj (this.symm.trans hk)
    have h2 : (2 : ℚ) ^ (3 : Nat) ≤ 5 ^ (3529 : Nat) := by exact_mod_cast (by decide +kernel : 2 ^ 3 ≤ 5 ^ 3529)
    exact absurd h.2 (not_lt.mpr (by exact_mod_cast h2))

example : Ryu.log2pow5 ⟨.uint128, false, false, false⟩ 3528 = .ok 8191 ∧
    Ryu.log10Pow2 ⟨.uint128, false, false, false⟩ 1650 = .ok 496 ∧
    Ryu.log10Pow5 ⟨.uint128, false, false, false⟩ 2620 = .ok 1831 ∧
    Ryu.log10Pow2 ⟨.uint128, false, false, false⟩ 1651 = .fault .assertion := by decide +kernel
-- the comment of `log2pow5` says 1 for `e = 0`
example : Ryu.log2pow5 ⟨.uint128, false, false, false⟩ 0 = .ok 0 := by decide +kernel

end Grisu
