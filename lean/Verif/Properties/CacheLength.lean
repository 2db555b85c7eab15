import Verif.Properties.Arithmetic
import Verif.Proofs.CacheLengthMeaning
import Verif.Proofs.CacheLengthRows

/-! # The verification of the cache length, tests/verify_cache_length.cpp

The specification is in Verif/SpecLength.lean. -/

namespace Grisu
open Big Spec ResultFiles CacheLength

/-! ## C73, C74: the tool computes what it is to compute -/

theorem log10_value {e : Int} (h1 : -1650 ≤ e) (h2 : e ≤ 1650) : IsFloorLog 10 2 e (log10_pow2_value e) := by
  obtain ⟨k, a, b⟩ := C20_floor_log10_pow2 ⟨true, true⟩ e h1 h2
  rw [floor_log10_pow2_ok _ h1 h2] at a
  cases a
  exact b

theorem log2_value {e : Int} (h1 : -616 ≤ e) (h2 : e ≤ 616) : IsFloorLog 2 10 e (log2_pow10_value e) := by
  obtain ⟨k, a, b⟩ := C21_floor_log2_pow10_partial ⟨true, true⟩ e h1 h2
  rw [floor_log2_pow10_ok _ h1 h2] at a
  cases a
  exact b

theorem negative_rows (F : Fmt) (i : Nat) (h : i < (rows_negative F).length) :
    NegativeLength F (F.alpha + 3 + i) (rows_negative F)[i] := by
  have hc := all_spec (all_negative F) i h
  rw [Nat.zero_add] at hc
  obtain ⟨j, x, w, a1, a2, a3, a4, a5, a6, a7, a8, a9, a10, a11, a12, M1, M2, b1, b2, b3⟩ :=
    negative_check_sound ⟨true, true⟩ (f := 100) (by norm_num) (by norm_num) hc
  refine ⟨j, x, w, M1, M2, log2_pow10_value (-j), ?_, log2_value (by omega) (by omega), a9, a10, a11, a12, b1, b2, b3⟩
  rw [show F.alpha + 3 + (i : Int) + 1 - F.alpha = i + 4 by ring, ← a6]
  exact log10_value (by omega) (by omega)

theorem positive_rows (F : Fmt) (i : Nat) (h : i < (rows_positive F).length) :
    PositiveLength F (F.alpha + 2 - i) (rows_positive F)[i] := by
  have hc := all_spec (all_positive F) i h
  rw [Nat.zero_add] at hc
  obtain ⟨k, w, x, a1, a2, a3, a4, a5, a6, a7, a8, a9, a10, r1, r2, b1, b2, b3, b4, b5, b6⟩ :=
    positive_check_sound ⟨true, true⟩ (f := 100) (by norm_num) (by norm_num) hc
  refine ⟨k, w, r1, r2, x, log2_pow10_value k, ?_, log2_value (by omega) (by omega), a9, a10, b1, b2, fun h => (b3 h).1,
    fun h => ?_, b5, fun h => (b6 h).1⟩
  swap
  · obtain ⟨M2, c1, c2, _⟩ := b4 h
    exact ⟨M2, c1, c2⟩
  rw [show F.alpha + 2 - (i : Int) + 1 - F.alpha = 3 - i by ring, ← a6]
  exact log10_value (by omega) (by omega)

/-- C73: the part of the tool for negative `k` runs to its end without a failed assertion, out-of-bounds access or
overflow, in every build; it visits the exponents from `alpha + 3` to the largest in ascending order; the number written
for each is the number of bits of the specification; and the number printed at the end is the largest of them. -/
theorem C73_negative_k (cfg : Cfg) (F : Fmt) (fuel : Nat) (hf : 64 ≤ fuel) :
    ∃ lines m, cache_length_negative_k cfg F fuel = .ok (lines, m) ∧
      lines.map Prod.fst = (List.range (F.max_exponent - F.alpha - 2).toNat).map (fun i : Nat => F.alpha + 3 + i) ∧
      (∀ c ∈ lines, NegativeLength F c.1 c.2) ∧ IsGreatest {b | ∃ c ∈ lines, c.2 = b} m := by
  have hl := length_negative F
  refine ⟨_, _, cache_length_negative cfg hf (by omega) hl (all_negative F), ?_, ?_, ?_⟩
  · rw [show (F.max_exponent - F.alpha - 2).toNat = (rows_negative F).length by omega]
    apply List.ext_getElem
    · simp
    · intro n h1 h2; simp
  · intro c hc
    obtain ⟨i, hi, rfl⟩ := mem_lines (f := fun i => F.alpha + 3 + i) hc
    exact negative_rows F i hi
  · exact greatest_lines (fun i => F.alpha + 3 + i) (by cases F <;> decide +kernel)

/-- C74: the same for `k ≥ 0`; the exponents are those from `alpha + 2` down to the smallest. -/
theorem C74_positive_k (cfg : Cfg) (F : Fmt) (fuel : Nat) (hf : 64 ≤ fuel) :
    ∃ lines m, cache_length_positive_k cfg F fuel = .ok (lines, m) ∧
      lines.map Prod.fst = (List.range (F.alpha + 3 - F.min_exponent).toNat).map (fun i : Nat => F.alpha + 2 - i) ∧
      (∀ c ∈ lines, PositiveLength F c.1 c.2) ∧ IsGreatest {b | ∃ c ∈ lines, c.2 = b} m := by
  have hl := length_positive F
  refine ⟨_, _, cache_length_positive cfg hf (by omega) hl (all_positive F), ?_, ?_, ?_⟩
  · rw [show (F.alpha + 3 - F.min_exponent).toNat = (rows_positive F).length by omega]
    apply List.ext_getElem
    · simp
    · intro n h1 h2; simp
  · intro c hc
    obtain ⟨i, hi, rfl⟩ := mem_lines (f := fun i => F.alpha + 2 - i) hc
    exact positive_rows F i hi
  · exact greatest_lines (fun i => F.alpha + 2 - i) (by cases F <;> decide +kernel)

/-- `fuel` only bounds the loops; 64 is enough, as in: -/
example : ∃ lines m, cache_length_negative_k ⟨true, false⟩ .b64 64 = .ok (lines, m) :=
  let ⟨lines, m, h, _⟩ := C73_negative_k ⟨true, false⟩ .b64 64 le_rfl
  ⟨lines, m, h⟩

/-- The exponents of C73 and C74 together are all exponents. -/
theorem C74_all_exponents (F : Fmt) (e : Int) (h1 : F.min_exponent ≤ e) (h2 : e ≤ F.max_exponent) :
    (∃ i : Nat, i < (F.max_exponent - F.alpha - 2).toNat ∧ e = F.alpha + 3 + i) ∨
    (∃ i : Nat, i < (F.alpha + 3 - F.min_exponent).toNat ∧ e = F.alpha + 2 - i) := by
  by_cases h : F.alpha + 3 ≤ e
  · exact Or.inl ⟨(e - (F.alpha + 3)).toNat, by omega, by omega⟩
  · exact Or.inr ⟨(F.alpha + 2 - e).toNat, by omega, by omega⟩

/-! ## C75: the checked-in results -/

/-- C75: for negative `k` the tool writes the checked-in files test_results/binary32_negative_k.csv and
test_results/binary64_negative_k.csv, and prints the maxima 57 and 125. -/
theorem C75_negative_k_files (cfg : Cfg) (fuel : Nat) (hf : 64 ≤ fuel) :
    cache_length_negative_k cfg .b32 fuel = .ok (binary32_negative_k.zipIdx.map fun c => (-2 + c.2, c.1), 57) ∧
    cache_length_negative_k cfg .b64 fuel = .ok (binary64_negative_k.zipIdx.map fun c => (-2 + c.2, c.1), 125) := by
  have h32 := cache_length_negative cfg hf (show 60 ≤ fuel by omega) (length_negative .b32) (all_negative .b32)
  have h64 := cache_length_negative cfg hf (show 60 ≤ fuel by omega) (length_negative .b64) (all_negative .b64)
  rw [show maximum (rows_negative .b32) 0 = 57 by decide +kernel] at h32
  rw [show maximum (rows_negative .b64) 0 = 125 by decide +kernel] at h64
  exact ⟨h32, h64⟩

/-- C75: for `k ≥ 0` the tool writes the checked-in files test_results/binary32_positive_k.csv and
test_results/binary64_positive_k.csv, and prints the maxima 61 and 125. -/
theorem C75_positive_k_files (cfg : Cfg) (fuel : Nat) (hf : 64 ≤ fuel) :
    cache_length_positive_k cfg .b32 fuel = .ok (binary32_positive_k.zipIdx.map fun c => (-3 - c.2, c.1), 61) ∧
    cache_length_positive_k cfg .b64 fuel = .ok (binary64_positive_k.zipIdx.map fun c => (-3 - c.2, c.1), 125) := by
  have h32 := cache_length_positive cfg hf (show 60 ≤ fuel by omega) (length_positive .b32) (all_positive .b32)
  have h64 := cache_length_positive cfg hf (show 60 ≤ fuel by omega) (length_positive .b64) (all_positive .b64)
  rw [show maximum (rows_positive .b32) 0 = 61 by decide +kernel] at h32
  rw [show maximum (rows_positive .b64) 0 = 125 by decide +kernel] at h64
  exact ⟨h32, h64⟩

/-- C75: every number written is at most the number of bits of the cache entries. -/
theorem C75_fits_cache (cfg : Cfg) (F : Fmt) (fuel : Nat) (hf : 64 ≤ fuel) (lines : List (Int × Nat)) (m : Nat)
    (h : cache_length_negative_k cfg F fuel = .ok (lines, m) ∨ cache_length_positive_k cfg F fuel = .ok (lines, m)) :
    (∀ c ∈ lines, c.2 ≤ m) ∧ m < F.cache_precision := by
  have g1 : maximum (rows_negative F) 0 < F.cache_precision := by cases F <;> decide +kernel
  have g2 : maximum (rows_positive F) 0 < F.cache_precision := by cases F <;> decide +kernel
  rcases h with h | h
  · rw [cache_length_negative cfg hf (show 60 ≤ fuel by omega) (length_negative F) (all_negative F)] at h
    cases h
    refine ⟨fun c hc => ?_, g1⟩
    obtain ⟨i, hi, rfl⟩ := mem_lines (f := fun i => F.alpha + 3 + i) hc
    exact le_maximum.2 _ (List.getElem_mem _)
  · rw [cache_length_positive cfg hf (show 60 ≤ fuel by omega) (length_positive F) (all_positive F)] at h
    cases h
    refine ⟨fun c hc => ?_, g2⟩
    obtain ⟨i, hi, rfl⟩ := mem_lines (f := fun i => F.alpha + 2 - i) hc
    exact le_maximum.2 _ (List.getElem_mem _)

/-! ## C76: what the numbers of bits are enough for

For a significand `f` the algorithm needs the integer parts of `(2f ± 1) 2^s 10^k`, where `s = e + q - p - 2`, and of
`4f 2^s 10^k`; at a power of two also of `(4f - 1) 2^(s-1) 10^k`. -/

/-- The factors of the three kinds. -/
structure EnoughBits (F : Fmt) (e k : Int) (c : ℚ) : Prop where
  boundary : Enough c k (e + F.q - F.p - 2) (2 ^ (F.p + 2))
  edge : ⌊((2 ^ (F.p + 2) - 1 : Nat) : ℚ) * 2 ^ (e + F.q - F.p - 3) * c⌋ =
    ⌊((2 ^ (F.p + 2) - 1 : Nat) : ℚ) * 2 ^ (e + F.q - F.p - 3) * 10 ^ k⌋
  two_y : Enough c k (e + F.q - F.p) (2 ^ (F.p + 1))

theorem greatest_lt {a b N M : Nat} (hb : 0 < b) (h : IsGreatest (multiples a b N) M) : M < b := by
  obtain ⟨n, _, _, rfl⟩ := h.1
  exact Nat.mod_lt _ hb

theorem negative_enough {F : Fmt} {e k l : Int} {bits : Nat} (h : NegativeLength F e bits)
    (hk : IsFloorLog 10 2 (e + 1 - F.alpha) (-k)) (hl : IsFloorLog 2 10 k l) {Q : Nat} (hQ : bits ≤ Q) :
    Enough (roundedUp k l Q) k (e + F.q - F.p - 2) (2 ^ (F.p + 2)) ∧
    ⌊((2 ^ (F.p + 2) - 1 : Nat) : ℚ) * 2 ^ (e + F.q - F.p - 3) * roundedUp k l Q⌋ =
      ⌊((2 ^ (F.p + 2) - 1 : Nat) : ℚ) * 2 ^ (e + F.q - F.p - 3) * 10 ^ k⌋ ∧
    (bits + 1 ≤ Q → Enough (roundedUp k l Q) k (e + F.q - F.p) (2 ^ (F.p + 1))) := by
  obtain ⟨j, x, w, M1, M2, l', h1, h2, h3, h4, h5, h6, h7, h8, h9⟩ := h
  have hj : k = -(j : Int) := by have := floorLog_unique (by norm_num) hk h1; omega
  subst hj
  have := floorLog_unique (by norm_num) hl h2
  subst this
  have hP : 0 < 5 ^ j := by positivity
  refine ⟨fun n hn => ?_, ?_, fun hQ1 n hn => ?_⟩
  · rcases Nat.eq_zero_or_pos n with rfl | hn0
    · simp
    refine up_exact (y := x) (N := F.p + 2) (M := M1) (by omega) hn (greatest_lt hP h7) (h7.2 ⟨n, hn0, hn, rfl⟩) ?_
    have := (le_max_left (w + bitLength (5 ^ j / (5 ^ j - M1))) (w + bitLength (5 ^ j / (5 ^ j - M2)))).trans
      (le_max_left _ (w - 1 + bitLength (5 ^ j / (5 ^ j - 2 ^ (x - 1) * (2 ^ (F.p + 2) - 1) % 5 ^ j))))
    push_cast
    omega
  · refine up_exact (y := x - 1) (N := F.p + 2) (M := 2 ^ (x - 1) * (2 ^ (F.p + 2) - 1) % 5 ^ j) (by omega) (Nat.sub_le _ _)
      (Nat.mod_lt _ hP) le_rfl ?_
    have := le_max_right (max (w + bitLength (5 ^ j / (5 ^ j - M1))) (w + bitLength (5 ^ j / (5 ^ j - M2))))
      (w - 1 + bitLength (5 ^ j / (5 ^ j - 2 ^ (x - 1) * (2 ^ (F.p + 2) - 1) % 5 ^ j)))
    push_cast
    omega
  · rcases Nat.eq_zero_or_pos n with rfl | hn0
    · simp
    refine up_exact (y := x + 2) (N := F.p + 1) (M := M2) (by push_cast; omega) hn (greatest_lt hP h8) (h8.2 ⟨n, hn0, hn, rfl⟩) ?_
    have := (le_max_right (w + bitLength (5 ^ j / (5 ^ j - M1))) (w + bitLength (5 ^ j / (5 ^ j - M2)))).trans
      (le_max_left _ (w - 1 + bitLength (5 ^ j / (5 ^ j - 2 ^ (x - 1) * (2 ^ (F.p + 2) - 1) % 5 ^ j))))
    push_cast
    omega

/-- C76, part: for negative `k`, if `10^k` is rounded up to at least the number of bits that the tool writes, the integer
parts of the first and the third kind are right.  Missing: the second kind, which is false by
`C76_negative_two_y_false`. -/
theorem C76_negative_partial (cfg : Cfg) (F : Fmt) (fuel : Nat) (hf : 64 ≤ fuel) (lines : List (Int × Nat)) (m : Nat)
    (h : cache_length_negative_k cfg F fuel = .ok (lines, m)) (c : Int × Nat) (hc : c ∈ lines) (k l : Int)
    (hk : IsFloorLog 10 2 (c.1 + 1 - F.alpha) (-k)) (hl : IsFloorLog 2 10 k l) (Q : Nat) (hQ : c.2 ≤ Q) :
    Enough (roundedUp k l Q) k (c.1 + F.q - F.p - 2) (2 ^ (F.p + 2)) ∧
    ⌊((2 ^ (F.p + 2) - 1 : Nat) : ℚ) * 2 ^ (c.1 + F.q - F.p - 3) * roundedUp k l Q⌋ =
      ⌊((2 ^ (F.p + 2) - 1 : Nat) : ℚ) * 2 ^ (c.1 + F.q - F.p - 3) * 10 ^ k⌋ := by
  obtain ⟨lines', m', g1, g2, g3, g4⟩ := C73_negative_k cfg F fuel hf
  rw [h] at g1
  cases g1
  have := negative_enough (g3 c hc) hk hl hQ
  exact ⟨this.1, this.2.1⟩

/-- C76, part: with one bit more than the tool writes all three kinds are right. -/
theorem C76_negative_one_more_partial (cfg : Cfg) (F : Fmt) (fuel : Nat) (hf : 64 ≤ fuel) (lines : List (Int × Nat))
    (m : Nat) (h : cache_length_negative_k cfg F fuel = .ok (lines, m)) (c : Int × Nat) (hc : c ∈ lines) (k l : Int)
    (hk : IsFloorLog 10 2 (c.1 + 1 - F.alpha) (-k)) (hl : IsFloorLog 2 10 k l) (Q : Nat) (hQ : c.2 + 1 ≤ Q) :
    EnoughBits F c.1 k (roundedUp k l Q) := by
  obtain ⟨lines', m', g1, g2, g3, g4⟩ := C73_negative_k cfg F fuel hf
  rw [h] at g1
  cases g1
  have := negative_enough (g3 c hc) hk hl (show c.2 ≤ Q by omega)
  exact ⟨this.1, this.2.1, this.2.2 hQ⟩

/-- C76: so the bits of the cache entries are enough for every exponent with negative `k`. -/
theorem C76_negative_cache (F : Fmt) (e k l : Int) (h1 : F.alpha + 3 ≤ e) (h2 : e ≤ F.max_exponent)
    (hk : IsFloorLog 10 2 (e + 1 - F.alpha) (-k)) (hl : IsFloorLog 2 10 k l) :
    EnoughBits F e k (roundedUp k l F.cache_precision) := by
  obtain ⟨lines, m, g1, g2, g3, g4⟩ := C73_negative_k ⟨true, true⟩ F 64 le_rfl
  have hm : e ∈ lines.map Prod.fst := by
    rw [g2]
    exact List.mem_map.mpr ⟨(e - (F.alpha + 3)).toNat, List.mem_range.mpr (by omega), by omega⟩
  obtain ⟨c, hc, rfl⟩ := List.mem_map.mp hm
  have := C75_fits_cache ⟨true, true⟩ F 64 le_rfl lines m (Or.inl g1)
  exact C76_negative_one_more_partial ⟨true, true⟩ F 64 le_rfl lines m g1 c hc k l hk hl _ (by have := this.1 c hc; omega)

/-- C76 is false of the tool for negative `k`: for the exponent 96 of binary32, where `k = -30`, it writes 55 bits, but with
`10^(-30)` rounded up to 55 bits the integer part of `4f 2^s 10^k` is wrong for the significand `f = 14077062`.  The number
for the second kind lacks one bit (tests/verify_cache_length.cpp 221-222: the factor is `2^2` times as large and the range
half as large as for the first kind). -/
theorem C76_negative_two_y_false (cfg : Cfg) (fuel : Nat) (hf : 64 ≤ fuel) :
    ∃ lines m, cache_length_negative_k cfg .b32 fuel = .ok (lines, m) ∧ (96, 55) ∈ lines ∧
      IsFloorLog 10 2 (96 + 1 - Fmt.b32.alpha) (-(-30)) ∧ IsFloorLog 2 10 (-30) (-100) ∧
      ⌊((14077062 : Nat) : ℚ) * 2 ^ (96 + 32 - 23 : Int) * roundedUp (-30) (-100) 55⌋ ≠
        ⌊((14077062 : Nat) : ℚ) * 2 ^ (96 + 32 - 23 : Int) * 10 ^ (-30 : Int)⌋ ∧ 14077062 ≤ 2 ^ (Fmt.b32.p + 1) := by
  refine ⟨_, _, (C75_negative_k_files cfg fuel hf).1, by decide +kernel, ?_, ?_, ?_, by decide +kernel⟩
  · unfold IsFloorLog Fmt.alpha; norm_num
  · unfold IsFloorLog; norm_num
  · unfold roundedUp; norm_num

theorem lengthened_ge (w limit old m : Nat) : old ≤ lengthened w limit old m := by
  unfold lengthened; split_ifs <;> omega

/-- The part of C76 for `k ≥ 0`, for one row. -/
theorem positive_enough {F : Fmt} {i : Nat} (hi : i < (rows_positive F).length) {k l : Int}
    (hk : IsFloorLog 10 2 (F.alpha + 2 - i + 1 - F.alpha) (-k)) (hl : IsFloorLog 2 10 k l) {Q : Nat}
    (hQ : (rows_positive F)[i] ≤ Q) :
    Enough (roundedDown k l Q) k (F.alpha + 2 - i + F.q - F.p - 2) (2 ^ (F.p + 2)) ∧
    ⌊((2 ^ (F.p + 2) - 1 : Nat) : ℚ) * 2 ^ (F.alpha + 2 - i + F.q - F.p - 3) * roundedDown k l Q⌋ =
      ⌊((2 ^ (F.p + 2) - 1 : Nat) : ℚ) * 2 ^ (F.alpha + 2 - i + F.q - F.p - 3) * 10 ^ k⌋ ∧
    (CacheLength.exceptional F i = false → Enough (roundedDown k l Q) k (F.alpha + 2 - i + F.q - F.p) (2 ^ (F.p + 1))) := by
  have hc := all_spec (all_positive F) i hi
  rw [Nat.zero_add] at hc
  obtain ⟨k', w, x, a1, a2, a3, a4, a5, a6, a7, a8, a9, a10, r1, r2, b1, b2, b3, b4, b5, b6⟩ :=
    positive_check_sound ⟨true, true⟩ (f := 100) (by norm_num) (by norm_num) hc
  generalize (rows_positive F)[i] = bits at *
  have hk1 : IsFloorLog 10 2 (F.alpha + 2 - (i : Int) + 1 - F.alpha) (-(k' : Int)) := by
    rw [show F.alpha + 2 - (i : Int) + 1 - F.alpha = 3 - i by ring, ← a6]
    exact log10_value (by omega) (by omega)
  have hkk : k = k' := by have := floorLog_unique (by norm_num) hk hk1; omega
  subst hkk
  have hll := floorLog_unique (by norm_num) hl (log2_value (e := (k' : Int)) (by omega) (by omega))
  subst hll
  have full : w ≤ Q → roundedDown k' (log2_pow10_value k') Q = 10 ^ (k' : Int) := fun h => down_full (by omega)
  have hr1 : r1 ≤ bits ∧ r2 ≤ bits ∧ r1 ≤ r2 := by
    have h12 : r1 ≤ r2 := by
      by_cases hx : 2 < x
      · obtain ⟨M2, _, g, _⟩ := b4 hx
        rw [g]; exact lengthened_ge _ _ _ _
      · exact (b3 (by omega)).1.symm.le
    have h2 : r2 ≤ bits := by
      by_cases hx : -1 < x
      · rw [(b6 hx).1]; exact lengthened_ge _ _ _ _
      · exact (b5 (by omega)).symm.le
    exact ⟨h12.trans h2, h2, h12⟩
  refine ⟨fun n hn => ?_, ?_, fun hex n hn => ?_⟩
  · by_cases hx : 0 < x
    · obtain ⟨M1, g1, g2⟩ := b2 hx
      rcases Nat.eq_zero_or_pos n with rfl | hn0
      · simp
      by_cases hM : F.p + 2 < bitLength M1 - 1
      · clear b2 b3 b4 b5 b6
        refine down_exact (y := x.toNat) (N := F.p + 2) (M := M1) (by omega) hn ?_ (g1.2 ⟨n, hn0, hn, rfl⟩) (by push_cast; omega)
        rintro rfl; simp [bitLength] at hM
      · clear b2 b3 b4 b5 b6
        rw [full (by omega)]
    · rw [full (by have := b1 (by omega); clear b2 b3 b4 b5 b6; omega)]
  · by_cases hx : -1 < x
    · obtain ⟨g1, g2⟩ := b6 hx
      clear b1 b2 b3 b4 b5 b6
      by_cases hw : w ≤ Q
      · rw [full hw]
      have g2 := g2.resolve_right (by omega)
      have g3 : w - (bitLength (5 ^ k' * (2 ^ (F.p + 2) - 1) % 2 ^ (x + 1).toNat) - 1 - (F.p + 2)) ≤ bits := by
        rw [g1]; unfold lengthened; rw [if_pos (by omega)]; exact le_max_right _ _
      refine down_exact (y := (x + 1).toNat) (N := F.p + 2) (M := 5 ^ k' * (2 ^ (F.p + 2) - 1) % 2 ^ (x + 1).toNat)
        (by omega) (Nat.sub_le _ _) ?_ le_rfl (by push_cast; omega)
      intro h0; rw [h0] at g2; simp [bitLength] at g2
    · rw [full (by have := b1 (by omega); clear b2 b3 b4 b5 b6; omega)]
  · rw [hex, cond_false] at b3 b4
    by_cases hx : 2 < x
    · obtain ⟨M2, g1, g2, g3⟩ := b4 hx
      clear b1 b2 b3 b4 b5 b6
      rcases Nat.eq_zero_or_pos n with rfl | hn0
      · simp
      by_cases hw : w ≤ Q
      · rw [full hw]
      have g3 := g3.resolve_right (by omega)
      have g4 : w - (bitLength M2 - 1 - (F.p + 1)) ≤ r2 := by
        rw [g2]; unfold lengthened; rw [if_pos (by omega)]; exact le_max_right _ _
      refine down_exact (y := (x - 2).toNat) (N := F.p + 1) (M := M2) (by omega) hn ?_ (g1.2 ⟨n, hn0, hn, rfl⟩)
        (by push_cast; omega)
      rintro rfl; simp [bitLength] at g3
    · rw [full (by have := (b3 (by omega)).2; omega)]

/-- The exponent -170 of binary64: the bits are enough for the second kind too, because the rounding error is small. -/
theorem two_y_170 (Q : Nat) (hQ : 114 ≤ Q) : Enough (roundedDown 50 166 Q) 50 (-170 + 64 - 52) (2 ^ 53) := by
  intro n hn
  have hres : residues 13 (2 ^ 108) (2 ^ 53) (fun m _ => Nat.ble (2 ^ 53) m) 60 (5 ^ 50) (2 ^ 108) 1 0 = true := by
    decide +kernel
  obtain ⟨r, _, _, _, g, hm⟩ := residues_good ⟨true, true⟩ (f := 64) (by norm_num) (by norm_num) (by positivity)
    (by decide +kernel) (by positivity) (by decide +kernel) (by positivity) (by norm_num) le_rfl (by norm_num) hres
  rw [Nat.ble_eq] at hm
  rcases Nat.eq_zero_or_pos n with rfl | hn0
  · simp
  have herr : 0 ≤ (10 : ℚ) ^ (50 : Int) - roundedDown 50 166 Q ∧ (10 : ℚ) ^ (50 : Int) - roundedDown 50 166 Q ≤ 2 ^ 50 := by
    refine ⟨(roundedDown_err 50 166 Q).1, ?_⟩
    by_cases h : 117 ≤ Q
    · have := down_full (k := 50) (l := 166) (Q := Q) (by push_cast; omega)
      push_cast at this
      rw [this]; norm_num
    · have : Q = 114 ∨ Q = 115 ∨ Q = 116 := by omega
      rcases this with rfl | rfl | rfl <;> (unfold roundedDown; norm_num)
  have h3 : (n : ℚ) * 2 ^ (-170 + 64 - 52 : Int) * 10 ^ (50 : Int) = ((5 ^ 50 * n : Nat) : ℚ) / ((2 ^ 108 : Nat) : ℚ) := by
    push_cast; norm_num; ring
  have h4 : (n : ℚ) * 2 ^ (-170 + 64 - 52 : Int) * roundedDown 50 166 Q = ((5 ^ 50 * n : Nat) : ℚ) / ((2 ^ 108 : Nat) : ℚ) -
      (n : ℚ) * 2 ^ (-170 + 64 - 52 : Int) * (10 ^ (50 : Int) - roundedDown 50 166 Q) := by
    rw [← h3]; ring
  rw [h4, h3]
  refine floor_down (M := 2 ^ 53) (by norm_num) (hm.trans (g.min_le n hn0 hn)) (mul_nonneg (by positivity) herr.1) ?_
  have hn' : (n : ℚ) ≤ 2 ^ 53 := by exact_mod_cast hn
  calc (n : ℚ) * 2 ^ (-170 + 64 - 52 : Int) * (10 ^ (50 : Int) - roundedDown 50 166 Q) * ((2 ^ 108 : Nat) : ℚ)
      ≤ (2 ^ 53) * 2 ^ (-170 + 64 - 52 : Int) * 2 ^ 50 * ((2 ^ 108 : Nat) : ℚ) := by
        refine mul_le_mul_of_nonneg_right ?_ (by positivity)
        exact mul_le_mul (mul_le_mul_of_nonneg_right hn' (by positivity)) herr.2 herr.1 (by positivity)
    _ = ((2 ^ 53 : Nat) : ℚ) := by norm_num

/-- C76, part: for `k ≥ 0`, if `10^k` is rounded down to at least the number of bits that the tool writes, all three kinds
of integer parts are right, for every exponent of binary64 and every exponent but -90 of binary32.  Missing: that one, where
the second kind is false by `C76_positive_two_y_false`. -/
theorem C76_positive_partial (cfg : Cfg) (F : Fmt) (fuel : Nat) (hf : 64 ≤ fuel) (lines : List (Int × Nat)) (m : Nat)
    (h : cache_length_positive_k cfg F fuel = .ok (lines, m)) (c : Int × Nat) (hc : c ∈ lines)
    (hex : ¬ (F = .b32 ∧ c.1 = -90)) (k l : Int) (hk : IsFloorLog 10 2 (c.1 + 1 - F.alpha) (-k))
    (hl : IsFloorLog 2 10 k l) (Q : Nat) (hQ : c.2 ≤ Q) : EnoughBits F c.1 k (roundedDown k l Q) := by
  rw [cache_length_positive cfg hf (show 60 ≤ fuel by omega) (length_positive F) (all_positive F)] at h
  cases h
  obtain ⟨i, hi, rfl⟩ := mem_lines (f := fun i => F.alpha + 2 - i) hc
  have g := positive_enough hi hk hl hQ
  refine ⟨g.1, g.2.1, ?_⟩
  by_cases he : CacheLength.exceptional F i = false
  · exact g.2.2 he
  · have he' : CacheLength.exceptional F i = true := by simpa using he
    cases F with
    | b32 =>
      have := Nat.eq_of_beq_eq_true he'
      subst this
      exact absurd ⟨rfl, rfl⟩ hex
    | b64 =>
      have := Nat.eq_of_beq_eq_true he'
      subst this
      have k1 : IsFloorLog 10 2 (Fmt.b64.alpha + 2 - (167 : Nat) + 1 - Fmt.b64.alpha) (-50) := by
        unfold IsFloorLog Fmt.alpha; norm_num
      have k2 : IsFloorLog 2 10 50 166 := by unfold IsFloorLog; norm_num
      have hk50 : k = 50 := by have := floorLog_unique (by norm_num) hk k1; omega
      subst hk50
      have := floorLog_unique (by norm_num) hl k2
      subst this
      have h114 : (rows_positive .b64)[167]'(by decide +kernel) = 114 := by decide +kernel
      exact two_y_170 Q (h114 ▸ hQ)

/-- C76, part: the first and the third kind for `k ≥ 0`, without exception. -/
theorem C76_positive_boundary_partial (cfg : Cfg) (F : Fmt) (fuel : Nat) (hf : 64 ≤ fuel) (lines : List (Int × Nat))
    (m : Nat) (h : cache_length_positive_k cfg F fuel = .ok (lines, m)) (c : Int × Nat) (hc : c ∈ lines) (k l : Int)
    (hk : IsFloorLog 10 2 (c.1 + 1 - F.alpha) (-k)) (hl : IsFloorLog 2 10 k l) (Q : Nat) (hQ : c.2 ≤ Q) :
    Enough (roundedDown k l Q) k (c.1 + F.q - F.p - 2) (2 ^ (F.p + 2)) ∧
    ⌊((2 ^ (F.p + 2) - 1 : Nat) : ℚ) * 2 ^ (c.1 + F.q - F.p - 3) * roundedDown k l Q⌋ =
      ⌊((2 ^ (F.p + 2) - 1 : Nat) : ℚ) * 2 ^ (c.1 + F.q - F.p - 3) * 10 ^ k⌋ := by
  rw [cache_length_positive cfg hf (show 60 ≤ fuel by omega) (length_positive F) (all_positive F)] at h
  cases h
  obtain ⟨i, hi, rfl⟩ := mem_lines (f := fun i => F.alpha + 2 - i) hc
  have g := positive_enough hi hk hl hQ
  exact ⟨g.1, g.2.1⟩

/-- C76 is false of the tool for `k ≥ 0`: for the exponent -90 of binary32, where `k = 26`, it writes 55 bits, but with
`10^26` rounded down to 55 bits the integer part of `4f 2^s 10^k` is wrong for the significand `f = 14855922`: the least
residue of the second kind has only 22 bits, and in that case the tool keeps the number of the first kind
(tests/verify_cache_length.cpp 305). -/
theorem C76_positive_two_y_false (cfg : Cfg) (fuel : Nat) (hf : 64 ≤ fuel) :
    ∃ lines m, cache_length_positive_k cfg .b32 fuel = .ok (lines, m) ∧ (-90, 55) ∈ lines ∧
      IsFloorLog 10 2 (-90 + 1 - Fmt.b32.alpha) (-26) ∧ IsFloorLog 2 10 26 86 ∧
      ⌊((14855922 : Nat) : ℚ) * 2 ^ (-90 + 32 - 23 : Int) * roundedDown 26 86 55⌋ ≠
        ⌊((14855922 : Nat) : ℚ) * 2 ^ (-90 + 32 - 23 : Int) * 10 ^ (26 : Int)⌋ ∧ 14855922 ≤ 2 ^ (Fmt.b32.p + 1) := by
  refine ⟨_, _, (C75_positive_k_files cfg fuel hf).1, by decide +kernel, ?_, ?_, ?_, by decide +kernel⟩
  · unfold IsFloorLog Fmt.alpha; norm_num
  · unfold IsFloorLog; norm_num
  · unfold roundedDown; norm_num

/-- C76: the bits of the cache entries are enough for every exponent with `k ≥ 0`. -/
theorem C76_positive_cache (F : Fmt) (e k l : Int) (h1 : F.min_exponent ≤ e) (h2 : e ≤ F.alpha + 2)
    (hk : IsFloorLog 10 2 (e + 1 - F.alpha) (-k)) (hl : IsFloorLog 2 10 k l) :
    EnoughBits F e k (roundedDown k l F.cache_precision) := by
  by_cases hex : F = .b32 ∧ e = -90
  · obtain ⟨rfl, rfl⟩ := hex
    have k1 : IsFloorLog 10 2 (-90 + 1 - Fmt.b32.alpha) (-26) := by unfold IsFloorLog Fmt.alpha; norm_num
    have k2 : IsFloorLog 2 10 26 86 := by unfold IsFloorLog; norm_num
    have hk26 : k = 26 := by have := floorLog_unique (by norm_num) hk k1; omega
    subst hk26
    have := floorLog_unique (by norm_num) hl k2
    subst this
    have hd := down_full (k := 26) (l := 86) (Q := Fmt.b32.cache_precision) (by decide)
    push_cast at hd
    rw [hd]
    exact ⟨fun _ _ => rfl, rfl, fun _ _ => rfl⟩
  obtain ⟨lines, m, g1, g2, g3, g4⟩ := C74_positive_k ⟨true, true⟩ F 64 le_rfl
  have hm : e ∈ lines.map Prod.fst := by
    rw [g2]
    exact List.mem_map.mpr ⟨(F.alpha + 2 - e).toNat, List.mem_range.mpr (by omega), by omega⟩
  obtain ⟨c, hc, rfl⟩ := List.mem_map.mp hm
  have := C75_fits_cache ⟨true, true⟩ F 64 le_rfl lines m (Or.inr g1)
  exact C76_positive_partial ⟨true, true⟩ F 64 le_rfl lines m g1 c hc hex k l hk hl _ (by have := this.1 c hc; omega)

/-- The hypotheses are met, for example, for the exponent 0 of binary64. -/
example : Fmt.b64.alpha + 3 ≤ 0 ∧ 0 ≤ Fmt.b64.max_exponent ∧ IsFloorLog 10 2 (0 + 1 - Fmt.b64.alpha) (-(-1)) ∧
    IsFloorLog 2 10 (-1) (-4) := by
  refine ⟨by decide, by decide, ?_, ?_⟩
  · unfold IsFloorLog Fmt.alpha; norm_num
  · unfold IsFloorLog; norm_num

end Grisu
