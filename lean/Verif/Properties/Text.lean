import Verif.Proofs.Printing

/-!
# Printing

Properties C30-C37.  The statements use `Verif/Spec.lean` and `Verif/SpecText.lean`.  They hold in all
rounding modes whenever `grisu_exact` returns, which is settled by C01 and C10.
-/

namespace Grisu

open Spec (FiniteNonzero RoundsTo isNeg mag value dec numDigits IsTruncating sci maxText readText infPattern width
  Prints PrintsTerminated)

/-! ## C30 -/

/-- **C30**: the text is the scientific notation of the decimal returned by `grisu_exact`, and reading it
gives exactly that number. -/
theorem C30_text (cfg : Cfg) (F : Fmt) (x : Nat) (mode : RoundingMode) (crs : Crs) (h : FiniteNonzero F x) (r : FpT)
    (hr : grisu_exact cfg F false x mode crs .assert_finite = .ok r) :
    ∃ text, Prints cfg F x mode crs text ∧ text = sci (isNeg F x) r.significand r.exponent ∧
      readText text = some (isNeg F x, dec r.significand r.exponent) :=
  ⟨_, prints_finite h hr, rfl, read_sci _ _ _⟩

/-- **C30**: there is such a text for every finite nonzero input and mode in which magnitudes are not
truncated. -/
theorem C30_prints (cfg : Cfg) (F : Fmt) (x : Nat) (mode : RoundingMode) (crs : Crs) (h : FiniteNonzero F x)
    (hm : IsTruncating (isNeg F x) mode = false) :
    ∃ r, grisu_exact cfg F false x mode crs .assert_finite = .ok r ∧
      Prints cfg F x mode crs (sci (isNeg F x) r.significand r.exponent) := by
  obtain ⟨r, hr⟩ := C01_returns cfg F false x mode crs .assert_finite h hm
  exact ⟨r, hr, prints_finite h hr⟩

-- -123400 in a buffer of 12 bytes
example : FiniteNonzero .b64 0xC0FE208000000000 := ⟨by decide, by decide, by decide⟩
example : fp_to_chars_n ⟨true, false⟩ .b64 0xC0FE208000000000 (List.replicate 12 none) .nearest_to_even .tie_to_even =
    .ok ("-1.234E5".toList.map some ++ List.replicate 4 none, 8) := by decide +kernel
example : sci true 1234 2 = "-1.234E5".toList := by decide +kernel

/-! ## C31 -/

/-- **C31**: if the call returns, the text reads back as `x`. -/
theorem C31_roundtrip (cfg : Cfg) (F : Fmt) (x : Nat) (mode : RoundingMode) (crs : Crs) (text : List Char)
    (h : FiniteNonzero F x) (hp : Prints cfg F x mode crs text) :
    ∃ v, readText text = some (isNeg F x, v) ∧ RoundsTo F mode (isNeg F x) v (mag F x) := by
  obtain ⟨r, hr, rfl⟩ := prints_inv h hp
  exact ⟨_, read_sci _ _ _, (printable h hr).2⟩

/-- **C31**: the call returns if magnitudes are not truncated, and in the truncating modes exactly when
`grisu_exact` does. -/
theorem C31_returns (cfg : Cfg) (F : Fmt) (x : Nat) (mode : RoundingMode) (crs : Crs) (h : FiniteNonzero F x) :
    (∃ text, Prints cfg F x mode crs text) ↔
      IsTruncating (isNeg F x) mode = false ∨
        ¬ (Spec.ZeroDivisibility F x ∧ (cfg.x64 = true ∨ cfg.ndebug = false)) := by
  have key : (∃ text, Prints cfg F x mode crs text) ↔
      ∃ r, grisu_exact cfg F false x mode crs .assert_finite = .ok r :=
    ⟨fun ⟨_, hp⟩ => (prints_inv h hp).imp fun _ hr => hr.1, fun ⟨_, hr⟩ => ⟨_, prints_finite h hr⟩⟩
  rw [key]
  cases hm : IsTruncating (isNeg F x) mode with
  | false => simpa using C01_returns cfg F false x mode crs .assert_finite h hm
  | true => simpa using C10_returns_partial cfg F false x mode crs .assert_finite h hm

example : readText "-1.7976931348623157E308".toList = some (true, 17976931348623157 * 10 ^ (292 : Int)) := by
  have := read_sci true 17976931348623157 292
  rwa [show sci true 17976931348623157 292 = "-1.7976931348623157E308".toList by decide +kernel] at this

/-! ## C32 -/

/-- **C32**: zeros. -/
theorem C32_zero (cfg : Cfg) (F : Fmt) (x : Nat) (mode : RoundingMode) (crs : Crs) (hx : x < 2 ^ width F)
    (h : mag F x = 0) : Prints cfg F x mode crs (if isNeg F x then "-0E0".toList else "0E0".toList) := by
  have := prints_zero (cfg := cfg) (mode := mode) (crs := crs) hx h
  cases hn : isNeg F x <;> rw [hn] at this <;> exact this

/-- **C32**: infinities. -/
theorem C32_infinity (cfg : Cfg) (F : Fmt) (x : Nat) (mode : RoundingMode) (crs : Crs) (hx : x < 2 ^ width F)
    (h : mag F x = infPattern F) :
    Prints cfg F x mode crs (if isNeg F x then "-Infinity".toList else "Infinity".toList) := by
  have := prints_infinity (cfg := cfg) (mode := mode) (crs := crs) hx h
  cases hn : isNeg F x <;> rw [hn] at this <;> exact this

/-- **C32**: every NaN. -/
theorem C32_nan (cfg : Cfg) (F : Fmt) (x : Nat) (mode : RoundingMode) (crs : Crs) (hx : x < 2 ^ width F)
    (h : infPattern F < mag F x) : Prints cfg F x mode crs "NaN".toList :=
  prints_nan hx h

example : mag .b64 0x8000000000000000 = 0 ∧ mag .b32 0xFF800000 = infPattern .b32 ∧
    infPattern .b64 < mag .b64 0xFFF0000000000001 := by decide

/-! ## C33, C34 -/

/-- The inputs on which `fp_to_chars_n` returns: all but those of C10. -/
theorem prints_some (cfg : Cfg) (F : Fmt) (x : Nat) (mode : RoundingMode) (crs : Crs) (hx : x < 2 ^ width F)
    (h : FiniteNonzero F x → IsTruncating (isNeg F x) mode = false ∨
      ¬ (Spec.ZeroDivisibility F x ∧ (cfg.x64 = true ∨ cfg.ndebug = false))) :
    ∃ text, Prints cfg F x mode crs text ∧ text.length ≤ maxText F ∧ ∀ ch ∈ text, ch ≠ '\x00' := by
  rcases Nat.lt_trichotomy (mag F x) (infPattern F) with hf | hf | hf
  · rcases Nat.eq_zero_or_pos (mag F x) with h0 | h0
    · refine ⟨_, C32_zero cfg F x mode crs hx h0, ?_, ?_⟩ <;> cases isNeg F x <;> cases F <;> decide
    · obtain ⟨text, hp⟩ := (C31_returns cfg F x mode crs ⟨hx, h0, hf⟩).mpr (h ⟨hx, h0, hf⟩)
      refine ⟨text, hp, ?_, ?_⟩
      · obtain ⟨r, hr, rfl⟩ := prints_inv ⟨hx, h0, hf⟩ hp
        exact (printable ⟨hx, h0, hf⟩ hr).1.length_le _
      · obtain ⟨r, hr, rfl⟩ := prints_inv ⟨hx, h0, hf⟩ hp
        intro ch hch
        rintro rfl
        have hd : ∀ n, '\x00' ∉ Nat.toDigits 10 n := fun n hn => absurd (toDigits_digits n _ hn) (by decide)
        have e1 : '\x00' ∉ (if isNeg F x = true then ['-'] else []) := by cases isNeg F x <;> decide
        have e2 : ∀ p : Prop, [Decidable p] → '\x00' ∉ (if p then ['-'] else []) := by
          intro p _; split <;> decide
        have e3 : '\x00' ∉ (if (Nat.toDigits 10 r.significand).length > 1 then
            '.' :: (Nat.toDigits 10 r.significand).drop 1 else []) := by
          split
          · intro hm
            rcases List.mem_cons.mp hm with h' | h'
            · exact absurd h' (by decide)
            · exact hd _ (List.mem_of_mem_drop h')
          · simp
        unfold sci at hch
        simp only [List.mem_append, List.mem_cons] at hch
        rcases hch with h' | (h' | h') | h' | h' | h'
        · exact e1 h'
        · exact hd _ (List.mem_of_mem_take h')
        · exact e3 h'
        · exact absurd h' (by decide)
        · exact e2 _ h'
        · exact hd _ h'
  · refine ⟨_, C32_infinity cfg F x mode crs hx hf, ?_, ?_⟩ <;> cases isNeg F x <;> cases F <;> decide
  · refine ⟨_, C32_nan cfg F x mode crs hx hf, ?_, ?_⟩
    · cases F <;> decide
    · decide

/-- **C33**: on every bit pattern (except those of C10 in truncating modes) `fp_to_chars_n` returns when given
24 bytes (15 for `float`), and writes exactly a text of at most that length at the start. -/
theorem C33_buffer (cfg : Cfg) (F : Fmt) (x : Nat) (mode : RoundingMode) (crs : Crs) (hx : x < 2 ^ width F)
    (h : FiniteNonzero F x → IsTruncating (isNeg F x) mode = false ∨
      ¬ (Spec.ZeroDivisibility F x ∧ (cfg.x64 = true ∨ cfg.ndebug = false)))
    (mem : Buffer) (hm : maxText F ≤ mem.length) :
    ∃ text : List Char, text.length ≤ maxText F ∧
      fp_to_chars_n cfg F x mem mode crs = .ok (text.map some ++ mem.drop text.length, text.length) := by
  obtain ⟨text, hp, hl, -⟩ := prints_some cfg F x mode crs hx h
  exact ⟨text, hl, hp mem (by omega)⟩

/-- **C34**: `fp_to_chars` writes the text of `fp_to_chars_n` and a NUL behind it, and returns the position of
that NUL; the text itself has none. -/
theorem C34_terminated (cfg : Cfg) (F : Fmt) (x : Nat) (mode : RoundingMode) (crs : Crs) (text : List Char)
    (hp : Prints cfg F x mode crs text) : PrintsTerminated cfg F x mode crs text := by
  intro mem hmem
  obtain ⟨Y, Z, rfl, hY, hd⟩ := take_drop_cases (n := text.length) (mem := mem) (by omega)
  unfold fp_to_chars
  rw [hp _ (by omega), hd]
  simp only [Exec.ok_bind]
  have : 0 < Z.length := by simp at hmem; omega
  obtain ⟨z, Z', rfl⟩ := List.exists_cons_of_length_pos this
  rw [put_mid _ _ _ _ _ (by simp)]
  simp only [Exec.ok_bind]
  have e : (Y ++ z :: Z').drop (text.length + 1) = Z' := by
    rw [← hY, ← List.drop_drop, List.drop_left]; rfl
  rw [e]
  simp

/-- **C34**, **C33**: 25 bytes (16 for `float`) are enough, hence so are the documented 31. -/
theorem C34_no_nul (cfg : Cfg) (F : Fmt) (x : Nat) (mode : RoundingMode) (crs : Crs) (hx : x < 2 ^ width F)
    (h : FiniteNonzero F x → IsTruncating (isNeg F x) mode = false ∨
      ¬ (Spec.ZeroDivisibility F x ∧ (cfg.x64 = true ∨ cfg.ndebug = false)))
    (mem : Buffer) (hm : maxText F + 1 ≤ mem.length) :
    ∃ text : List Char, text.length ≤ maxText F ∧ (∀ ch ∈ text, ch ≠ '\x00') ∧
      fp_to_chars cfg F x mem mode crs =
        .ok ((text ++ ['\x00']).map some ++ mem.drop (text.length + 1), text.length) ∧
      ∃ mem', fp_to_chars_n cfg F x mem mode crs = .ok (mem', text.length) := by
  obtain ⟨text, hp, hl, hn⟩ := prints_some cfg F x mode crs hx h
  exact ⟨text, hl, hn, C34_terminated cfg F x mode crs text hp mem (by omega), _, hp mem (by omega)⟩

-- the bound of C33 is attained, and one byte less is not enough
example : sci true 22250738585072014 (-324) = "-2.2250738585072014E-308".toList ∧
    "-2.2250738585072014E-308".length = maxText .b64 := by decide +kernel
example : fp_to_chars_n ⟨true, false⟩ .b64 0x8010000000000000 (List.replicate 24 none) .nearest_to_even .tie_to_even =
    .ok ("-2.2250738585072014E-308".toList.map some, 24) := by decide +kernel
example : fp_to_chars_n ⟨true, false⟩ .b64 0x8010000000000000 (List.replicate 23 none) .nearest_to_even .tie_to_even =
    .fault .outOfBounds := by decide +kernel
example : fp_to_chars ⟨true, false⟩ .b32 0x8F52F89D (List.replicate 16 none) .nearest_to_even .tie_to_even =
    .ok ("-1.04016806E-29\x00".toList.map some, 15) := by decide +kernel

/-! ## C35 -/

theorem head_toDigits {s : Nat} (h : 0 < s) : (Nat.toDigits 10 s).head? ≠ some '0' := by
  have h1 : 0 < numDigits s := by
    by_contra hc
    have := numDigits_le_iff.mp (show numDigits s ≤ 0 by omega)
    omega
  have h2 : 10 ^ (numDigits s - 1) ≤ s := pow_le_of_lt_numDigits (by omega)
  rw [toDigits_eq_low h2 (by rw [Nat.sub_add_cancel h1]; exact lt_pow_numDigits s)]
  have : 0 < s / 10 ^ (numDigits s - 1) := Nat.div_pos h2 (by positivity)
  simp
  omega

theorem last_toDigits (s : Nat) : (Nat.toDigits 10 s).getLast? = some (Nat.digitChar (s % 10)) := by
  by_cases h : s < 10
  · rw [Nat.toDigits_of_lt_base h, Nat.mod_eq_of_lt h]; rfl
  · rw [Nat.toDigits_of_base_le (by norm_num) (by omega)]; simp

/-- **C35**: the text has no redundant characters. -/
theorem C35_canonical (cfg : Cfg) (F : Fmt) (x : Nat) (mode : RoundingMode) (crs : Crs) (text : List Char)
    (h : FiniteNonzero F x) (hp : Prints cfg F x mode crs text) :
    ∃ (d : Char) (fs es : List Char) (eneg : Bool),
      text = (if isNeg F x then ['-'] else []) ++ (d :: (if fs = [] then [] else '.' :: fs)) ++
        ('E' :: ((if eneg then ['-'] else []) ++ es)) ∧
      d.isDigit ∧ d ≠ '0' ∧ (∀ ch ∈ fs, ch.isDigit) ∧ fs.getLast? ≠ some '0' ∧
      es ≠ [] ∧ (∀ ch ∈ es, ch.isDigit) ∧ (es.head? = some '0' → es = ['0'] ∧ eneg = false) := by
  obtain ⟨r, hr, rfl⟩ := prints_inv h hp
  obtain ⟨hP, -⟩ := printable h hr
  set s := r.significand
  set t := r.exponent
  obtain ⟨d, fs, hd⟩ := List.exists_cons_of_ne_nil (Nat.toDigits_ne_nil (n := s) (b := 10))
  have hdig := toDigits_digits s
  rw [hd] at hdig
  set E : Int := t + (Nat.toDigits 10 s).length - 1 with hE
  refine ⟨d, fs, Nat.toDigits 10 E.natAbs, decide (E < 0), ?_, hdig d (by simp), ?_,
    fun ch hch => hdig ch (by simp [hch]), ?_, Nat.toDigits_ne_nil, toDigits_digits _, ?_⟩
  · unfold sci
    simp only
    rw [← hE, hd]
    cases fs <;> by_cases hn : E < 0 <;> simp [hn]
  · have := head_toDigits hP.pos
    rw [hd] at this
    simpa using this
  · intro hl
    have h1 := last_toDigits s
    rw [hd] at h1
    cases hf : fs with
    | nil => rw [hf] at hl; simp at hl
    | cons a l =>
      rw [hf] at hl h1
      rw [List.getLast?_cons_cons, hl] at h1
      have := hP.last
      simp at h1
      omega
  · intro h0
    by_cases hz : E.natAbs = 0
    · rw [hz]
      refine ⟨rfl, by simp; omega⟩
    · exact absurd h0 (head_toDigits (by omega))

/-! ## C36 -/

/-- **C36**: `decimal_length` counts the decimal digits of every number up to its precondition. -/
theorem C36_decimal_length (cfg : Cfg) (F : Fmt) (v : Nat) (h0 : 0 < v)
    (h : v < (match (generalizing := false) F with | .b32 => 10 ^ 9 | .b64 => 10 ^ 17)) :
    decimal_length cfg F v = .ok (numDigits v) := by
  obtain ⟨k, h1, h2, h3, -⟩ := decimal_length_spec cfg F h0 (by cases F <;> exact h)
  rw [h1, ← length_toDigits_numDigits h0, length_toDigits_eq h2 h3]

/-- **C36**: beyond it the assertion fails. -/
theorem C36_assert (x64 : Bool) (F : Fmt) (v : Nat) (h : (match (generalizing := false) F with | .b32 => 10 ^ 9 | .b64 => 10 ^ 17) ≤ v) :
    decimal_length ⟨x64, false⟩ F v = .fault .assertion := by
  cases F
  · simp only at h
    simp only [decimal_length, cassert]
    rw [if_neg (by simp; omega)]
    rfl
  · simp only at h
    simp only [decimal_length, cassert]
    rw [if_neg (by simp; omega)]
    rfl

example : decimal_length ⟨true, false⟩ .b64 99999999999999999 = .ok 17 := by decide +kernel

/-! ## C37 -/

/-- **C37**: two bit patterns that are not NaN and print the same text are equal. -/
theorem C37_injective (cfg cfg' : Cfg) (F : Fmt) (x y : Nat) (mode : RoundingMode) (crs crs' : Crs)
    (hx : x < 2 ^ width F) (hy : y < 2 ^ width F) (hxn : mag F x ≤ infPattern F) (hyn : mag F y ≤ infPattern F)
    (text : List Char) (hpx : Prints cfg F x mode crs text) (hpy : Prints cfg' F y mode crs' text) : x = y := by
  have hne : ∀ neg : Bool, readText (if neg then "-Infinity".toList else "Infinity".toList) = none := by
    intro neg; cases neg <;> rfl
  have key : ∀ cfg crs x, x < 2 ^ width F → mag F x ≤ infPattern F → Prints cfg F x mode crs text →
      (mag F x = infPattern F ∧ text = (if isNeg F x then "-Infinity".toList else "Infinity".toList)) ∨
      (mag F x = 0 ∧ readText text = some (isNeg F x, 0)) ∨
      (∃ v, 0 < v ∧ readText text = some (isNeg F x, v) ∧ RoundsTo F mode (isNeg F x) v (mag F x)) := by
    intro cfg crs x hx hxn hp
    rcases Nat.lt_or_eq_of_le hxn with hf | hf
    · rcases Nat.eq_zero_or_pos (mag F x) with h0 | h0
      · refine Or.inr (Or.inl ⟨h0, ?_⟩)
        rw [prints_unique hp (prints_zero hx h0)]
        have := read_sci (isNeg F x) 0 0
        rw [show dec 0 0 = 0 by simp [dec]] at this
        rw [← this]
        congr 1
      · refine Or.inr (Or.inr ?_)
        obtain ⟨r, hr, rfl⟩ := prints_inv ⟨hx, h0, hf⟩ hp
        obtain ⟨p1, p2⟩ := printable ⟨hx, h0, hf⟩ hr
        refine ⟨_, ?_, read_sci _ _ _, p2⟩
        unfold dec
        have := p1.pos
        have := ten_zpow_pos r.exponent
        positivity
    · exact Or.inl ⟨hf, prints_unique hp (C32_infinity cfg F x mode crs hx hf)⟩
  have fin : isNeg F x = isNeg F y → mag F x = mag F y → x = y := by
    intro h1 h2
    have h3 : (2 ^ (width F - 1) ≤ x) ↔ (2 ^ (width F - 1) ≤ y) := decide_eq_decide.mp h1
    clear key h1
    cases F <;> simp only [mag, width] at * <;> omega
  rcases key cfg crs x hx hxn hpx with ⟨a1, a2⟩ | ⟨a1, a2⟩ | ⟨v, a1, a2, a3⟩ <;>
    rcases key cfg' crs' y hy hyn hpy with ⟨b1, b2⟩ | ⟨b1, b2⟩ | ⟨w, b1, b2, b3⟩
  · refine fin ?_ (by rw [a1, b1])
    rw [a2] at b2
    cases hn : isNeg F x <;> cases hn' : isNeg F y <;> rw [hn, hn'] at b2 <;> first | rfl | exact absurd b2 (by decide)
  · rw [a2, hne] at b2; cases b2
  · rw [a2, hne] at b2; cases b2
  · rw [b2, hne] at a2; cases a2
  · rw [a2] at b2
    simp only [Option.some.injEq, Prod.mk.injEq, and_true] at b2
    exact fin b2 (by rw [a1, b1])
  · rw [a2] at b2
    simp only [Option.some.injEq, Prod.mk.injEq] at b2
    rw [← b2.2] at b1
    exact absurd b1 (lt_irrefl _)
  · rw [b2, hne] at a2; cases a2
  · rw [a2] at b2
    simp only [Option.some.injEq, Prod.mk.injEq] at b2
    rw [b2.2] at a1
    exact absurd a1 (lt_irrefl _)
  · rw [a2] at b2
    simp only [Option.some.injEq, Prod.mk.injEq] at b2
    obtain ⟨c1, rfl⟩ := b2
    rw [c1] at a3
    exact fin c1 (Spec.RoundsTo.unique a3 b3)

-- the two zeros and two neighbouring floats
example : ∀ text, Prints ⟨true, true⟩ .b32 0 .nearest_to_even .tie_to_even text →
    ¬ Prints ⟨true, true⟩ .b32 0x80000000 .nearest_to_even .tie_to_even text := fun text h1 h2 =>
  absurd (C37_injective _ _ .b32 0 0x80000000 _ _ _ (by decide) (by decide) (by decide) (by decide) text h1 h2)
    (by decide)

end Grisu
