import Verif.Properties.Best
import Verif.Properties.Truncating
import Verif.Proofs.Printing

/-! # C90: the rounding policy is a matter of the last digit -/

namespace Grisu

open Spec (RoundsTo value mag isNeg FiniteNonzero dec numDigits IsNearest IsAway IsTruncating ZeroDivisibility NotShortest)

theorem Output.same_leading {I : ℚ → Prop} {s s' : Nat} {t : Int} (o : Output I s t) (hI : Interval? I)
    (h : I (dec s' t)) : s' / 10 = s / 10 := by
  have key : ∀ a b : Nat, I (dec a t) → I (dec b t) → a / 10 < b / 10 → False := by
    intro a b ha hb hab
    apply o.noMult (b / 10) (t + 1) (by omega)
    rw [show t + 1 = t + ((1 : Nat) : Int) by rfl, dec_shift]
    exact hI.convex _ _ _ ha hb (dec_le_dec.mpr (by omega)) (dec_le_dec.mpr (by omega))
  rcases lt_trichotomy (s' / 10) (s / 10) with h1 | h1 | h1
  · exact (key _ _ h o.mem h1).elim
  · exact h1
  · exact (key _ _ o.mem h h1).elim

theorem Output.same_exponent {I : ℚ → Prop} {s s' : Nat} {t t' : Int} (o : Output I s t) (o' : Output I s' t') :
    t' = t := by
  rcases lt_trichotomy t' t with h | h | h
  · exact (o'.noMult _ _ h o.mem).elim
  · exact h
  · exact (o.noMult _ _ h o'.mem).elim

/-- **C90**: every other decimal that reads back as the input and has as few digits as the output has the same exponent and
the same digits up to the last one, or else it has only one digit. -/
theorem C90_alternatives (cfg : Cfg) (F : Fmt) (rs : Bool) (x : Nat) (mode : RoundingMode) (crs : Crs)
    (handler : CaseHandler) (h : FiniteNonzero F x)
    (hm : IsTruncating (isNeg F x) mode = false ∨ ¬ NotShortest F x) (r : FpT)
    (hr : grisu_exact cfg F rs x mode crs handler = .ok r) (s' : Nat) (t' : Int)
    (hs : RoundsTo F mode (isNeg F x) (dec s' t') (mag F x)) (hd : numDigits s' ≤ numDigits r.significand) :
    t' = r.exponent ∧ s' / 10 = r.significand / 10 ∨ numDigits r.significand = 1 := by
  have hI : Interval? (Reads F mode x) := reads_interval h mode
  have o : Output (Reads F mode x) r.significand r.exponent := by
    rcases hm with hm | hm
    · exact main_ok h hm hr
    · by_cases ht : IsTruncating (isNeg F x) mode = true
      · exact (truncating_ok h ht hr).2.2.1 hm
      · exact main_ok h (by simpa using ht) hr
  rcases o.same_length hI hs hd with h1 | ⟨-, h2, -⟩
  · subst h1
    exact Or.inl ⟨rfl, o.same_leading hI hs⟩
  · right
    have := o.shortest hI hs
    have := numDigits_pos (o.pos hI)
    omega

/-- The leading digits and the power of ten returned in the truncating modes, for every policy. -/
private def leadingDigits (F : Fmt) (x : Nat) : List (Option (Nat × Int)) :=
  ([RoundingMode.toward_plus_infinity, .toward_minus_infinity, .toward_zero].filter
      fun mode => IsTruncating (isNeg F x) mode).flatMap fun mode =>
    [Crs.do_not_care, .tie_to_even, .tie_to_odd, .tie_to_up, .tie_to_down].map fun crs =>
      match grisu_exact ⟨false, true⟩ F false x mode crs .assert_finite with
      | .ok r => some (r.significand / 10, r.exponent)
      | .fault _ => none

private def allSame : List (Option (Nat × Int)) → Bool
  | some q :: l => l.all (· == some q)
  | _ => false

private theorem allSame_spec {l : List (Option (Nat × Int))} (h : allSame l = true) :
    ∃ q, ∀ o ∈ l, o = some q := by
  unfold allSame at h
  split at h
  · rename_i q l
    refine ⟨q, fun o ho => ?_⟩
    rcases List.mem_cons.mp ho with rfl | ho
    · rfl
    · simpa using List.all_eq_true.mp h o ho
  · cases h

private theorem check32 : ∀ x ∈ [0x54FFFFFF, 0x587FFFFF, 0x5D7FFFFF, 0x5DFFFFFF, 0xD4FFFFFF, 0xD87FFFFF, 0xDD7FFFFF,
    0xDDFFFFFF], allSame (leadingDigits .b32 x) = true := by decide +kernel

private theorem check64 : ∀ x ∈ [0x461FFFFFFFFFFFFF, 0xC61FFFFFFFFFFFFF], allSame (leadingDigits .b64 x) = true := by
  decide +kernel

private theorem leading_exceptional {F : Fmt} {x : Nat} (hx : FiniteNonzero F x) (hn : NotShortest F x) :
    ∃ q, ∀ o ∈ leadingDigits F x, o = some q := by
  apply allSame_spec
  cases F
  · exact check32 x ((C08_exceptions x).1.mp ⟨hx, hn⟩)
  · exact check64 x ((C08_exceptions x).2.mp ⟨hx, hn⟩)

/-- **C90**: two calls that differ in the policy only, if they return, return the same exponent and significands that differ
in the last digit only. -/
theorem C90_last_digit (cfg cfg' : Cfg) (F : Fmt) (rs rs' : Bool) (x : Nat) (mode : RoundingMode) (crs crs' : Crs)
    (handler handler' : CaseHandler) (h : FiniteNonzero F x) (r r' : FpT)
    (hr : grisu_exact cfg F rs x mode crs handler = .ok r)
    (hr' : grisu_exact cfg' F rs' x mode crs' handler' = .ok r') :
    r.exponent = r'.exponent ∧ r.significand / 10 = r'.significand / 10 := by
  have hI : Interval? (Reads F mode x) := reads_interval h mode
  have key : Output (Reads F mode x) r.significand r.exponent → Output (Reads F mode x) r'.significand r'.exponent →
      r.exponent = r'.exponent ∧ r.significand / 10 = r'.significand / 10 := by
    intro o o'
    have he := o'.same_exponent o
    refine ⟨he, o'.same_leading hI ?_⟩
    rw [← he]
    exact o.mem
  by_cases ht : IsTruncating (isNeg F x) mode = true
  · by_cases hn : NotShortest F x
    · -- the exceptional inputs of C08
      obtain ⟨q, hq⟩ := leading_exceptional h hn
      have one : ∀ {cfg rs handler crs r}, grisu_exact cfg F rs x mode crs handler = .ok r →
          (r.significand / 10, r.exponent) = q := by
        intro cfg rs handler crs r hr
        obtain ⟨s, t, h1, -⟩ := main_truncating h crs ht
        have h2 : r.significand = s ∧ r.exponent = t := by
          by_cases hc : ZeroDivisibility F x ∧ Strict cfg
          · obtain ⟨f, hf⟩ := (h1 cfg rs handler).1 hc
            rw [hf] at hr
            cases hr
          · rw [(h1 cfg rs handler).2 hc] at hr
            cases hr
            exact ⟨rfl, rfl⟩
        have h3 := (h1 ⟨false, true⟩ false .assert_finite).2 fun hc => absurd hc.2 (by decide)
        have h4 : some (s / 10, t) ∈ leadingDigits F x := by
          unfold leadingDigits
          rw [List.mem_flatMap]
          refine ⟨mode, List.mem_filter.mpr ⟨?_, ht⟩, List.mem_map.mpr ⟨crs, by cases crs <;> decide, by rw [h3]⟩⟩
          cases mode <;> first | decide | (simp [IsTruncating] at ht)
        have h5 := hq _ h4
        rw [h2.1, h2.2]
        exact Option.some.inj h5
      have e := (one hr).trans (one hr').symm
      exact ⟨congrArg Prod.snd e, congrArg Prod.fst e⟩
    · exact key ((truncating_ok h ht hr).2.2.1 hn) ((truncating_ok h ht hr').2.2.1 hn)
  · exact key (main_ok h (by simpa using ht) hr) (main_ok h (by simpa using ht) hr')

/-- Two significands with the same leading digits have texts that differ in the last digit only. -/
theorem sci_last {neg : Bool} {s s' : Nat} {t : Int} (h : s / 10 = s' / 10) :
    ∃ pre suf, Spec.sci neg s t = pre ++ (Nat.digitChar (s % 10) :: 'E' :: suf) ∧
      Spec.sci neg s' t = pre ++ (Nat.digitChar (s' % 10) :: 'E' :: suf) := by
  by_cases hs : s < 10
  · have hs' : s' < 10 := by omega
    refine ⟨if neg then ['-'] else [], (if t < 0 then ['-'] else []) ++ Nat.toDigits 10 t.natAbs, ?_, ?_⟩
    · unfold Spec.sci
      rw [Nat.toDigits_of_lt_base hs, Nat.mod_eq_of_lt hs]
      simp
    · unfold Spec.sci
      rw [Nat.toDigits_of_lt_base hs', Nat.mod_eq_of_lt hs']
      simp
  · have hs' : ¬ s' < 10 := by omega
    obtain ⟨d, ds, hd⟩ : ∃ d ds, Nat.toDigits 10 (s / 10) = d :: ds :=
      List.exists_cons_of_ne_nil (by
        have := Nat.length_toDigits_pos (b := 10) (n := s / 10)
        intro hc
        rw [hc] at this
        exact absurd this (by decide))
    have e : Nat.toDigits 10 s = d :: (ds ++ [Nat.digitChar (s % 10)]) := by
      rw [Nat.toDigits_of_base_le (by norm_num) (by omega), hd]
      rfl
    have e' : Nat.toDigits 10 s' = d :: (ds ++ [Nat.digitChar (s' % 10)]) := by
      rw [Nat.toDigits_of_base_le (by norm_num) (by omega), ← h, hd]
      rfl
    refine ⟨(if neg then ['-'] else []) ++ (d :: '.' :: ds),
      (if t + (ds.length + 1 + 1) < 1 then ['-'] else []) ++ Nat.toDigits 10 (t + (ds.length + 1 + 1) - 1).natAbs, ?_, ?_⟩
    · unfold Spec.sci
      rw [e]
      simp
    · unfold Spec.sci
      rw [e']
      simp

/-- **C90**, of the text: whatever the two policies, the texts printed for one input in one mode have the same length and
differ at most in the character before the `E`, which is a digit other than 0 in both.  The hypothesis excludes the inputs of
C10 on which nothing is printed. -/
theorem C90_text (cfg : Cfg) (F : Fmt) (x : Nat) (mode : RoundingMode) (crs crs' : Crs) (h : FiniteNonzero F x)
    (hf : IsTruncating (isNeg F x) mode = false ∨ ¬ (ZeroDivisibility F x ∧ (cfg.x64 = true ∨ cfg.ndebug = false))) :
    ∃ (pre suf : List Char) (c c' : Char), c ∈ "123456789".toList ∧ c' ∈ "123456789".toList ∧
      Spec.Prints cfg F x mode crs (pre ++ (c :: 'E' :: suf)) ∧
      Spec.Prints cfg F x mode crs' (pre ++ (c' :: 'E' :: suf)) := by
  have one : ∀ crs, ∃ r, grisu_exact cfg F false x mode crs .assert_finite = .ok r ∧ r.significand % 10 ≠ 0 := by
    intro crs
    by_cases ht : IsTruncating (isNeg F x) mode = true
    · obtain ⟨s, t, h1, -, -, -, -, -, -, h2⟩ := main_truncating h crs ht
      exact ⟨_, (h1 cfg false .assert_finite).2 fun hc => hf.elim (fun h => by simp [ht] at h) fun h => h hc, h2⟩
    · obtain ⟨s, t, h1, h2⟩ := main cfg false .assert_finite crs h (by simpa using ht)
      exact ⟨_, h1, h2.no_trailing_zero⟩
  have digit : ∀ n : Nat, n % 10 ≠ 0 → Nat.digitChar (n % 10) ∈ "123456789".toList := by
    intro n hn
    have hlt : n % 10 < 10 := Nat.mod_lt _ (by norm_num)
    generalize n % 10 = d at hn hlt
    interval_cases d <;> first | exact absurd rfl hn | decide
  obtain ⟨r, h1, h2⟩ := one crs
  obtain ⟨r', h1', h2'⟩ := one crs'
  obtain ⟨he, hl⟩ := C90_last_digit cfg cfg F false false x mode crs crs' _ _ h r r' h1 h1'
  obtain ⟨pre, suf, e, e'⟩ := sci_last (neg := isNeg F x) (t := r.exponent) hl
  have p := prints_finite h h1
  have p' := prints_finite h h1'
  rw [e] at p
  rw [← he, e'] at p'
  exact ⟨pre, suf, _, _, digit _ h2, digit _ h2', p, p'⟩

-- the policies do differ: the smallest float, and an exceptional input of C08
example : FiniteNonzero .b32 1 ∧
    grisu_exact ⟨true, false⟩ .b32 false 1 .nearest_to_even .do_not_care .assert_finite = .ok ⟨2, -45, none⟩ ∧
    grisu_exact ⟨true, false⟩ .b32 false 1 .nearest_to_even .tie_to_even .assert_finite = .ok ⟨1, -45, none⟩ :=
  ⟨⟨by decide, by decide, by decide⟩, by decide +kernel, by decide +kernel⟩
example : FiniteNonzero .b32 0x587FFFFF ∧
    grisu_exact ⟨true, false⟩ .b32 false 0x587FFFFF .toward_zero .do_not_care .assert_finite = .ok ⟨112589989, 7, none⟩ ∧
    grisu_exact ⟨true, false⟩ .b32 false 0x587FFFFF .toward_zero .tie_to_even .assert_finite = .ok ⟨112589985, 7, none⟩ :=
  ⟨⟨by decide, by decide, by decide⟩, by decide +kernel, by decide +kernel⟩
-- the hypothesis of `C90_text`, and an alternative for `C90_alternatives`: 1E-45 and 2E-45
example : IsTruncating (isNeg .b32 1) .nearest_to_even = false := rfl
example : RoundsTo .b32 .nearest_to_even (isNeg .b32 1) (dec 2 (-45)) (mag .b32 1) := by
  obtain ⟨r, h1, h2⟩ := C02_roundtrip_nearest ⟨true, false⟩ .b32 false 1 .nearest_to_even .do_not_care .assert_finite
    ⟨by decide, by decide, by decide⟩ rfl
  have e : grisu_exact ⟨true, false⟩ .b32 false 1 .nearest_to_even .do_not_care .assert_finite = .ok ⟨2, -45, none⟩ := by
    decide +kernel
  rw [e] at h1
  cases h1
  exact h2

end Grisu
