import Mathlib.Data.List.TakeWhile
import Verif.SpecShortText
import Verif.Proofs.CrossReading
import Verif.Properties.Text

/-! # The length of texts in scientific notation: lemmas -/

namespace Grisu

open Spec (FiniteNonzero RoundsTo isNeg mag value dec numDigits IsTruncating sci readText readDigits readSign readFraction
  digitsValue OneDigitFirst NotShortest)

variable {F : Fmt} {x : Nat}

theorem length_toDigits_le_iff {n k : Nat} (hk : 0 < k) : (Nat.toDigits 10 n).length ≤ k ↔ n < 10 ^ k := by
  rcases Nat.eq_zero_or_pos n with rfl | h
  · have : (Nat.toDigits 10 0).length = 1 := rfl
    have := Nat.pow_pos (a := 10) (n := k) (by norm_num)
    omega
  · rw [length_toDigits_numDigits h]
    exact numDigits_le_iff

theorem length_toDigits_pos (n : Nat) : 0 < (Nat.toDigits 10 n).length :=
  List.length_pos_of_ne_nil Nat.toDigits_ne_nil

theorem length_toDigits_mono {m n : Nat} (h : m ≤ n) : (Nat.toDigits 10 m).length ≤ (Nat.toDigits 10 n).length := by
  rw [length_toDigits_le_iff (length_toDigits_pos n)]
  exact h.trans_lt ((length_toDigits_le_iff (length_toDigits_pos n)).mp le_rfl)

theorem length_toDigits_succ (n : Nat) : (Nat.toDigits 10 (n + 1)).length ≤ (Nat.toDigits 10 n).length + 1 := by
  rw [length_toDigits_le_iff (Nat.succ_pos _), pow_succ]
  have := (length_toDigits_le_iff (length_toDigits_pos n)).mp le_rfl
  omega

/-- Number of characters of a written exponent. -/
def elen (e : Int) : Nat := (if e < 0 then 1 else 0) + (Nat.toDigits 10 e.natAbs).length

theorem elen_step (e : Int) : elen (e + 1) ≤ elen e + 1 ∧ elen e ≤ elen (e + 1) + 1 := by
  unfold elen
  rcases lt_trichotomy e (-1) with h | h | h
  · have h1 : e.natAbs = (e + 1).natAbs + 1 := by omega
    have h2 := length_toDigits_succ (e + 1).natAbs
    have h3 := length_toDigits_mono (Nat.le_succ (e + 1).natAbs)
    rw [h1, if_pos (by omega), if_pos (by omega)]
    simp only [Nat.succ_eq_add_one] at h3
    omega
  · subst h; decide
  · have h1 : (e + 1).natAbs = e.natAbs + 1 := by omega
    have h2 := length_toDigits_succ e.natAbs
    have h3 := length_toDigits_mono (Nat.le_succ e.natAbs)
    rw [h1, if_neg (by omega), if_neg (by omega)]
    simp only [Nat.succ_eq_add_one] at h3
    omega

theorem elen_add (e : Int) (z : Nat) : elen e ≤ elen (e + z) + z := by
  induction z with
  | zero => simp
  | succ z ih =>
    have := (elen_step (e + z)).2
    rw [show e + ((z + 1 : Nat) : Int) = e + z + 1 by push_cast; ring]
    omega

theorem elen_neg_mono {e e' : Int} (h : e' ≤ e) (h0 : e ≤ 0) : elen e ≤ elen e' := by
  unfold elen
  have := length_toDigits_mono (m := e.natAbs) (n := e'.natAbs) (by omega)
  split <;> split <;> omega

theorem elen_pos_mono {e e' : Int} (h : e' ≤ e) (h0 : 0 ≤ e') : elen e' ≤ elen e := by
  unfold elen
  rw [if_neg (by omega), if_neg (by omega)]
  have := length_toDigits_mono (m := e'.natAbs) (n := e.natAbs) (by omega)
  omega

/-- Length of the text of a nonzero decimal. -/
theorem length_sci (neg : Bool) {s : Nat} (h : 0 < s) (t : Int) :
    (sci neg s t).length = (if neg then 1 else 0) + numDigits s + (if 1 < numDigits s then 1 else 0) + 1 +
      elen (t + numDigits s - 1) := by
  unfold sci elen
  have h1 := length_toDigits_numDigits h
  have h2 := numDigits_pos h
  simp only [List.length_append, List.length_cons, List.length_take, h1]
  have h3 : (if neg then ['-'] else ([] : List Char)).length = if neg then 1 else 0 := by cases neg <;> rfl
  have h4 : ∀ e : Int, (if e < 0 then ['-'] else ([] : List Char)).length = if e < 0 then 1 else 0 := by
    intro e; split <;> rfl
  rw [h3, h4]
  have h5 : (if numDigits s > 1 then '.' :: (Nat.toDigits 10 s).drop 1 else ([] : List Char)).length =
      (if 1 < numDigits s then 1 else 0) + (numDigits s - 1) := by
    split
    · rename_i hc
      rw [List.length_cons, List.length_drop, h1]; omega
    · rename_i hc
      rw [List.length_nil]; omega
  rw [h5]
  omega

theorem digitsValue_foldl (ds : List Char) (h : ∀ ch ∈ ds, ch.isDigit = true) (n : Nat) :
    ds.foldl (fun n ch => 10 * n + (ch.toNat - 48)) n < (n + 1) * 10 ^ ds.length := by
  induction ds generalizing n with
  | nil => simp
  | cons d ds ih =>
    rw [List.foldl_cons, List.length_cons, pow_succ]
    have hd : d.toNat - 48 ≤ 9 := by
      have := h d (by simp)
      simp only [Char.isDigit, Bool.and_eq_true, decide_eq_true_eq] at this
      have h2 : d.val.toNat ≤ 57 := this.2
      have : d.toNat = d.val.toNat := rfl
      omega
    refine (ih (fun ch hc => h ch (by simp [hc])) _).trans_le ?_
    calc (10 * n + (d.toNat - 48) + 1) * 10 ^ ds.length ≤ ((n + 1) * 10) * 10 ^ ds.length :=
          Nat.mul_le_mul_right _ (by omega)
      _ = (n + 1) * (10 ^ ds.length * 10) := by ring

theorem digitsValue_lt {ds : List Char} (h : ∀ ch ∈ ds, ch.isDigit = true) : digitsValue ds < 10 ^ ds.length := by
  have := digitsValue_foldl ds h 0
  simpa [digitsValue] using this

theorem readDigits_spec (text : List Char) :
    text = (readDigits text).1 ++ (readDigits text).2 ∧ ∀ ch ∈ (readDigits text).1, ch.isDigit = true :=
  ⟨List.takeWhile_append_dropWhile.symm, fun _ h => List.mem_takeWhile_imp h⟩

theorem readSign_length (text : List Char) :
    text.length = (if (readSign text).1 then 1 else 0) + (readSign text).2.length := by
  unfold readSign
  split
  · simp; omega
  · simp

theorem readFraction_spec (text : List Char) :
    (∀ ch ∈ (readFraction text).1, ch.isDigit = true) ∧
      text.length ≥ (if (readFraction text).1 = [] then 0 else 1) + (readFraction text).1.length +
        (readFraction text).2.length := by
  unfold readFraction
  split
  · rename_i text
    obtain ⟨h1, h2⟩ := readDigits_spec text
    refine ⟨h2, ?_⟩
    have := congrArg List.length h1
    rw [List.length_append] at this
    rw [List.length_cons]
    split <;> omega
  · simp

/-- What a text with one digit before the point consists of. -/
theorem readText_inv {text : List Char} {neg : Bool} {v : ℚ} (h : readText text = some (neg, v))
    (h1 : OneDigitFirst text) :
    ∃ (K S : Nat) (f : Int), 0 < K ∧ S < 10 ^ K ∧ v = dec S (f - (K - 1 : Nat)) ∧
      (if neg then 1 else 0) + K + (if 1 < K then 1 else 0) + 1 + elen f ≤ text.length := by
  unfold OneDigitFirst at h1
  unfold readText at h
  have a1 := readSign_length text
  generalize readSign text = p at h h1 a1
  obtain ⟨neg', text1⟩ := p
  simp only at h h1 a1
  have a2 := readDigits_spec text1
  generalize readDigits text1 = p at h h1 a2
  obtain ⟨ip, text2⟩ := p
  simp only at h h1 a2
  have a3 := readFraction_spec text2
  generalize readFraction text2 = p at h a3
  obtain ⟨fp, text3⟩ := p
  simp only at h a3
  split at h
  · rename_i text4
    have a4 := readSign_length text4
    generalize readSign text4 = p at h a4
    obtain ⟨eneg, text5⟩ := p
    simp only at h a4
    have a5 := readDigits_spec text5
    generalize readDigits text5 = p at h a5
    obtain ⟨ex, text6⟩ := p
    simp only at h a5
    split at h
    · cases h
    · rename_i hc
      simp only [not_or, not_not] at hc
      simp only [Option.some.injEq, Prod.mk.injEq] at h
      obtain ⟨rfl, hv⟩ := h
      refine ⟨1 + fp.length, digitsValue (ip ++ fp), if eneg then -(digitsValue ex : Int) else digitsValue ex, by omega,
        ?_, ?_, ?_⟩
      · have := digitsValue_lt (ds := ip ++ fp) (fun ch hch => by
          rcases List.mem_append.mp hch with g | g
          · exact a2.2 ch g
          · exact a3.1 ch g)
        rwa [List.length_append, h1] at this
      · rw [← hv]
        unfold dec
        rw [show 1 + fp.length - 1 = fp.length by omega]
      · have b2 := congrArg List.length a2.1
        rw [List.length_append, h1] at b2
        have b5 := congrArg List.length a5.1
        rw [List.length_append] at b5
        rw [List.length_cons] at a3
        have hx : (Nat.toDigits 10 (digitsValue ex)).length ≤ ex.length :=
          (length_toDigits_le_iff (List.length_pos_of_ne_nil hc.2.1)).mpr (digitsValue_lt a5.2)
        have he : elen (if eneg then -(digitsValue ex : Int) else digitsValue ex) ≤
            (if eneg then 1 else 0) + ex.length := by
          unfold elen
          cases eneg
          · rw [if_neg (by simp)]
            simpa using hx
          · simp only [if_true, Int.natAbs_neg, Int.natAbs_natCast]
            split <;> omega
        have b3 := a3.2
        have hf : (if 1 < 1 + fp.length then 1 else 0) = (if fp = [] then 0 else 1) := by
          cases fp <;> simp
        rw [hf]
        omega
  · cases h

/-- Leading zeros of a text do not make it shorter. -/
theorem strip_zeros {K S : Nat} {f : Int} (hS : 0 < S) (h : S < 10 ^ K) :
    numDigits S + (if 1 < numDigits S then 1 else 0) + elen (f - (K - 1 : Nat) + numDigits S - 1) ≤
      K + (if 1 < K then 1 else 0) + elen f := by
  have h1 : numDigits S ≤ K := numDigits_le_iff.mpr h
  have h2 := numDigits_pos hS
  have h3 := elen_add (f - (K - 1 : Nat) + numDigits S - 1) (K - numDigits S)
  rw [show f - (K - 1 : Nat) + numDigits S - 1 + ((K - numDigits S : Nat) : Int) = f by omega] at h3
  split <;> split <;> omega

/-- The decimal exponent of a number. -/
theorem dec_bounds {s : Nat} (h : 0 < s) (t : Int) :
    (10 : ℚ) ^ (t + numDigits s - 1) ≤ dec s t ∧ dec s t < 10 ^ (t + numDigits s - 1 + 1) := by
  have h1 := numDigits_pos h
  have h2 := pow_le_of_lt_numDigits (s := s) (k := numDigits s - 1) (by omega)
  have h3 := lt_pow_numDigits s
  have h4 := ten_zpow_pos t
  unfold dec
  constructor
  · rw [show t + numDigits s - 1 = ((numDigits s - 1 : Nat) : Int) + t by omega, zpow_add₀ (by norm_num), zpow_natCast]
    refine mul_le_mul_of_nonneg_right ?_ h4.le
    exact_mod_cast h2
  · rw [show t + numDigits s - 1 + 1 = ((numDigits s : Nat) : Int) + t by ring, zpow_add₀ (by norm_num), zpow_natCast]
    refine mul_lt_mul_of_pos_right ?_ h4
    exact_mod_cast h3

theorem ten_zpow_lt_of_lt {a b : Int} (h : (10 : ℚ) ^ a < 10 ^ b) : a < b :=
  (zpow_lt_zpow_iff_right₀ (by norm_num)).mp h

/-- What reads back as a normal number is within an eleventh of it. -/
theorem reads_ratio (h : FiniteNonzero F x) (hn : 2 ^ Spec.mantBits F ≤ mag F x) {mode : RoundingMode} {u v : ℚ}
    (hu : Reads F mode x u) (hv : Reads F mode x v) : 10 * v < 11 * u := by
  have h1 := reads_near h hu
  have h2 := reads_near h hv
  have h3 : (100 : ℚ) * (value F (mag F x + 1) - value F (mag F x)) ≤ value F (mag F x) := by
    rw [Spec.value_succ, Spec.value_eq]
    have h4 := Spec.two_zpow_pos (Spec.ex F (mag F x))
    have h5 : 100 ≤ Spec.sg F (mag F x) := by
      have h6 : 100 ≤ 2 ^ Spec.mantBits F := by cases F <;> decide
      have h7 : 0 < mag F x / 2 ^ Spec.mantBits F := Nat.div_pos hn (by positivity)
      unfold Spec.sg
      rw [if_neg (by omega)]
      omega
    have h6 : (100 : ℚ) ≤ Spec.sg F (mag F x) := by exact_mod_cast h5
    nlinarith
  have h4 : 0 < value F (mag F x) := Spec.value_pos h.nonzero
  rw [abs_lt] at h1 h2
  linarith [h1.1, h2.2]

/-- Numbers that read back as a subnormal one have exponents with as many digits as possible. -/
theorem reads_small (h : FiniteNonzero F x) (hn : mag F x < 2 ^ Spec.mantBits F) {mode : RoundingMode} {v : ℚ}
    (hv : Reads F mode x v) : v < 10 ^ (match (generalizing := false) F with | .b32 => (-9 : Int) | .b64 => -99) := by
  have h1 := (reads_between h hv).2
  refine h1.trans_le ?_
  have h2 : value F (mag F x + 1) ≤ value F (2 ^ Spec.mantBits F) := Spec.value_strictMono.monotone (by omega)
  refine h2.trans ?_
  cases F
  · norm_num [value, Spec.mantBits, Spec.ulpExp]
  · have h3 : value .b64 (2 ^ Spec.mantBits .b64) = 2 ^ (-1022 : Int) := by
      rw [show (-1022 : Int) = 52 + -1074 by norm_num, zpow_add₀ (by norm_num)]
      norm_num [value, Spec.mantBits, Spec.ulpExp]
    rw [h3]
    have h4 : (2 : ℚ) ^ (-1022 : Int) ≤ 2 ^ (-330 : Int) := zpow_le_zpow_right₀ (by norm_num) (by norm_num)
    refine h4.trans ?_
    rw [show (-330 : Int) = -66 + -66 + -66 + -66 + -66 by norm_num, zpow_add₀ (by norm_num), zpow_add₀ (by norm_num),
      zpow_add₀ (by norm_num), zpow_add₀ (by norm_num)]
    norm_num


theorem numDigits_one : numDigits 1 = 1 := by decide

/-- A shortest decimal has a shortest text. -/
theorem short_core (h : FiniteNonzero F x) {mode : RoundingMode} {s s' : Nat} {t t' : Int}
    (o : Output (Reads F mode x) s t) (hp : Printable F s t) (hs' : 0 < s') (hr : Reads F mode x (dec s' t')) :
    numDigits s + (if 1 < numDigits s then 1 else 0) + elen (t + numDigits s - 1) ≤
      numDigits s' + (if 1 < numDigits s' then 1 else 0) + elen (t' + numDigits s' - 1) := by
  have hI : Interval? (Reads F mode x) := reads_interval h mode
  have hn := o.shortest hI hr
  have hs := hp.pos
  have hu := dec_bounds hs t
  have hv := dec_bounds hs' t'
  have hge := hp.ge
  have hpos := numDigits_pos hs
  have hpos' := numDigits_pos hs'
  generalize he : t + numDigits s - 1 = e at hu hge ⊢
  generalize he' : t' + numDigits s' - 1 = e' at hv ⊢
  by_cases hsub : mag F x < 2 ^ Spec.mantBits F
  · -- subnormal numbers: all exponents in question have the same number of digits, or more
    have a1 := hu.1.trans_lt (reads_small h hsub o.mem)
    have a2 := hv.1.trans_lt (reads_small h hsub hr)
    have key : elen e ≤ elen e' := by
      rcases le_total e' e with hle | hle
      · refine elen_neg_mono hle ?_
        cases F <;> simp only [] at a1 <;> have := ten_zpow_lt_of_lt a1 <;> omega
      · unfold elen
        cases F <;> simp only [minSci] at a1 a2 hge <;> have a1 := ten_zpow_lt_of_lt a1 <;>
          have a2 := ten_zpow_lt_of_lt a2 <;> rw [if_pos (by omega), if_pos (by omega)]
        · have b1 : (Nat.toDigits 10 e.natAbs).length ≤ 2 := (length_toDigits_le_iff (by norm_num)).mpr (by omega)
          have b2 : ¬ (Nat.toDigits 10 e'.natAbs).length ≤ 1 := by
            rw [length_toDigits_le_iff (by norm_num)]; omega
          omega
        · have b1 : (Nat.toDigits 10 e.natAbs).length ≤ 3 := (length_toDigits_le_iff (by norm_num)).mpr (by omega)
          have b2 : ¬ (Nat.toDigits 10 e'.natAbs).length ≤ 2 := by
            rw [length_toDigits_le_iff (by norm_num)]; omega
          omega
    split <;> split <;> omega
  · -- normal numbers: the exponents differ by at most one
    have hsub' : 2 ^ Spec.mantBits F ≤ mag F x := by omega
    have r1 := reads_ratio h hsub' o.mem hr
    have r2 := reads_ratio h hsub' hr o.mem
    have ge1 := ten_zpow_pos e
    have ge2 := ten_zpow_pos e'
    have z : ∀ n : Int, (10 : ℚ) ^ (n + 1) = 10 * 10 ^ n := fun n => by
      rw [zpow_add₀ (by norm_num), zpow_one, mul_comm]
    have c1 : e' < e + 1 + 1 := by
      refine ten_zpow_lt_of_lt ?_
      have := hu.2
      rw [z]
      linarith [hv.1]
    have c2 : e < e' + 1 + 1 := by
      refine ten_zpow_lt_of_lt ?_
      have := hv.2
      rw [z]
      linarith [hu.1]
    have l1 := elen_step e
    have l2 := elen_step e'
    -- a power of ten between the two would be shorter
    have one : ∀ n : Int, Reads F mode x (10 ^ n) → numDigits s = 1 := by
      intro n hn
      have := o.shortest hI (s' := 1) (t' := n) (by simpa [dec] using hn)
      rw [numDigits_one] at this
      omega
    rcases (by omega : e' = e ∨ e' = e + 1 ∨ e = e' + 1) with g | g | g
    · rw [g]
      split <;> split <;> omega
    · rw [g] at l2 hv ⊢
      by_cases hne : numDigits s' = numDigits s
      · exfalso
        have h1 := one (e + 1) (hI.convex _ _ _ o.mem hr hu.2.le hv.1)
        have h2 : s ≤ 9 := by have := lt_pow_numDigits s; rw [h1] at this; omega
        have h3 : (s : ℚ) ≤ 9 := by exact_mod_cast h2
        have h4 : t = e := by rw [← he, h1]; push_cast; ring
        have h5 := hv.1
        rw [z] at h5
        unfold dec at r1
        rw [h4] at r1
        unfold dec at h5
        nlinarith
      · split <;> split <;> omega
    · rw [g] at l1 hu ⊢
      by_cases hne : numDigits s' = numDigits s
      · exfalso
        have h1 := one (e' + 1) (hI.convex _ _ _ hr o.mem hv.2.le hu.1)
        have h2 : s' ≤ 9 := by have := lt_pow_numDigits s'; rw [hne, h1] at this; omega
        have h3 : (s' : ℚ) ≤ 9 := by exact_mod_cast h2
        have h4 : t' = e' := by rw [← he', hne, h1]; push_cast; ring
        have h5 := hu.1
        rw [z] at h5
        unfold dec at r2
        rw [h4] at r2
        unfold dec at h5
        nlinarith
      · split <;> split <;> omega

theorem sci_oneDigitFirst (neg : Bool) (s : Nat) (t : Int) : OneDigitFirst (sci neg s t) := by
  unfold OneDigitFirst sci
  have hdig := toDigits_digits s
  obtain ⟨d, fs, hdf⟩ : ∃ d fs, Nat.toDigits 10 s = d :: fs := List.exists_cons_of_ne_nil Nat.toDigits_ne_nil
  have hd : d.isDigit = true := hdig d (by rw [hdf]; simp)
  rw [hdf]
  simp only [List.take_succ_cons, List.take_zero]
  generalize (t + ((d :: fs).length : Nat) - 1 : Int) = e
  generalize ((if e < 0 then ['-'] else []) ++ Nat.toDigits 10 e.natAbs : List Char) = w
  have hs : ∀ rest, readSign ((if neg then ['-'] else []) ++ ([d] ++ rest)) = (neg, [d] ++ rest) := by
    intro rest
    cases neg
    · exact readSign_digit (ds := [d]) (by simpa using hd) (by simp) _
    · rfl
  rw [List.append_assoc [d], hs]
  show (readDigits ([d] ++ _)).1.length = 1
  rw [readDigits_append (by simpa using hd) _ (Or.inr ?_)]
  · rfl
  · by_cases h : (d :: fs).length > 1
    · rw [if_pos h]; exact ⟨'.', _, rfl, rfl⟩
    · rw [if_neg h]; exact ⟨'E', _, rfl, rfl⟩

theorem notShortest_ge_one (hx : NotShortest F x) : (1 : ℚ) ≤ value F (mag F x) := by
  have h1 : (match (generalizing := false) F with | .b32 => 0x3F800000 | .b64 => 0x3FF0000000000000) ≤ mag F x := by
    have h2 := hx.2
    unfold Spec.exponentField at h2
    cases F <;> simp only [Spec.longFields, Spec.mantBits, List.mem_cons, List.not_mem_nil, or_false] at h2 ⊢ <;> omega
  refine le_trans ?_ (Spec.value_strictMono.monotone h1)
  cases F <;> norm_num [value, Spec.mantBits, Spec.ulpExp]

end Grisu
