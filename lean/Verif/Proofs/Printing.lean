import Verif.Proofs.ToChars
import Verif.Properties.Bits
import Verif.Properties.Truncating

/-! # `fp_to_chars_n` and `fp_to_chars` -/

namespace Grisu

open Spec (FiniteNonzero RoundsTo isNeg mag value dec numDigits IsTruncating sci maxText readText infPattern width Prints)

variable {F : Fmt} {x : Nat}

/-- What is true of the significand and exponent of every returned value. -/
structure Printable (F : Fmt) (s : Nat) (t : Int) : Prop where
  pos : 0 < s
  digits : s < 10 ^ maxDigits F
  last : s % 10 ≠ 0
  ge : minSci F ≤ t + numDigits s - 1
  le : t + numDigits s - 1 ≤ maxSci F

theorem printable {cfg : Cfg} {rs : Bool} {handler : CaseHandler} {mode : RoundingMode} {crs : Crs} {r : FpT}
    (h : FiniteNonzero F x) (hr : grisu_exact cfg F rs x mode crs handler = .ok r) :
    Printable F r.significand r.exponent ∧ RoundsTo F mode (isNeg F x) (dec r.significand r.exponent) (mag F x) := by
  cases hm : IsTruncating (isNeg F x) mode with
  | true =>
    obtain ⟨h1, -, -, -, -, -, h7, h8⟩ := truncating_ok h hm hr
    have h9 := sciExp_of_reads (provider_left hm) h h1
    exact ⟨⟨by omega, h7, h8, h9.1, h9.2⟩, h1⟩
  | false =>
    have h2 := main_ok h hm hr
    have hp := h2.pos (reads_interval h mode)
    have hz := h2.no_trailing_zero
    have hmem := h2.mem
    rw [reads_eq h] at h2
    have h3 := sciExp_bounds _ h h2
    exact ⟨⟨hp, numDigits_le_iff.mp (digits_bound _ (FiniteNonzero.input h) h2), hz, h3.1, h3.2⟩, hmem⟩

theorem length_toDigits_numDigits {s : Nat} (h : 0 < s) : (Nat.toDigits 10 s).length = numDigits s := by
  have h1 : 0 < numDigits s := by
    by_contra hc
    have := numDigits_le_iff.mp (show numDigits s ≤ 0 by omega)
    omega
  have := length_toDigits_eq (s := s) (k := numDigits s - 1) (pow_le_of_lt_numDigits (by omega))
    (by rw [Nat.sub_add_cancel h1]; exact lt_pow_numDigits s)
  omega

theorem Printable.exp_lt {s : Nat} {t : Int} (h : Printable F s t) :
    (t + (Nat.toDigits 10 s).length - 1).natAbs < expLimit F := by
  have h1 := h.ge
  have h2 := h.le
  rw [length_toDigits_numDigits h.pos]
  cases F <;> simp only [minSci, maxSci, expLimit] at * <;> omega

theorem sci_neg (s : Nat) (t : Int) : sci true s t = '-' :: sci false s t := rfl

theorem Printable.length_le {s : Nat} {t : Int} (h : Printable F s t) (neg : Bool) :
    (sci neg s t).length ≤ maxText F := by
  have h1 := h.exp_lt
  have hk : (Nat.toDigits 10 s).length ≤ maxDigits F := by
    rw [length_toDigits_numDigits h.pos]; exact numDigits_le_iff.mpr h.digits
  have hp := Nat.length_toDigits_pos (b := 10) (n := s)
  have he : (Nat.toDigits 10 (t + (Nat.toDigits 10 s).length - 1).natAbs).length ≤
      (match F with | .b32 => 2 | .b64 => 3) := by
    cases F
    · exact (Nat.length_toDigits_le_iff (by norm_num) (by norm_num)).mpr (by simpa [expLimit] using h1)
    · exact (Nat.length_toDigits_le_iff (by norm_num) (by norm_num)).mpr (by simpa [expLimit] using h1)
  have e1 : (if neg = true then ['-'] else []).length ≤ 1 := by cases neg <;> simp
  have e2 : ∀ p : Prop, [Decidable p] → (if p then ['-'] else []).length ≤ 1 := by
    intro p _; split <;> simp
  have e3 : (if (Nat.toDigits 10 s).length > 1 then '.' :: (Nat.toDigits 10 s).drop 1 else []).length ≤
      (Nat.toDigits 10 s).length := by
    split <;> simp; omega
  have e4 : ((Nat.toDigits 10 s).take 1).length ≤ 1 := by simp
  have e5 := e2 (t + ((Nat.toDigits 10 s).length : Int) - 1 < 0)
  unfold sci
  simp only [List.length_append, List.length_cons]
  have m1 : maxDigits .b32 = 9 := rfl
  have m2 : maxDigits .b64 = 17 := rfl
  cases F <;> simp only [maxText] at * <;> omega

theorem put_sign_spec (neg : Bool) (Y Z : Buffer) (hY : Y.length = (if neg then ['-'] else []).length) :
    put_sign (Y ++ Z) neg = .ok ((if neg then ['-'] else []).map some ++ Z, (if neg then ['-'] else []).length) := by
  cases neg
  · have : Y = [] := by simpa using hY
    subst this
    rfl
  · obtain ⟨y, rfl⟩ := List.length_eq_one_iff.mp hY
    unfold put_sign
    simp only [if_true]
    have := put_mid [] Z y 0 '-' rfl
    simp only [List.nil_append] at this
    rw [List.cons_append, List.nil_append, this]
    rfl

theorem take_drop_cases {mem : Buffer} {n : Nat} (h : n ≤ mem.length) :
    ∃ Y Z, mem = Y ++ Z ∧ Y.length = n ∧ mem.drop n = Z :=
  ⟨mem.take n, mem.drop n, (List.take_append_drop n mem).symm, by simp [h], rfl⟩

theorem prints_finite {cfg : Cfg} {mode : RoundingMode} {crs : Crs} {r : FpT} (h : FiniteNonzero F x)
    (hr : grisu_exact cfg F false x mode crs .assert_finite = .ok r) :
    Prints cfg F x mode crs (sci (isNeg F x) r.significand r.exponent) := by
  obtain ⟨hp, -⟩ := printable h hr
  obtain ⟨c1, c2, -, -, -, -, -, -, -, c10, -, -⟩ := C27_classification F x h.inRange
  intro mem hmem
  obtain ⟨Y, Z, rfl, hY, hd⟩ := take_drop_cases hmem
  rw [hd]
  unfold fp_to_chars_n
  rw [(C28_bits F x h.inRange).1]
  simp only
  rw [if_pos (c1.mpr h.finite), c10]
  set sg := (if isNeg F x = true then ['-'] else []) with hsg
  have hs : sci (isNeg F x) r.significand r.exponent = sg ++ sci false r.significand r.exponent := by
    rw [hsg]
    cases isNeg F x <;> rfl
  obtain ⟨Y1, Y2, rfl, hY1, hY2⟩ : ∃ Y1 Y2, Y = Y1 ++ Y2 ∧ Y1.length = sg.length ∧
      Y2.length = (sci false r.significand r.exponent).length := by
    refine ⟨Y.take sg.length, Y.drop sg.length, (List.take_append_drop _ _).symm, ?_, ?_⟩ <;>
      rw [hs] at hY <;> simp at hY ⊢ <;> omega
  rw [List.append_assoc, put_sign_spec _ _ _ hY1]
  simp only [Exec.ok_bind]
  rw [if_pos (c2.mpr h.nonzero), hr]
  simp only [Exec.ok_bind]
  rw [fp_to_chars_impl_spec cfg F _ Y2 Z hp.pos hp.digits hp.exp_lt hY2 _ (by simp), hs]
  simp [hsg]

theorem prints_returns {cfg : Cfg} {mode : RoundingMode} {crs : Crs} (h : FiniteNonzero F x) {mem : Buffer} {o}
    (hr : fp_to_chars_n cfg F x mem mode crs = .ok o) :
    ∃ r, grisu_exact cfg F false x mode crs .assert_finite = .ok r := by
  obtain ⟨c1, c2, -⟩ := C27_classification F x h.inRange
  unfold fp_to_chars_n at hr
  rw [(C28_bits F x h.inRange).1] at hr
  simp only at hr
  rw [if_pos (c1.mpr h.finite)] at hr
  cases hp : put_sign mem (BitRep.is_negative F x) with
  | fault e => rw [hp] at hr; simp at hr
  | ok a =>
    rw [hp] at hr
    simp only [Exec.ok_bind] at hr
    rw [if_pos (c2.mpr h.nonzero)] at hr
    cases hg : grisu_exact cfg F false x mode crs .assert_finite with
    | fault e => rw [hg] at hr; simp at hr
    | ok r => exact ⟨r, rfl⟩

theorem prints_inv {cfg : Cfg} {mode : RoundingMode} {crs : Crs} {text : List Char} (h : FiniteNonzero F x)
    (hp : Prints cfg F x mode crs text) :
    ∃ r, grisu_exact cfg F false x mode crs .assert_finite = .ok r ∧
      text = sci (isNeg F x) r.significand r.exponent := by
  obtain ⟨r, hr⟩ := prints_returns h (hp (List.replicate text.length none) (by simp))
  refine ⟨r, hr, ?_⟩
  have h2 := prints_finite h hr
  set text' := sci (isNeg F x) r.significand r.exponent
  have a1 := hp (List.replicate (text.length + text'.length) none) (by simp)
  have a2 := h2 (List.replicate (text.length + text'.length) none) (by simp)
  rw [a1] at a2
  simp only [Exec.ok.injEq, Prod.mk.injEq, Nat.cast_inj] at a2
  obtain ⟨b1, b2⟩ := a2
  rw [b2] at b1
  exact List.map_injective_iff.mpr (Option.some_injective _) (List.append_cancel_right b1)

theorem prints_unique {cfg : Cfg} {mode : RoundingMode} {crs : Crs} {text text' : List Char}
    (h1 : Prints cfg F x mode crs text) (h2 : Prints cfg F x mode crs text') : text = text' := by
  have a1 := h1 (List.replicate (text.length + text'.length) none) (by simp)
  have a2 := h2 (List.replicate (text.length + text'.length) none) (by simp)
  rw [a1] at a2
  simp only [Exec.ok.injEq, Prod.mk.injEq, Nat.cast_inj] at a2
  obtain ⟨b1, b2⟩ := a2
  rw [b2] at b1
  exact List.map_injective_iff.mpr (Option.some_injective _) (List.append_cancel_right b1)

theorem prints_signed {cfg : Cfg} {mode : RoundingMode} {crs : Crs} {body : List Char}
    (hrun : ∀ mem, fp_to_chars_n cfg F x mem mode crs = (do
      let (mem, buf) ← put_sign mem (isNeg F x)
      let mem ← putList mem buf body
      .ok (mem, buf + body.length))) :
    Prints cfg F x mode crs ((if isNeg F x then ['-'] else []) ++ body) := by
  intro mem hmem
  obtain ⟨Y, Z, rfl, hY, hd⟩ := take_drop_cases hmem
  rw [hd, hrun]
  set sg := (if isNeg F x = true then ['-'] else []) with hsg
  obtain ⟨Y1, Y2, rfl, hY1, hY2⟩ : ∃ Y1 Y2, Y = Y1 ++ Y2 ∧ Y1.length = sg.length ∧
      Y2.length = body.length := by
    refine ⟨Y.take sg.length, Y.drop sg.length, (List.take_append_drop _ _).symm, ?_, ?_⟩ <;>
      simp at hY ⊢ <;> omega
  rw [List.append_assoc, put_sign_spec _ _ _ hY1]
  simp only [Exec.ok_bind]
  rw [putList_mid _ _ _ _ _ (by simp) hY2]
  simp [hsg]

theorem prints_zero {cfg : Cfg} {mode : RoundingMode} {crs : Crs} (hx : x < 2 ^ width F) (hz : mag F x = 0) :
    Prints cfg F x mode crs ((if isNeg F x then ['-'] else []) ++ ['0', 'E', '0']) := by
  obtain ⟨c1, c2, -, -, -, -, -, -, -, c10, -, -⟩ := C27_classification F x hx
  refine prints_signed fun mem => ?_
  unfold fp_to_chars_n
  rw [(C28_bits F x hx).1]
  simp only
  rw [if_pos (c1.mpr (by rw [hz]; cases F <;> decide)), c10]
  congr 1
  funext ⟨mem, buf⟩
  simp only
  rw [if_neg (by rw [c2, hz]; simp)]
  rfl

theorem shl_fields (hx : x < 2 ^ width F) (hf : ¬ mag F x < infPattern F) :
    wrap F.q (x * 2 ^ (F.exponent_bits + 1)) ≠ 0 ↔ infPattern F < mag F x := by
  unfold wrap
  cases F <;> simp only [mag, width, infPattern, Fmt.exponent_bits, Fmt.q, Fmt.p, Nat.reducePow, Nat.reduceSub,
    Nat.reduceAdd] at * <;> omega

theorem prints_infinity {cfg : Cfg} {mode : RoundingMode} {crs : Crs} (hx : x < 2 ^ width F)
    (hz : mag F x = infPattern F) :
    Prints cfg F x mode crs ((if isNeg F x then ['-'] else []) ++ ['I', 'n', 'f', 'i', 'n', 'i', 't', 'y']) := by
  obtain ⟨c1, c2, -, -, -, -, -, -, -, c10, -, -⟩ := C27_classification F x hx
  refine prints_signed fun mem => ?_
  unfold fp_to_chars_n
  rw [(C28_bits F x hx).1]
  simp only
  rw [if_neg (mt c1.mp (by omega)), if_neg (mt (shl_fields hx (by omega)).mp (by omega)), c10]
  rfl

theorem prints_nan {cfg : Cfg} {mode : RoundingMode} {crs : Crs} (hx : x < 2 ^ width F)
    (hz : infPattern F < mag F x) : Prints cfg F x mode crs ['N', 'a', 'N'] := by
  obtain ⟨c1, c2, -, -, -, -, -, -, -, c10, -, -⟩ := C27_classification F x hx
  intro mem hmem
  obtain ⟨Y, Z, rfl, hY, hd⟩ := take_drop_cases hmem
  rw [hd]
  unfold fp_to_chars_n
  rw [(C28_bits F x hx).1]
  simp only
  rw [if_neg (mt c1.mp (by omega)), if_pos ((shl_fields hx (by omega)).mpr hz)]
  have := putList_mid [] Y Z ['N', 'a', 'N'] 0 rfl hY
  simp only [List.nil_append] at this
  rw [this]
  rfl

end Grisu
