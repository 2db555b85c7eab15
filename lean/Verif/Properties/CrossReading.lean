import Verif.Proofs.CrossReading
import Verif.Properties.Best

/-! # C91: a number printed in one rounding mode and read in another -/

namespace Grisu
open Spec

variable {F : Fmt} {x : Nat}

/-- A call that returned gives a decimal that reads back as its input, in whichever mode. -/
theorem returned_reads {cfg : Cfg} {rs : Bool} {handler : CaseHandler} {mode : RoundingMode} {crs : Crs} {r : FpT}
    (h : FiniteNonzero F x) (hr : grisu_exact cfg F rs x mode crs handler = .ok r) :
    Reads F mode x (dec r.significand r.exponent) := by
  by_cases hm : IsTruncating (isNeg F x) mode = true
  · exact (truncating_ok h hm hr).1
  · exact (main_ok h (by simpa using hm) hr).mem

/-- How any number between the neighbours of `x` is read. -/
theorem read_near {v : ℚ} (h : FiniteNonzero F x) (h1 : value F (mag F x - 1) < v) (h2 : v < value F (mag F x + 1))
    (mode' : RoundingMode) (neg : Bool) :
    (value F (mag F x) ≤ v → ∃ m, RoundsTo F mode' neg v m ∧ ReadBetween F mode' neg v (mag F x) m) ∧
    (v < value F (mag F x) → ∃ m, RoundsTo F mode' neg v m ∧ ReadBetween F mode' neg v (mag F x - 1) m) := by
  have h0 : 0 < v := (value_nonneg _).trans_lt h1
  have e : mag F x - 1 + 1 = mag F x := Nat.sub_add_cancel h.nonzero
  exact ⟨fun g => rounds_between mode' neg h.finite g h2 h0,
    fun g => rounds_between mode' neg (by have := h.finite; omega) h1.le (by rwa [e]) h0⟩

/-- **C91**: whatever mode a number is printed in and whatever mode the output is read in, it is read as one number only,
and this is the number itself or the next one on the side of the output. -/
theorem C91_reading (cfg : Cfg) (F : Fmt) (rs : Bool) (x : Nat) (mode mode' : RoundingMode) (crs : Crs)
    (handler : CaseHandler) (h : FiniteNonzero F x) (r : FpT) (hr : grisu_exact cfg F rs x mode crs handler = .ok r) :
    ∃! m, RoundsTo F mode' (isNeg F x) (dec r.significand r.exponent) m ∧
      (m = mag F x ∨ m = mag F x + 1 ∧ value F (mag F x) < dec r.significand r.exponent ∨
        m = mag F x - 1 ∧ dec r.significand r.exponent < value F (mag F x)) := by
  obtain ⟨h1, h2⟩ := reads_between h (returned_reads h hr)
  obtain ⟨up, dn⟩ := read_near h h1 h2 mode' (isNeg F x)
  have hp := h.nonzero
  rcases le_or_gt (value F (mag F x)) (dec r.significand r.exponent) with g | g
  · obtain ⟨m, g1, g2, -⟩ := up g
    exact ⟨m, ⟨g1, g2.imp_right fun k => Or.inl ⟨k.1, lt_of_le_of_ne g (Ne.symm k.2)⟩⟩, fun _ k => k.1.unique g1⟩
  · obtain ⟨m, g1, g2, -⟩ := dn g
    exact ⟨m, ⟨g1, g2.elim (fun k => Or.inr (Or.inr ⟨k, g⟩)) fun k => Or.inl (by omega)⟩, fun _ k => k.1.unique g1⟩

/-- **C91**, readers that truncate: they get the number itself exactly when the output is not below it, and otherwise the
next smaller one. -/
theorem C91_truncating_reader (cfg : Cfg) (F : Fmt) (rs : Bool) (x : Nat) (mode mode' : RoundingMode) (crs : Crs)
    (handler : CaseHandler) (h : FiniteNonzero F x) (hm : IsTruncating (isNeg F x) mode' = true) (r : FpT)
    (hr : grisu_exact cfg F rs x mode crs handler = .ok r) :
    RoundsTo F mode' (isNeg F x) (dec r.significand r.exponent)
      (if value F (mag F x) ≤ dec r.significand r.exponent then mag F x else mag F x - 1) := by
  obtain ⟨h1, h2⟩ := reads_between h (returned_reads h hr)
  obtain ⟨up, dn⟩ := read_near h h1 h2 mode' (isNeg F x)
  split
  · rename_i g
    obtain ⟨m, g1, -, g2, -⟩ := up g
    exact g2 hm ▸ g1
  · rename_i g
    obtain ⟨m, g1, -, g2, -⟩ := dn (not_le.mp g)
    exact g2 hm ▸ g1

/-- **C91**, readers that round away from zero: they get the number itself exactly when the output is not above it, and
otherwise the next larger one. -/
theorem C91_away_reader (cfg : Cfg) (F : Fmt) (rs : Bool) (x : Nat) (mode mode' : RoundingMode) (crs : Crs)
    (handler : CaseHandler) (h : FiniteNonzero F x) (hm : IsAway (isNeg F x) mode' = true) (r : FpT)
    (hr : grisu_exact cfg F rs x mode crs handler = .ok r) :
    RoundsTo F mode' (isNeg F x) (dec r.significand r.exponent)
      (if dec r.significand r.exponent ≤ value F (mag F x) then mag F x else mag F x + 1) := by
  obtain ⟨h1, h2⟩ := reads_between h (returned_reads h hr)
  obtain ⟨up, dn⟩ := read_near h h1 h2 mode' (isNeg F x)
  have hp := h.nonzero
  rcases lt_trichotomy (value F (mag F x)) (dec r.significand r.exponent) with g | g | g
  · rw [if_neg (not_le.mpr g)]
    obtain ⟨m, g1, -, -, g2, -⟩ := up g.le
    exact g2 hm g.ne' ▸ g1
  · rw [if_pos g.ge, ← g]
    exact value_reads h mode'
  · rw [if_pos g.le]
    obtain ⟨m, g1, -, -, g2, -⟩ := dn g
    have := g2 hm h1.ne'
    rwa [this, Nat.sub_add_cancel hp] at g1

/-- **C91**, readers that round to nearest: they get the number itself when the output is nearer to it than to its
neighbours, and the neighbour when it is nearer to that; so a difference needs a printer that does not round to nearest,
or an output exactly halfway. -/
theorem C91_nearest_reader (cfg : Cfg) (F : Fmt) (rs : Bool) (x : Nat) (mode mode' : RoundingMode) (crs : Crs)
    (handler : CaseHandler) (h : FiniteNonzero F x) (hm : IsNearest mode' = true) (r : FpT)
    (hr : grisu_exact cfg F rs x mode crs handler = .ok r) :
    let v := dec r.significand r.exponent
    let lower := (value F (mag F x - 1) + value F (mag F x)) / 2
    let upper := (value F (mag F x) + value F (mag F x + 1)) / 2
    (lower < v → v < upper → RoundsTo F mode' (isNeg F x) v (mag F x)) ∧
    (upper < v → RoundsTo F mode' (isNeg F x) v (mag F x + 1) ∧ IsTruncating (isNeg F x) mode = true) ∧
    (v < lower → RoundsTo F mode' (isNeg F x) v (mag F x - 1) ∧ IsAway (isNeg F x) mode = true) := by
  intro v lower upper
  have hv := returned_reads h hr
  obtain ⟨h1, h2⟩ := reads_between h hv
  obtain ⟨up, dn⟩ := read_near h h1 h2 mode' (isNeg F x)
  have hp := h.nonzero
  have e : mag F x - 1 + 1 = mag F x := Nat.sub_add_cancel hp
  have hup := value_lt_succ (F := F) (mag F x)
  have hdn : value F (mag F x - 1) < value F (mag F x) := value_strictMono (by omega)
  have hu : value F (mag F x) < upper := by change _ < (_ + _) / 2; linarith
  have hl : lower < value F (mag F x) := by change (_ + _) / 2 < _; linarith
  have near : IsNearest mode = true → lower ≤ v ∧ v ≤ upper := by
    intro hn
    have key : ∀ prefers, Nearest F prefers v (mag F x) → lower ≤ v ∧ v ≤ upper := fun prefers hn =>
      ((nearest_iff hp h.finite).mp hn).imp (fun k => k.elim le_of_lt fun k => k.1.le)
        fun k => k.elim le_of_lt fun k => k.1.le
    change RoundsTo F mode (isNeg F x) v (mag F x) at hv
    unfold RoundsTo at hv
    generalize isNeg F x = neg at hv
    cases mode <;> cases neg <;> first | exact key _ hv | cases hn
  have cases3 : IsNearest mode = true ∨ IsTruncating (isNeg F x) mode = true ∨ IsAway (isNeg F x) mode = true := by
    generalize isNeg F x = neg
    cases mode <;> cases neg <;> decide
  refine ⟨fun g1 g2 => ?_, fun g => ⟨?_, ?_⟩, fun g => ⟨?_, ?_⟩⟩
  · rcases le_or_gt (value F (mag F x)) v with k | k
    · obtain ⟨m, k1, -, -, -, k2, -⟩ := up k
      exact k2 hm g2 ▸ k1
    · obtain ⟨m, k1, -, -, -, -, k2⟩ := dn k
      have := k2 hm (by rw [e]; exact g1)
      rwa [this, e] at k1
  · obtain ⟨m, k1, -, -, -, -, k2⟩ := up (hu.trans g).le
    exact k2 hm g ▸ k1
  · rcases cases3 with k | k | k
    · exact absurd (near k).2 (not_le.mpr g)
    · exact k
    · obtain ⟨r', k1, -, -, k2⟩ := C06_roundtrip_away cfg F rs x mode crs handler h k
      rw [hr] at k1
      cases k1
      exact absurd (hu.trans g) (not_lt.mpr k2)
  · obtain ⟨m, k1, -, -, -, k2, -⟩ := dn (g.trans hl)
    exact k2 hm (by rw [e]; exact g) ▸ k1
  · rcases cases3 with k | k | k
    · exact absurd (near k).1 (not_le.mpr g)
    · exact absurd (g.trans hl) (not_lt.mpr (C07_roundtrip_truncating cfg F rs x mode crs handler h k r hr).2.1)
    · exact k

/-- **C91**: a number that is a multiple of a power of ten not below its unit in the last place is read as itself in
every mode, whatever mode it was printed in. -/
theorem C91_every_reader (cfg : Cfg) (F : Fmt) (rs : Bool) (x : Nat) (mode mode' : RoundingMode) (crs : Crs)
    (handler : CaseHandler) (h : FiniteNonzero F x) (d : Nat) (k : Int) (hv : value F (mag F x) = dec d k)
    (hu : value F (mag F x + 1) - value F (mag F x) ≤ 10 ^ k) (r : FpT)
    (hr : grisu_exact cfg F rs x mode crs handler = .ok r) :
    RoundsTo F mode' (isNeg F x) (dec r.significand r.exponent) (mag F x) := by
  rw [C80_exact cfg F rs x mode crs handler h d k hv hu r hr]
  exact value_reads h mode'

/-- **C91**, the text printed: it is read, in whatever mode, as the number itself or the next one on the side of the decimal
that the text stands for. -/
theorem C91_text (cfg : Cfg) (F : Fmt) (x : Nat) (mode mode' : RoundingMode) (crs : Crs) (text : List Char)
    (h : FiniteNonzero F x) (hp : Prints cfg F x mode crs text) :
    ∃ v, readText text = some (isNeg F x, v) ∧
      ∃! m, RoundsTo F mode' (isNeg F x) v m ∧
        (m = mag F x ∨ m = mag F x + 1 ∧ value F (mag F x) < v ∨ m = mag F x - 1 ∧ v < value F (mag F x)) := by
  obtain ⟨r, hr, rfl⟩ := prints_inv h hp
  exact ⟨_, read_sci _ _ _, C91_reading cfg F false x mode mode' crs .assert_finite h r hr⟩

-- 0.375 as a float: in the example after C80_exact
-- 0.3 is above the double nearest to it, so a reader that truncates gets that double and a reader that rounds away from
-- zero the next larger one
example : FiniteNonzero .b64 0x3FD3333333333333 := ⟨by decide, by decide, by decide⟩
example : grisu_exact ⟨true, false⟩ .b64 true 0x3FD3333333333333 .nearest_to_even .tie_to_even .assert_finite =
    .ok ⟨3, -1, some false⟩ := by decide +kernel
example : IsTruncating false .toward_zero = true ∧ IsAway false .away_from_zero = true ∧ IsNearest .nearest_to_odd = true :=
  ⟨rfl, rfl, rfl⟩
example : Prints ⟨true, false⟩ .b64 0x3FD3333333333333 .nearest_to_even .tie_to_even "3E-1".toList :=
  prints_finite (r := ⟨3, -1, none⟩) ⟨by decide, by decide, by decide⟩ (by decide +kernel)
-- the smallest double: printed in `toward_zero` as 9e-324, which is read to nearest as twice that number
example : grisu_exact ⟨true, false⟩ .b64 true 1 .toward_zero .do_not_care .assert_finite =
    .ok ⟨9, -324, some false⟩ := by decide +kernel
example : RoundsTo .b64 .nearest_to_even false (dec 9 (-324)) 2 := by
  have h := (C91_nearest_reader ⟨true, false⟩ .b64 true 1 .toward_zero .nearest_to_even .do_not_care .assert_finite
    ⟨by decide, by decide, by decide⟩ rfl ⟨9, -324, some false⟩ (by decide +kernel)).2.1
  refine (h ?_).1
  rw [show mag .b64 1 = 1 from rfl]
  have n : (10 : ℚ) ^ 324 * 3 < 18 * 2 ^ 1074 := by
    exact_mod_cast (by decide +kernel : 10 ^ 324 * 3 < 18 * 2 ^ 1074)
  have e : ∀ a b : ℚ, 0 < a → 0 < b → b * 3 < 18 * a → (a⁻¹ + 2 * a⁻¹) / 2 < 9 * b⁻¹ := by
    intro a b ha hb hab
    rw [show (a⁻¹ + 2 * a⁻¹) / 2 = 3 / (2 * a) by field_simp; norm_num, ← div_eq_mul_inv,
      div_lt_div_iff₀ (by linarith) hb]
    linarith
  norm_num [value, dec, mantBits, ulpExp]
  exact e _ _ (by positivity) (by positivity) n

end Grisu
