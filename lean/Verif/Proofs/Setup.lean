import Verif.Proofs.ExpFacts
import Verif.Proofs.Finish
import Mathlib.Data.Nat.Bitwise

/-! # Step 1: from the bit pattern to the hypotheses of the other steps -/

namespace Grisu

/-- The integer significand of a bit pattern. -/
def sigOf (F : Fmt) (br : Nat) : Nat :=
  if br / 2 ^ F.p % 2 ^ F.exponent_bits = 0 then br % 2 ^ F.p else 2 ^ F.p + br % 2 ^ F.p

/-- The binary exponent belonging to it, shifted by `exponent_bits`. -/
def expOf (F : Fmt) (br : Nat) : Int :=
  if br / 2 ^ F.p % 2 ^ F.exponent_bits = 0 then F.min_exponent
  else F.min_exponent - 1 + (br / 2 ^ F.p % 2 ^ F.exponent_bits : Nat)

theorem four_unit (F : Fmt) : 2 ^ (F.q - F.p - 1) = 4 * unit F := by cases F <;> decide
theorem two_unit (F : Fmt) : 2 ^ (F.q - F.p - 2) = 2 * unit F := by cases F <;> decide
theorem mask_unit (F : Fmt) : F.sign_bit_mask = 4 * unit F * 2 ^ F.p := by cases F <;> decide
theorem boundary_unit (F : Fmt) : F.boundary_bit = 2 * unit F := by cases F <;> decide
theorem edge_unit (F : Fmt) : F.edge_case_boundary_bit = unit F := by cases F <;> decide
theorem interval_unit (F : Fmt) : F.normal_interval_length = 4 * unit F := by cases F <;> decide
theorem unit_pos (F : Fmt) : 0 < unit F := by unfold unit; positivity
theorem q_unit (F : Fmt) : 2 ^ F.q = 4 * unit F * 2 ^ (F.p + 1) := by cases F <;> decide

theorem promote_spec (F : Fmt) (br : Nat) :
    promote F br = (4 * unit F * sigOf F br, expOf F br) := by
  unfold promote
  have hE : (br / 2 ^ F.p) &&& (F.exponent_bits_mask / 2 ^ F.p) = br / 2 ^ F.p % 2 ^ F.exponent_bits := by
    have : F.exponent_bits_mask / 2 ^ F.p = 2 ^ F.exponent_bits - 1 := by cases F <;> decide
    rw [this, Nat.and_two_pow_sub_one_eq_mod]
  have hw : wrap F.q (br * 2 ^ F.exponent_bits) = 4 * unit F * (br % 2 ^ (F.p + 1)) := by
    unfold wrap
    rw [show 2 ^ F.exponent_bits = 4 * unit F by cases F <;> decide, q_unit, mul_comm br,
      Nat.mul_mod_mul_left]
  simp only [hE, hw]
  by_cases h0 : br / 2 ^ F.p % 2 ^ F.exponent_bits = 0
  · rw [if_neg (by simpa using h0)]
    simp only [sigOf, expOf, if_pos h0]
    congr 2
    rw [pow_succ, Nat.mod_mul]
    have : br / 2 ^ F.p % 2 = 0 := by
      have h2 : 2 ∣ 2 ^ F.exponent_bits := by cases F <;> decide
      exact Nat.mod_eq_zero_of_dvd (Dvd.dvd.trans h2 (Nat.dvd_of_mod_eq_zero h0))
    rw [this]
    simp
  · rw [if_pos h0]
    simp only [sigOf, expOf, if_neg h0]
    have hbias : ∀ n : Nat, (n : Int) + F.exponent_bias - F.q + 1 = F.min_exponent - 1 + n := by
      intro n
      have : F.exponent_bias - F.q + 1 = F.min_exponent - 1 := by cases F <;> decide
      omega
    rw [hbias]
    congr 1
    have hm : br % 2 ^ F.p < 2 ^ F.p := Nat.mod_lt _ (by positivity)
    have hlt : 4 * unit F * (br % 2 ^ F.p) < 2 ^ (F.q - 1) := by
      have : 2 ^ (F.q - 1) = 4 * unit F * 2 ^ F.p := mask_unit F
      rw [this]
      exact Nat.mul_lt_mul_of_pos_left hm (by have := unit_pos F; omega)
    have hor := Nat.two_pow_add_eq_or_of_lt hlt 1
    rw [mul_one] at hor
    have hsm : F.sign_bit_mask = 2 ^ (F.q - 1) := rfl
    have hgoal : 4 * unit F * (2 ^ F.p + br % 2 ^ F.p) = 2 ^ (F.q - 1) ||| 4 * unit F * (br % 2 ^ F.p) := by
      rw [← hor, mul_add, ← mask_unit, hsm]
    rw [hgoal, pow_succ, Nat.mod_mul]
    rcases Nat.mod_two_eq_zero_or_one (br / 2 ^ F.p) with h1 | h1
    · rw [h1, mul_zero, add_zero, hsm, Nat.lor_comm]
    · rw [h1, mul_one, add_comm (br % 2 ^ F.p), hgoal, hsm, Nat.lor_comm, ← Nat.or_assoc, Nat.or_self]

theorem sigOf_lt (F : Fmt) (br : Nat) : sigOf F br < 2 ^ (F.p + 1) := by
  have hm : br % 2 ^ F.p < 2 ^ F.p := Nat.mod_lt _ (by positivity)
  unfold sigOf
  rw [pow_succ]
  split <;> omega

theorem expOf_ge (F : Fmt) (br : Nat) : F.min_exponent ≤ expOf F br := by
  unfold expOf
  split <;> omega

theorem expOf_le (F : Fmt) {br : Nat} (h : br / 2 ^ F.p % 2 ^ F.exponent_bits ≠ 2 ^ F.exponent_bits - 1) :
    expOf F br ≤ F.max_exponent := by
  have hm : br / 2 ^ F.p % 2 ^ F.exponent_bits < 2 ^ F.exponent_bits := Nat.mod_lt _ (by positivity)
  unfold expOf
  split
  · cases F <;> decide
  · have : F.max_exponent = F.min_exponent - 1 + ((2 ^ F.exponent_bits - 2 : Nat) : Int) := by
      cases F <;> decide
    omega

/-- The number in units of a quarter of the spacing is a normal power of two. -/
def isEdge (F : Fmt) (br : Nat) : Bool :=
  decide (sigOf F br = 2 ^ F.p ∧ expOf F br ≠ F.min_exponent)

/-- Left endpoint in units. -/
def flOf (F : Fmt) (tag : Tag) (br : Nat) : Nat :=
  match tag with
  | .to_nearest => if isEdge F br then 4 * sigOf F br - 1 else 4 * sigOf F br - 2
  | .left_closed_directed => 4 * sigOf F br
  | .right_closed_directed => if isEdge F br then 4 * sigOf F br - 2 else 4 * sigOf F br - 4

/-- Right endpoint in units. -/
def frOf (F : Fmt) (tag : Tag) (br : Nat) : Nat :=
  match tag with
  | .to_nearest => 4 * sigOf F br + 2
  | .left_closed_directed => 4 * sigOf F br + 4
  | .right_closed_directed => 4 * sigOf F br

/-- The normal inputs with all trailing significand bits set: for these, `fr` wraps around to 0 in the
left-closed directed modes. -/
def AllOnes (F : Fmt) (br : Nat) : Prop := sigOf F br = 2 ^ (F.p + 1) - 1

/-- What is known about an input. -/
structure Input (F : Fmt) (br : Nat) : Prop where
  pos : 0 < sigOf F br
  finite : br / 2 ^ F.p % 2 ^ F.exponent_bits ≠ 2 ^ F.exponent_bits - 1

theorem Input.expOK {F : Fmt} {br : Nat} (h : Input F br) : ExpOK F (expOf F br) :=
  Grisu.expOK F _ (expOf_ge F br) (expOf_le F h.finite)

/-- The context after Step 1. -/
def ctxOf (cfg : Cfg) (F : Fmt) (prov : Provider) (crs : Crs) (br : Nat) : Ctx :=
  let e := expOf F br
  { cfg, F, tag := prov.tag, crs, interval_type := prov.interval F br
    significand := 4 * unit F * sigOf F br
    exponent := e
    fr := wrap F.q (frOf F prov.tag br * unit F)
    minus_k := mkOf e
    minus_beta := mbOf e
    cache := cacheOf F e
    zi := frOf F prov.tag br * unit F * phiNum e / phiDen e
    deltai := (frOf F prov.tag br - flOf F prov.tag br) * unit F * phiNum e / phiDen e }

variable {F : Fmt} {br : Nat}

theorem floor_log10_pow2_ok (cfg : Cfg) {e : Int} (h1 : -1650 ≤ e) (h2 : e ≤ 1650) :
    floor_log10_pow2 cfg e = .ok (log10_pow2_value e) := by
  unfold floor_log10_pow2
  rw [cassert_true (by simp; omega)]
  simp only [Exec.ok_bind, i32]
  rw [if_pos (by omega)]
  rfl

theorem floor_log2_pow10_ok (cfg : Cfg) {e : Int} (h1 : -616 ≤ e) (h2 : e ≤ 616) :
    floor_log2_pow10 cfg e = .ok (log2_pow10_value e) := by
  unfold floor_log2_pow10
  rw [cassert_true (by simp; omega)]
  simp only [Exec.ok_bind, i32]
  rw [if_pos (by omega)]
  rfl

theorem frOf_lt (tag : Tag) (hl : tag = .left_closed_directed → ¬ AllOnes F br) :
    frOf F tag br < 2 ^ (F.p + 3) := by
  have h := sigOf_lt F br
  have e : 2 ^ (F.p + 3) = 4 * 2 ^ (F.p + 1) := by rw [pow_add, pow_add]; ring
  unfold AllOnes at hl
  cases tag with
  | to_nearest => simp only [frOf]; omega
  | left_closed_directed =>
    have := hl rfl
    simp only [frOf]; omega
  | right_closed_directed => simp only [frOf]; omega

theorem wrap_fr (tag : Tag) (hl : tag = .left_closed_directed → ¬ AllOnes F br) :
    wrap F.q (frOf F tag br * unit F) = frOf F tag br * unit F :=
  wrap_of_lt (unit_mul_lt (frOf_lt tag hl))

theorem right_endpoint_spec (tag : Tag) :
    right_endpoint F tag (4 * unit F * sigOf F br) = wrap F.q (frOf F tag br * unit F) := by
  have h := sigOf_lt F br
  have e : 2 ^ (F.p + 3) = 4 * 2 ^ (F.p + 1) := by rw [pow_add, pow_add]; ring
  have hu := unit_pos F
  cases tag with
  | to_nearest =>
    rw [wrap_fr _ (by simp)]
    simp only [right_endpoint, frOf, boundary_unit]
    have h2 : 2 * unit F < 2 ^ (F.q - F.p - 1) := by rw [four_unit]; omega
    have := Nat.two_pow_add_eq_or_of_lt h2 (sigOf F br)
    rw [← four_unit, ← this, four_unit]
    ring
  | left_closed_directed =>
    simp only [right_endpoint, frOf, interval_unit]
    congr 1
    ring
  | right_closed_directed =>
    rw [wrap_fr _ (by simp)]
    simp only [right_endpoint, frOf]
    ring

theorem sig_mask_iff : 4 * unit F * sigOf F br = F.sign_bit_mask ↔ sigOf F br = 2 ^ F.p := by
  rw [mask_unit]
  have hu := unit_pos F
  exact Nat.mul_right_inj (by omega)

/-- Step 1, before `zi`. -/
theorem setup_spec (cfg : Cfg) (prov : Provider) (crs : Crs) (hi : Input F br) :
    setup cfg F prov crs br = .ok (ctxOf cfg F prov crs br) := by
  have ok := hi.expOK
  set e := expOf F br with he
  obtain ⟨r1, r2, r3, r4, r5, r6, r7, r8, r9, r10, r11, r12, r13, r14⟩ := ok.range
  have he1 := expOf_ge F br
  have he2 := expOf_le F hi.finite
  have hb1 : -1085 ≤ F.min_exponent := by cases F <;> decide
  have hb2 : F.max_exponent ≤ 960 := by cases F <;> decide
  have hu := unit_pos F
  unfold setup
  rw [promote_spec]
  simp only
  rw [show expOf F br + 1 - F.alpha = e + 6 by rw [← he]; unfold Fmt.alpha; ring,
    floor_log10_pow2_ok cfg (by omega) (by omega)]
  simp only [Exec.ok_bind]
  rw [show log10_pow2_value (e + 6) = mkOf e from rfl]
  have hl2 : floor_log2_pow10 cfg (-mkOf e) = .ok (log2_pow10_value (-mkOf e)) := by
    unfold floor_log2_pow10
    rw [cassert_true (by simp; omega)]
    simp only [Exec.ok_bind, i32]
    rw [if_pos ⟨by omega, by omega⟩]
    rfl
  rw [hl2]
  simp only [Exec.ok_bind, ← he]
  rw [show -(e + log2_pow10_value (-mkOf e) + 1) = mbOf e from rfl]
  rw [cassert_true (by simp [Fmt.alpha, Fmt.gamma]; omega)]
  simp only [Exec.ok_bind]
  have hcache : get_cache cfg F (-mkOf e) = .ok (cacheOf F e) := by
    unfold get_cache
    rw [cassert_true (by simp only [decide_eq_true_eq]; exact ⟨r9, r10⟩)]
    simp only [Exec.ok_bind]
    rw [if_neg (by omega), r11]
  rw [hcache]
  simp only [Exec.ok_bind]
  rw [right_endpoint_spec]
  have hzi : compute_zi cfg F prov.tag (wrap F.q (frOf F prov.tag br * unit F)) (cacheOf F e) (mbOf e) =
      .ok (frOf F prov.tag br * unit F * phiNum e / phiDen e) := by
    unfold compute_zi
    by_cases hall : prov.tag = .left_closed_directed ∧ AllOnes F br
    · -- the right endpoint is `2^q`
      have hfr : frOf F prov.tag br * unit F = 2 ^ F.q := by
        rw [hall.1]
        have := hall.2
        unfold AllOnes at this
        simp only [frOf, this]
        rw [q_unit]
        have h1 : 1 ≤ 2 ^ (F.p + 1) := Nat.one_le_two_pow
        have : 4 * (2 ^ (F.p + 1) - 1) + 4 = 4 * 2 ^ (F.p + 1) := by omega
        rw [this]
        ring
      have hw0 : wrap F.q (2 ^ F.q) = 0 := by unfold wrap; simp
      rw [hfr, hw0, if_pos ⟨hall.1, rfl⟩]
      have hm := ok.mul (2 ^ (F.p + 3)) (le_refl _)
      have hq2 : 2 ^ (F.p + 3) * unit F = 2 ^ F.q := by cases F <;> decide
      rw [← mul_assoc, ← mul_assoc, hq2] at hm
      rw [← hm]
      have hdiv : 2 ^ F.q * cacheOf F e / 2 ^ (2 * F.q + (mbOf e).toNat) =
          cacheOf F e / 2 ^ F.q / 2 ^ (mbOf e).toNat := by
        rw [pow_mul_div_pow (by omega), Nat.div_div_eq_div_mul, ← pow_add]
        congr 2
        omega
      rw [hdiv]
      clear hdiv hm hq2 hw0 hfr he ok hl2 hcache
      clear_value e
      cases F with
      | b32 =>
        simp only [Fmt.q] at *
        rw [shr_ok (by omega) (by omega)]
        simp only [Exec.ok_bind]
        congr 1
        apply wrap_of_lt
        refine lt_of_le_of_lt (Nat.div_le_self _ _) ?_
        omega
      | b64 =>
        simp only [Fmt.q] at *
        rw [shr_ok (by omega) (by omega)]
        rfl
    · rw [wrap_fr _ (by tauto)]
      rw [if_neg]
      · exact ok.compute_mul cfg (frOf_lt _ (by tauto))
      · rintro ⟨h1, h2⟩
        rw [h1] at h2
        simp only [frOf] at h2
        have h3 : 0 < (4 * sigOf F br + 4) * unit F := Nat.mul_pos (by omega) hu
        omega
  rw [hzi]
  simp only [Exec.ok_bind]
  have hpos := hi.pos
  have hedge : decide (4 * unit F * sigOf F br = F.sign_bit_mask ∧ e ≠ F.min_exponent) = isEdge F br := by
    unfold isEdge
    rw [decide_eq_decide, sig_mask_iff, ← he]
  have hdelta : compute_delta F prov.tag
      (decide (4 * unit F * sigOf F br = F.sign_bit_mask ∧ e ≠ F.min_exponent)) (cacheOf F e) (mbOf e) =
      .ok ((frOf F prov.tag br - flOf F prov.tag br) * unit F * phiNum e / phiDen e) := by
    rw [hedge]
    cases hE : isEdge F br
    · rw [ok.compute_delta_full]
      have : frOf F prov.tag br - flOf F prov.tag br = 4 := by
        cases prov.tag <;> simp only [frOf, flOf, hE, Bool.false_eq_true, if_false] <;> omega
      rw [this]
    · cases hT : prov.tag
      · rw [ok.compute_delta_edge]
        have : frOf F .to_nearest br - flOf F .to_nearest br = 3 := by
          simp only [frOf, flOf, hE, if_true]; omega
        rw [this]
      · -- the edge flag is not used
        have hx : compute_delta F .left_closed_directed true (cacheOf F e) (mbOf e) =
            compute_delta F .left_closed_directed false (cacheOf F e) (mbOf e) := rfl
        rw [hx, ok.compute_delta_full]
        have : frOf F .left_closed_directed br - flOf F .left_closed_directed br = 4 := by
          simp only [frOf, flOf]; omega
        rw [this]
      · rw [ok.compute_delta_right]
        have : frOf F .right_closed_directed br - flOf F .right_closed_directed br = 2 := by
          simp only [frOf, flOf, hE, if_true]; omega
        rw [this]
  rw [hdelta]
  rfl

end Grisu
