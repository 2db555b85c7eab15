import Verif.Proofs.Setup
import Mathlib.Data.Nat.Prime.Basic

/-! # The context after Step 1 satisfies the hypotheses of the other steps -/

namespace Grisu

variable {F : Fmt} {br : Nat}

theorem phi_coprime (e : Int) : Nat.Coprime (phiNum e) (phiDen e) := by
  unfold phiNum phiDen
  have h52 : Nat.Coprime 5 2 := by decide
  have h25 : Nat.Coprime 2 5 := by decide
  refine Nat.Coprime.mul_left (Nat.Coprime.mul_right ?_ (Nat.Coprime.pow _ _ h25))
    (Nat.Coprime.mul_right (Nat.Coprime.pow _ _ h52) ?_)
  · rcases le_total (e - mkOf e) 0 with h | h
    · rw [show (e - mkOf e).toNat = 0 by omega]; simp
    · rw [show (mkOf e - e).toNat = 0 by omega]; simp
  · rcases le_total (mkOf e) 0 with h | h
    · rw [show (mkOf e).toNat = 0 by omega]; simp
    · rw [show (-mkOf e).toNat = 0 by omega]; simp

theorem dvd_mul_phiNum (e : Int) (f : Nat) : phiDen e ∣ f * phiNum e ↔ phiDen e ∣ f :=
  ⟨fun h => (phi_coprime e).symm.dvd_of_dvd_mul_right h, fun h => Dvd.dvd.mul_right h _⟩

theorem three_not_dvd (κ : Nat) (e : Int) : ¬ 3 ∣ 10 ^ κ * phiDen e := by
  intro h
  have h3 : Nat.Prime 3 := Nat.prime_three
  unfold phiDen at h
  rcases h3.dvd_mul.mp h with h | h
  · exact absurd (h3.dvd_of_dvd_pow h) (by decide)
  · rcases h3.dvd_mul.mp h with h | h
    · exact absurd (h3.dvd_of_dvd_pow h) (by decide)
    · exact absurd (h3.dvd_of_dvd_pow h) (by decide)

theorem isEdge_iff : isEdge F br = true ↔ sigOf F br = 2 ^ F.p ∧ expOf F br ≠ F.min_exponent := by
  unfold isEdge
  rw [decide_eq_true_eq]

theorem left_endpoint_spec (tag : Tag) (hi : Input F br) :
    left_endpoint F tag (4 * unit F * sigOf F br) (expOf F br) = flOf F tag br * unit F := by
  have hpos := hi.pos
  have hu := unit_pos F
  have hlt := sigOf_lt F br
  have hlt2 : 4 * unit F * sigOf F br < 2 ^ F.q := by
    rw [q_unit]
    exact Nat.mul_lt_mul_of_pos_left hlt (by omega)
  have hcond : (4 * unit F * sigOf F br = F.sign_bit_mask ∧ expOf F br ≠ F.min_exponent) ↔
      isEdge F br = true := by
    rw [isEdge_iff, sig_mask_iff]
  have hedge : isEdge F br = true → F.sign_bit_mask = 4 * unit F * sigOf F br := by
    intro h
    rw [(isEdge_iff.mp h).1, mask_unit]
  obtain ⟨g, hg⟩ : ∃ g, sigOf F br = g + 1 := ⟨sigOf F br - 1, by omega⟩
  cases tag with
  | to_nearest =>
    simp only [left_endpoint, flOf, hcond]
    split
    · rename_i h
      rw [hedge h, edge_unit, hg, show 4 * (g + 1) - 1 = 4 * g + 3 by omega]
      apply Nat.sub_eq_of_eq_add
      ring
    · rw [boundary_unit]
      have h1 : 2 * unit F ≤ 4 * unit F * sigOf F br := by rw [hg]; nlinarith
      rw [subw_of_le h1 hlt2, hg, show 4 * (g + 1) - 2 = 4 * g + 2 by omega]
      apply Nat.sub_eq_of_eq_add
      ring
  | left_closed_directed =>
    simp only [left_endpoint, flOf]
    ring
  | right_closed_directed =>
    simp only [left_endpoint, flOf, hcond]
    split
    · rename_i h
      rw [hedge h, boundary_unit, hg, show 4 * (g + 1) - 2 = 4 * g + 2 by omega]
      apply Nat.sub_eq_of_eq_add
      ring
    · rw [interval_unit]
      have h1 : 4 * unit F ≤ 4 * unit F * sigOf F br := by rw [hg]; nlinarith
      rw [subw_of_le h1 hlt2, hg, show 4 * (g + 1) - 4 = 4 * g by omega]
      apply Nat.sub_eq_of_eq_add
      ring

theorem flOf_lt (tag : Tag) (hi : Input F br) : flOf F tag br < 2 ^ (F.p + 3) := by
  have hpos := hi.pos
  have h := sigOf_lt F br
  have e : 2 ^ (F.p + 3) = 4 * 2 ^ (F.p + 1) := by rw [pow_add, pow_add]; ring
  cases tag <;> simp only [flOf] <;> first | omega | (split <;> omega)

theorem equal_fractional_parts_spec (cfg : Cfg) (tag : Tag) (hi : Input F br)
    (ht : tag ≠ .right_closed_directed) :
    equal_fractional_parts cfg F tag (flOf F tag br * unit F) (expOf F br) (mkOf (expOf F br)) =
      .ok (decide (phiDen (expOf F br) ∣ flOf F tag br * unit F)) := by
  have hpos := hi.pos
  have hu := unit_pos F
  have hlt := sigOf_lt F br
  have ok := hi.expOK
  cases tag with
  | right_closed_directed => exact absurd rfl ht
  | left_closed_directed =>
    simp only [equal_fractional_parts, flOf]
    have := ok.is_product_integer_other cfg hpos hlt
    rw [four_unit, show 4 * unit F * sigOf F br = 4 * sigOf F br * unit F by ring] at this
    exact this
  | to_nearest =>
    simp only [equal_fractional_parts]
    cases hE : isEdge F br with
    | true =>
      have hfl : flOf F .to_nearest br = 2 ^ (F.p + 2) - 1 := by
        simp only [flOf, hE, if_true, (isEdge_iff.mp hE).1]
        rw [pow_add]; omega
      have hmask : F.sign_bit_mask - F.edge_case_boundary_bit = (2 ^ (F.p + 2) - 1) * unit F := by
        rw [mask_unit, edge_unit, Nat.sub_mul, one_mul]
        congr 1
        rw [pow_add]; ring
      rw [hfl, hmask]
      simp only [ne_eq, not_true_eq_false, if_false]
      exact ok.is_product_integer_edge cfg _
    | false =>
      have hfl : flOf F .to_nearest br = 4 * sigOf F br - 2 := by simp [flOf, hE]
      have hne : flOf F .to_nearest br * unit F ≠ F.sign_bit_mask - F.edge_case_boundary_bit := by
        rw [hfl, mask_unit, edge_unit]
        intro h
        have h1 : 4 * unit F * 2 ^ F.p - unit F = (4 * 2 ^ F.p - 1) * unit F := by
          rw [Nat.sub_mul, one_mul]
          congr 1
          ring
        rw [h1] at h
        have h2 := Nat.eq_of_mul_eq_mul_right hu h
        have h3 : 1 ≤ 2 ^ F.p := Nat.one_le_two_pow
        omega
      rw [if_pos hne]
      have := ok.is_product_integer_generic cfg (g := 2 * sigOf F br - 1) (by omega)
        (by rw [pow_succ] at *; omega)
      rw [two_unit, show 2 * unit F * (2 * sigOf F br - 1) = (4 * sigOf F br - 2) * unit F by
        rw [show 4 * sigOf F br - 2 = 2 * (2 * sigOf F br - 1) by omega]; ring] at this
      rw [hfl]
      exact this

theorem unit_ratio (h : ExpOK F e) (n : Nat) (hn : n = 2 ∨ n = 3 ∨ n = 4) :
    (match (generalizing := false) F with | .b32 => 2 | .b64 => 16) ≤ n * unit F * phiNum e / phiDen e ∧
      n * unit F * phiNum e / phiDen e < 400 := by
  have h1 := h.den_le
  have h2 := h.lt_den
  rw [Nat.le_div_iff_mul_le (phiDen_pos e), Nat.div_lt_iff_lt_mul (phiDen_pos e)]
  cases F <;> simp only [unit, Fmt.q, Fmt.p] <;> rcases hn with rfl | rfl | rfl <;>
    norm_num <;> omega

/-- Difference of the endpoints, in units. -/
theorem fr_sub_fl (tag : Tag) (hi : Input F br) :
    flOf F tag br ≤ frOf F tag br ∧ (frOf F tag br - flOf F tag br = 2 ∨
    frOf F tag br - flOf F tag br = 3 ∨ frOf F tag br - flOf F tag br = 4) := by
  have hpos := hi.pos
  cases tag <;> simp only [flOf, frOf] <;> try split
  all_goals omega

/-- The endpoints, times the denominator of `2^e * 10^(-minus_k)`. -/
def XOf (F : Fmt) (tag : Tag) (br : Nat) : Nat := flOf F tag br * unit F * phiNum (expOf F br)
def YOf (F : Fmt) (br : Nat) : Nat := 4 * sigOf F br * unit F * phiNum (expOf F br)
def ZOf (F : Fmt) (tag : Tag) (br : Nat) : Nat := frOf F tag br * unit F * phiNum (expOf F br)
def BOf (F : Fmt) (br : Nat) : Nat := phiDen (expOf F br)

theorem ZX_eq (tag : Tag) :
    ZOf F tag br - XOf F tag br = (frOf F tag br - flOf F tag br) * unit F * phiNum (expOf F br) := by
  unfold ZOf XOf
  rw [← Nat.sub_mul, ← Nat.sub_mul]

theorem interval_left (prov : Provider) :
    (prov.tag = .left_closed_directed → prov.interval F br = .left_closed_right_open) ∧
    (prov.tag = .right_closed_directed → prov.interval F br = .right_closed_left_open) := by
  cases prov <;> simp [Provider.tag, Provider.interval]

theorem good (cfg : Cfg) (prov : Provider) (crs : Crs) (hi : Input F br) (h0 : br < 2 ^ F.q)
    (hl : prov.tag = .left_closed_directed → ¬ AllOnes F br) :
    Good (ctxOf cfg F prov crs br) (XOf F prov.tag br) (ZOf F prov.tag br) (BOf F br) := by
  have ok := hi.expOK
  have hB : 0 < BOf F br := phiDen_pos _
  have hu := unit_pos F
  have hA := phiNum_pos (expOf F br)
  obtain ⟨hle, hd⟩ := fr_sub_fl prov.tag hi
  have hXpos : (prov.interval F br).include_left_endpoint = true → 0 < XOf F prov.tag br := by
    intro h
    have : 0 < flOf F prov.tag br := by
      have hpos := hi.pos
      cases ht : prov.tag with
      | to_nearest => simp only [flOf]; split <;> omega
      | left_closed_directed => simp only [flOf]; omega
      | right_closed_directed =>
        rw [(interval_left prov).2 ht] at h
        simp [Interval.right_closed_left_open] at h
    unfold XOf
    positivity
  refine ⟨hB, ?_, rfl, ?_, ?_, ?_, ?_, ?_, ?_⟩
  · unfold XOf ZOf
    exact Nat.mul_le_mul_right _ (Nat.mul_le_mul_right _ hle)
  · rw [ZX_eq]; rfl
  · show 0 < loOf (prov.interval F br).include_left_endpoint _ _
    unfold loOf
    split
    · rename_i h
      exact Nat.div_pos (Nat.le_of_dvd (hXpos h.1) h.2) hB
    · exact Nat.succ_pos _
  · show is_zf_smaller_than_deltaf cfg F prov.tag (4 * unit F * sigOf F br) (mbOf (expOf F br))
      (cacheOf F (expOf F br)) (prov.interval F br) (expOf F br) (mkOf (expOf F br)) =
      .ok (decide (XOf F prov.tag br / BOf F br % 2 = 1 ∨
        ((prov.interval F br).include_left_endpoint = true ∧ BOf F br ∣ XOf F prov.tag br)))
    unfold is_zf_smaller_than_deltaf
    rw [left_endpoint_spec _ hi]
    unfold is_zf_strictly_smaller_than_deltaf
    simp only
    rw [ok.compute_mul cfg (flOf_lt _ hi)]
    simp only [Exec.ok_bind]
    rw [show flOf F prov.tag br * unit F * phiNum (expOf F br) / phiDen (expOf F br) =
      XOf F prov.tag br / BOf F br from rfl, Nat.and_one_is_mod]
    rcases Nat.mod_two_eq_zero_or_one (XOf F prov.tag br / BOf F br) with h | h
    · simp only [h]
      norm_num
      cases hil : (prov.interval F br).include_left_endpoint with
      | false => simp
      | true =>
        have ht : prov.tag ≠ .right_closed_directed := by
          intro ht
          rw [(interval_left prov).2 ht] at hil
          simp [Interval.right_closed_left_open] at hil
        simp only [if_true]
        rw [equal_fractional_parts_spec cfg _ hi ht]
        congr 1
        rw [Bool.true_and, decide_eq_decide]
        unfold XOf BOf
        rw [dvd_mul_phiNum]
    · simp [h]
  · have h1 := frOf_lt prov.tag hl
    have h2 := unit_mul_lt h1
    have h3 := ok.lt_den
    show ZOf F prov.tag br / BOf F br < match (generalizing := false) F with | .b32 => 10 ^ 9 | .b64 => 10 ^ 19
    rw [Nat.div_lt_iff_lt_mul hB]
    have h4 : ZOf F prov.tag br ≤ 2 ^ F.q * phiNum (expOf F br) := Nat.mul_le_mul_right _ h2.le
    unfold BOf
    cases F <;> simp only [Fmt.q] at h4 ⊢ <;> omega
  · rw [ZX_eq]
    exact (unit_ratio ok _ hd).1
  · rw [ZX_eq]
    exact (unit_ratio ok _ hd).2

theorem goodB (cfg : Cfg) (prov : Provider) (crs : Crs) (hi : Input F br) (h0 : br < 2 ^ F.q)
    (hl : prov.tag = .left_closed_directed → ¬ AllOnes F br) :
    GoodB (ctxOf cfg F prov crs br) (XOf F prov.tag br) (ZOf F prov.tag br) (BOf F br) := by
  have ok := hi.expOK
  have hB : 0 < BOf F br := phiDen_pos _
  have hu := unit_pos F
  have hA := phiNum_pos (expOf F br)
  have hlt := sigOf_lt F br
  have hpos := hi.pos
  have hgap : prov.tag = .to_nearest → ∀ κ m, ZOf F prov.tag br = m * 10 ^ κ * BOf F br →
      ZOf F prov.tag br - XOf F prov.tag br ≠ 10 ^ κ * BOf F br := by
    intro ht κ m hm h
    rw [ZX_eq] at h
    rw [ht] at hm h
    cases hE : isEdge F br with
    | true =>
      have h3 : frOf F .to_nearest br - flOf F .to_nearest br = 3 := by
        simp only [frOf, flOf, hE, if_true]; omega
      rw [h3, mul_assoc] at h
      exact three_not_dvd κ (expOf F br) (Dvd.intro _ h)
    | false =>
      have h3 : frOf F .to_nearest br - flOf F .to_nearest br = 4 := by
        simp only [frOf, flOf, hE, Bool.false_eq_true, if_false]; omega
      rw [h3] at h
      rw [mul_assoc, ← h] at hm
      simp only [ZOf, frOf] at hm
      have h4 : (4 * sigOf F br + 2) * (unit F * phiNum (expOf F br)) =
          m * 4 * (unit F * phiNum (expOf F br)) := by linarith
      have h5 := Nat.eq_of_mul_eq_mul_right (by positivity) h4
      omega
  refine ⟨good cfg prov crs hi h0 hl, ?_, ?_, hgap, ?_⟩
  · intro hir
    show is_product_integer cfg F
      (if prov.tag = .to_nearest then .fc_pm_2_to_the_q_mp_m2_generic else .other)
      (wrap F.q (frOf F prov.tag br * unit F)) (expOf F br) (mkOf (expOf F br)) = _
    rw [wrap_fr _ hl]
    have hZ : (BOf F br ∣ ZOf F prov.tag br) ↔ phiDen (expOf F br) ∣ frOf F prov.tag br * unit F := by
      unfold BOf ZOf
      rw [dvd_mul_phiNum]
    simp only [hZ]
    cases ht : prov.tag with
    | to_nearest =>
      rw [if_pos rfl]
      have := ok.is_product_integer_generic cfg (g := 2 * sigOf F br + 1) (by omega)
        (by rw [pow_succ] at *; omega)
      rw [two_unit, show 2 * unit F * (2 * sigOf F br + 1) = (4 * sigOf F br + 2) * unit F by ring] at this
      exact this
    | left_closed_directed =>
      rw [if_neg (by simp)]
      have hn := hl ht
      unfold AllOnes at hn
      have := ok.is_product_integer_other cfg (g := sigOf F br + 1) (by omega) (by omega)
      rw [four_unit, show 4 * unit F * (sigOf F br + 1) = (4 * sigOf F br + 4) * unit F by ring] at this
      exact this
    | right_closed_directed =>
      change (prov.interval F br).include_right_endpoint = false at hir
      rw [(interval_left prov).2 ht] at hir
      simp [Interval.right_closed_left_open] at hir
  · intro hir hne
    change (prov.interval F br).include_right_endpoint = false at hir
    show (prov.interval F br).include_left_endpoint = true
    cases ht : prov.tag with
    | to_nearest => exact absurd ht hne
    | left_closed_directed => rw [(interval_left prov).1 ht]; rfl
    | right_closed_directed =>
      rw [(interval_left prov).2 ht] at hir
      simp [Interval.right_closed_left_open] at hir
  · intro ht he κ m hm h
    change prov.tag = .to_nearest at ht
    change expOf F br = -((F.q - F.p - 1 : Nat) : Int) at he
    have hg := hgap ht κ m hm
    have hfr : frOf F prov.tag br - flOf F prov.tag br = 3 ∨ frOf F prov.tag br - flOf F prov.tag br = 4 := by
      rw [ht]
      cases hE : isEdge F br with
      | true => left; simp only [frOf, flOf, hE, if_true]; omega
      | false => right; simp only [frOf, flOf, hE, Bool.false_eq_true, if_false]; omega
    rw [ZX_eq] at h hg
    have h10 : ∀ κ, 7 ≠ 10 ^ κ ∧ 75 ≠ 10 ^ κ := by
      intro κ
      rcases κ with _ | _ | κ
      · norm_num
      · norm_num
      · have : (1 : Nat) ≤ 10 ^ κ := Nat.one_le_pow _ _ (by norm_num)
        rw [pow_add]; omega
    unfold BOf at h hg
    rw [he] at h hg
    cases F with
    | b32 =>
      rw [show phiNum (-((Fmt.b32.q - Fmt.b32.p - 1 : Nat) : Int)) = 5 by decide,
        show phiDen (-((Fmt.b32.q - Fmt.b32.p - 1 : Nat) : Int)) = 128 by decide,
        show unit .b32 = 64 by decide] at h hg
      rcases hfr with hfr | hfr <;> rw [hfr] at h hg <;> norm_num at h hg
      · exact (h10 κ).1 h
      · omega
    | b64 =>
      rw [show phiNum (-((Fmt.b64.q - Fmt.b64.p - 1 : Nat) : Int)) = 25 by decide,
        show phiDen (-((Fmt.b64.q - Fmt.b64.p - 1 : Nat) : Int)) = 512 by decide,
        show unit .b64 = 512 by decide] at h hg
      rcases hfr with hfr | hfr <;> rw [hfr] at h hg <;> norm_num at h hg
      · exact (h10 κ).2 h
      · omega

theorem goodN (cfg : Cfg) (prov : Provider) (crs : Crs) (hi : Input F br) (h0 : br < 2 ^ F.q)
    (ht : prov.tag = .to_nearest) :
    GoodN (ctxOf cfg F prov crs br) (XOf F .to_nearest br) (YOf F br) (ZOf F .to_nearest br) (BOf F br) := by
  have ok := hi.expOK
  have hB : 0 < BOf F br := phiDen_pos _
  have hu := unit_pos F
  have hA := phiNum_pos (expOf F br)
  have hlt := sigOf_lt F br
  have hpos := hi.pos
  have hUA : 0 < unit F * phiNum (expOf F br) := by positivity
  have hZY : ZOf F .to_nearest br - YOf F br = 2 * unit F * phiNum (expOf F br) := by
    simp only [ZOf, YOf, frOf]
    rw [← Nat.sub_mul, ← Nat.sub_mul]
    congr 2; omega
  have hYX : YOf F br - XOf F .to_nearest br =
      (if isEdge F br then 1 else 2) * unit F * phiNum (expOf F br) := by
    simp only [XOf, YOf, flOf]
    rw [← Nat.sub_mul, ← Nat.sub_mul]
    congr 2
    split <;> omega
  have hb := goodB cfg prov crs hi h0 (by simp [ht])
  have hsub : ∀ n m : Nat, n < m → n * unit F * phiNum (expOf F br) < m * unit F * phiNum (expOf F br) :=
    fun n m h => Nat.mul_lt_mul_of_pos_right (Nat.mul_lt_mul_of_pos_right h hu) hA
  rw [ht] at hb
  refine ⟨hb, ht, ?_, ?_, ?_, ?_, ?_, ?_, ?_, ?_⟩
  · apply hsub
    simp only [flOf]; split <;> omega
  · apply hsub
    simp only [frOf]; omega
  · show compute_mul cfg F (4 * unit F * sigOf F br) (cacheOf F (expOf F br)) (mbOf (expOf F br)) = _
    rw [show 4 * unit F * sigOf F br = 4 * sigOf F br * unit F by ring]
    exact ok.compute_mul cfg (by rw [pow_add] at *; omega)
  · rw [hZY]
    exact ok.compute_delta_half _
  · rw [hZY, Nat.div_lt_iff_lt_mul hB]
    have := ok.lt_den
    show _ < (match (generalizing := false) F with | .b32 => 20 | .b64 => 160) * _
    unfold BOf
    cases F <;> simp only [unit, Fmt.q, Fmt.p] <;> norm_num <;> omega
  · show is_product_integer cfg F .other (4 * unit F * sigOf F br) (expOf F br) (mkOf (expOf F br)) = _
    have := ok.is_product_integer_other cfg hpos hlt
    rw [four_unit] at this
    rw [this]
    congr 1
    rw [decide_eq_decide]
    unfold BOf YOf
    rw [dvd_mul_phiNum, show 4 * unit F * sigOf F br = 4 * sigOf F br * unit F by ring]
  · rintro rfl
    refine ⟨?_, ?_, ?_⟩
    · show compute_mul cfg .b32 (4 * unit .b32 * sigOf .b32 br) (cacheOf .b32 (expOf .b32 br))
        (mbOf (expOf .b32 br) - 1) = _
      have := ok.compute_mul_two cfg (g := sigOf .b32 br) hlt
      rw [show 4 * unit .b32 * sigOf .b32 br = sigOf .b32 br * (4 * unit .b32) by ring, this]
      unfold YOf BOf
      congr 2
      ring
    · show is_product_integer cfg .b32 .two_times_fc (4 * unit .b32 * sigOf .b32 br) (expOf .b32 br)
        (mkOf (expOf .b32 br)) = _
      have := ok.is_product_integer_two cfg hpos hlt
      rw [four_unit] at this
      rw [this]
      congr 1
      rw [decide_eq_decide]
      unfold BOf YOf
      rw [show 2 * (4 * sigOf .b32 br * unit .b32 * phiNum (expOf .b32 br)) =
        2 * (4 * unit .b32 * sigOf .b32 br) * phiNum (expOf .b32 br) by ring, dvd_mul_phiNum]
    · rw [hYX]
      have h1 := ok.den_le
      unfold BOf
      have hu : unit .b32 = 64 := by decide
      rw [hu]
      split <;> omega
  · cases hE : isEdge F br with
    | false =>
      left
      refine ⟨by rw [hYX, hZY, hE]; simp, ?_⟩
      intro hs
      change 4 * unit F * sigOf F br = F.sign_bit_mask at hs
      show expOf F br ≠ exceptional F
      have h1 : ¬ (sigOf F br = 2 ^ F.p ∧ expOf F br ≠ F.min_exponent) := by
        rw [← isEdge_iff, hE]; simp
      rw [sig_mask_iff] at hs
      have h2 : expOf F br = F.min_exponent := by
        by_contra h
        exact h1 ⟨hs, h⟩
      rw [h2]
      cases F <;> decide
    | true =>
      right
      have hg := (isEdge_iff.mp hE).1
      obtain ⟨-, hP, hS⟩ := ok.edge
      have hy : 2 ^ (F.q - 1) = 4 * unit F * 2 ^ F.p := mask_unit F
      have eZ : (2 ^ (F.q - 1) + 2 * unit F) * phiNum (expOf F br) = ZOf F .to_nearest br := by
        simp only [ZOf, frOf, hg, hy]; ring
      have eY : 2 ^ (F.q - 1) * phiNum (expOf F br) = YOf F br := by
        simp only [YOf, hg, hy]; ring
      have eX : (2 ^ (F.p + 2) - 1) * unit F * phiNum (expOf F br) = XOf F .to_nearest br := by
        simp only [XOf, flOf, hE, if_true, hg]
        congr 3
        rw [pow_add]; ring
      rw [eZ, eY, eX] at hP
      rw [eZ] at hS
      have ezi : (ctxOf cfg F prov crs br).zi = ZOf F .to_nearest br / phiDen (expOf F br) := by
        show frOf F prov.tag br * unit F * phiNum (expOf F br) / phiDen (expOf F br) = _
        rw [ht]; rfl
      have edi : (ctxOf cfg F prov crs br).deltai = 3 * unit F * phiNum (expOf F br) / phiDen (expOf F br) := by
        show (frOf F prov.tag br - flOf F prov.tag br) * unit F * phiNum (expOf F br) / phiDen (expOf F br) = _
        rw [ht]
        congr 3
        simp only [frOf, flOf, hE, if_true]; omega
      refine ⟨by rw [hYX, hZY, hE]; simp; ring, ?_, ?_, ?_⟩
      · show 4 * unit F * sigOf F br = F.sign_bit_mask
        rw [sig_mask_iff, hg]
      · rw [ezi, edi]
        exact hP
      · rw [ezi, edi, hZY]
        exact hS

end Grisu
