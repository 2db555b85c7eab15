import Verif.Proofs.AllOnes64_0
import Verif.Proofs.AllOnes64_1
import Verif.Proofs.AllOnes64_2
import Verif.Proofs.AllOnes64_3
import Verif.Proofs.Unique

/-! # Left-closed directed rounding on every input -/

namespace Grisu

open Spec (RoundsTo value mag isNeg FiniteNonzero dec numDigits IsNearest IsAway IsTruncating
  faultFields longFields exponentField AllOnesSignificand)

variable {F : Fmt} {x : Nat}

/-! ## The policy only matters through `do_not_care` -/

theorem boundary_loop_crs (c : Ctx) (a : Crs) : ∀ (n : Nat) (st : State),
    ({ c with crs := a } : Ctx).boundary_loop n st = c.boundary_loop n st := by
  intro n
  induction n with
  | zero => intro st; rfl
  | succ n ih =>
    intro st
    simp only [Ctx.boundary_loop]
    split
    · rfl
    · split
      · rfl
      · exact ih _

theorem left_loop_crs (c : Ctx) (a : Crs) (y : Nat) (zf : ZfVsDeltaf) : ∀ (n st s d dv : Nat),
    ({ c with crs := a } : Ctx).left_loop y zf n st s d dv = c.left_loop y zf n st s d dv := by
  intro n
  induction n with
  | zero => intros; rfl
  | succ n ih =>
    intro st s d dv
    simp only [Ctx.left_loop]
    split
    · rfl
    · split
      · exact ih _ _ _ _
      · split
        · rfl
        · exact ih _ _ _ _

theorem after_decrease_left (c : Ctx) (ht : c.tag = .left_closed_directed) :
    c.after_decrease_by_2 = .boundary_adjustment := by
  unfold Ctx.after_decrease_by_2
  rw [if_neg (by simp [ht])]

theorem decreasing_search_left (c : Ctx) (ht : c.tag = .left_closed_directed) (st : State) {ls : Label × State}
    (h : c.decreasing_search st = .ok ls) : ls.1 = .boundary_adjustment := by
  unfold Ctx.decreasing_search Ctx.decrease_by_2 at h
  simp only [after_decrease_left c ht] at h
  split at h
  · cases h; rfl
  · split at h
    · cases hz : c.zf_smaller with
      | fault e => rw [hz] at h; simp at h
      | ok v =>
        rw [hz] at h
        simp only [Exec.ok_bind] at h
        split at h <;> (cases h; rfl)
    · cases h; rfl

theorem increasing_searches_label (c : Ctx) (st : State) {ls : Label × State}
    (h : c.increasing_searches st = .ok ls) : ls.1 = .boundary_adjustment := by
  unfold Ctx.increasing_searches at h
  simp only at h
  have step : ∀ {e : Exec State} {f : State → Exec (Label × State)}, (e >>= f) = .ok ls → ∃ v, f v = .ok ls := by
    intro e f he
    cases e with
    | fault e => simp at he
    | ok v => exact ⟨v, he⟩
  split at h
  · obtain ⟨_, h⟩ := step h
    obtain ⟨_, h⟩ := step h
    obtain ⟨_, h⟩ := step h
    cases h; rfl
  · obtain ⟨_, h⟩ := step h
    obtain ⟨_, h⟩ := step h
    obtain ⟨_, h⟩ := step h
    obtain ⟨_, h⟩ := step h
    cases h; rfl

theorem search_left (c : Ctx) (ht : c.tag = .left_closed_directed) {ls : Label × State}
    (h : c.search = .ok ls) : ls.1 = .boundary_adjustment := by
  unfold Ctx.search at h
  simp only at h
  split at h
  · exact increasing_searches_label c _ h
  · split at h
    · cases hz : c.zf_smaller with
      | fault e => rw [hz] at h; simp at h
      | ok v =>
        rw [hz] at h
        simp only [Exec.ok_bind] at h
        split at h
        · exact increasing_searches_label c _ h
        · exact decreasing_search_left c ht _ h
    · exact decreasing_search_left c ht _ h

theorem boundary_left (c : Ctx) (ht : c.tag = .left_closed_directed) (st : State) {ls : Label × State}
    (h : c.boundary_adjustment st = .ok ls) : ls.1 = .correct_rounding_search := by
  have step : ∀ {α : Type} {e : Exec α} {f : α → Exec (Label × State)}, (e >>= f) = .ok ls → ∃ v, f v = .ok ls := by
    intro α e f he
    cases e with
    | fault e => simp at he
    | ok v => exact ⟨v, he⟩
  unfold Ctx.boundary_adjustment at h
  split at h
  · obtain ⟨v, h⟩ := step h
    simp only at h
    split at h
    · obtain ⟨st2, h⟩ := step h
      rw [if_neg (by simp [ht])] at h
      cases h; rfl
    · cases h; rfl
  · cases h; rfl

theorem run_crs (c c' : Ctx) (b : Crs) (hc : c' = { c with crs := b }) (ht : c.tag = .left_closed_directed)
    (hab : c.crs = .do_not_care ↔ b = .do_not_care) : c.run = c'.run := by
  have ht' : c'.tag = .left_closed_directed := by rw [hc]; exact ht
  have hz : c'.zf_smaller = c.zf_smaller := by rw [hc]; rfl
  have hinc : ∀ st, c'.increasing_searches st = c.increasing_searches st := by intro st; rw [hc]; rfl
  have hdec : ∀ st, c'.decreasing_search st = c.decreasing_search st := by
    intro st
    unfold Ctx.decreasing_search Ctx.decrease_by_2
    simp only [after_decrease_left c ht, after_decrease_left c' ht', hz]
    rw [hc]
    rfl
  have hs : c'.search = c.search := by
    unfold Ctx.search
    simp only [hz, hinc, hdec]
    rw [hc]
  have hba : ∀ st, c'.boundary_adjustment st = c.boundary_adjustment st := by
    intro st
    unfold Ctx.boundary_adjustment
    rw [hc]
    simp only [boundary_loop_crs c, ne_eq, hab]
  have hcr : ∀ st, c'.correct_rounding st = c.correct_rounding st := by
    intro st
    unfold Ctx.correct_rounding Ctx.left_rounding
    rw [hc]
    simp only [left_loop_crs c, ne_eq, hab]
    simp [ht]
  unfold Ctx.run
  rw [hs]
  cases h : c.search with
  | fault e => rfl
  | ok ls =>
    have hl := search_left c ht h
    obtain ⟨l, st⟩ := ls
    subst hl
    simp only [Exec.ok_bind, Ctx.finish, hba]
    cases h2 : c.boundary_adjustment st with
    | fault e => rfl
    | ok ls2 =>
      have hl2 := boundary_left c ht st h2
      obtain ⟨l2, st2⟩ := ls2
      subst hl2
      simp only [Exec.ok_bind, hcr]

/-! ## Inputs with all significand bits set -/

theorem expField_eq (x : Nat) : x / 2 ^ F.p % 2 ^ F.exponent_bits = exponentField F x := by
  unfold exponentField mag
  have h1 : 2 ^ (Spec.width F - 1) = 2 ^ F.p * 2 ^ F.exponent_bits := by cases F <;> decide
  have h2 : Spec.mantBits F = F.p := by cases F <;> rfl
  rw [h1, h2, Nat.mod_mul_right_div_self]

theorem fraction_eq (x : Nat) : mag F x % 2 ^ Spec.mantBits F = x % 2 ^ F.p := by
  unfold mag
  have h1 : 2 ^ (Spec.width F - 1) = 2 ^ F.p * 2 ^ F.exponent_bits := by cases F <;> decide
  have h2 : Spec.mantBits F = F.p := by cases F <;> rfl
  rw [h1, h2, Nat.mod_mul_right_mod]

theorem allOnes_iff : AllOnes F x ↔ AllOnesSignificand F x ∧ exponentField F x ≠ 0 := by
  unfold AllOnes AllOnesSignificand sigOf
  rw [expField_eq, fraction_eq]
  have hm : Spec.mantBits F = F.p := by cases F <;> rfl
  rw [hm]
  have h1 : x % 2 ^ F.p < 2 ^ F.p := Nat.mod_lt _ (by positivity)
  have h2 : 2 ^ (F.p + 1) = 2 * 2 ^ F.p := by rw [pow_succ]; ring
  rw [h2]
  generalize 2 ^ F.p = N at *
  split <;> constructor
  · intro; omega
  · rintro ⟨-, h⟩; contradiction
  · intro; constructor
    · omega
    · assumption
  · rintro ⟨h, -⟩; omega

theorem field_range (h : FiniteNonzero F x) (h0 : exponentField F x ≠ 0) :
    exponentField F x ∈ List.range' 1 (2 ^ F.exponent_bits - 2) := by
  have h1 := (FiniteNonzero.input h).finite
  rw [expField_eq] at h1
  have h2 : exponentField F x < 2 ^ F.exponent_bits := by
    rw [← expField_eq]
    exact Nat.mod_lt _ (by positivity)
  rw [List.mem_range'_1]
  omega

theorem ones_fields (h : FiniteNonzero F x) (ha : AllOnes F x) :
    sigOf F (onesPattern F (exponentField F x)) = sigOf F x ∧
    expOf F (onesPattern F (exponentField F x)) = expOf F x := by
  obtain ⟨h1, h2⟩ := allOnes_iff.mp ha
  have hr := field_range h h2
  rw [List.mem_range'_1] at hr
  have hp : 0 < 2 ^ F.p := by positivity
  have hd : onesPattern F (exponentField F x) / 2 ^ F.p = exponentField F x := by
    unfold onesPattern
    rw [Nat.mul_comm, Nat.mul_add_div hp, Nat.div_eq_of_lt (by omega), Nat.add_zero]
  have hm : onesPattern F (exponentField F x) % 2 ^ F.p = 2 ^ F.p - 1 := by
    unfold onesPattern
    rw [Nat.mul_comm, Nat.mul_add_mod, Nat.mod_eq_of_lt (by omega)]
  have hf : onesPattern F (exponentField F x) / 2 ^ F.p % 2 ^ F.exponent_bits = exponentField F x := by
    rw [hd, Nat.mod_eq_of_lt (by omega)]
  unfold AllOnesSignificand at h1
  rw [fraction_eq, show Spec.mantBits F = F.p by cases F <;> rfl] at h1
  unfold sigOf expOf
  rw [hf, hm, expField_eq, h1]
  exact ⟨rfl, rfl⟩

theorem ones_ctx (h : FiniteNonzero F x) (ha : AllOnes F x) (cfg : Cfg) (crs : Crs) :
    ctxOf cfg F .left_closed_directed crs x =
      ctxOf cfg F .left_closed_directed crs (onesPattern F (exponentField F x)) := by
  obtain ⟨h1, h2⟩ := ones_fields h ha
  simp only [ctxOf, Provider.tag, Provider.interval, frOf, flOf, h1, h2]

theorem onesCheck_all (F : Fmt) : ∀ E ∈ List.range' 1 (2 ^ F.exponent_bits - 2),
    onesCheck F .do_not_care E = true ∧ onesCheck F .tie_to_even E = true := by
  cases F with
  | b32 => exact onesCheck32
  | b64 =>
    intro E hE
    rw [List.mem_range'_1] at hE
    have hE2 : E < 1 + (2 ^ 11 - 2) := hE.2
    by_cases h1 : E < 513
    · exact onesCheck64_0 E (List.mem_range'_1.mpr ⟨hE.1, by omega⟩)
    · by_cases h2 : E < 1025
      · exact onesCheck64_1 E (List.mem_range'_1.mpr ⟨by omega, by omega⟩)
      · by_cases h3 : E < 1537
        · exact onesCheck64_2 E (List.mem_range'_1.mpr ⟨by omega, by omega⟩)
        · exact onesCheck64_3 E (List.mem_range'_1.mpr ⟨by omega, by omega⟩)

/-- The builds in which `divisible_by_power_of_2(0, ..)` fails. -/
def Strict (cfg : Cfg) : Prop := cfg.x64 = true ∨ cfg.ndebug = false

instance (cfg : Cfg) : Decidable (Strict cfg) := by unfold Strict; infer_instance

/-- The outcome of Steps 2 to 4 on an input with all significand bits set. -/
theorem ones_run (h : FiniteNonzero F x) (ha : AllOnes F x) (crs : Crs) :
    ∃ κ s : Nat,
      (∀ cfg, (exponentField F x ∈ faultFields F ∧ Strict cfg →
          ∃ f, (ctxOf cfg F .left_closed_directed crs x).run = .fault f) ∧
        (¬ (exponentField F x ∈ faultFields F ∧ Strict cfg) →
          (ctxOf cfg F .left_closed_directed crs x).run = .ok (s, κ + mkOf (expOf F x)))) ∧
      loOf true (XOf F .left_closed_directed x) (BOf F x) ≤ s * 10 ^ κ ∧
      s * 10 ^ κ ≤ hiOf false (ZOf F .left_closed_directed x) (BOf F x) ∧
      κ ≤ 18 ∧
      (hiOf false (ZOf F .left_closed_directed x) (BOf F x) / 10 ^ (κ + 1) * 10 ^ (κ + 1) <
        loOf true (XOf F .left_closed_directed x) (BOf F x) ↔ exponentField F x ∉ longFields F) ∧
      (exponentField F x ∈ longFields F →
        numDigits (hiOf false (ZOf F .left_closed_directed x) (BOf F x) / 10 ^ (κ + 1)) < numDigits s) ∧
      (crs ≠ .do_not_care → ¬ 10 ^ κ ∣ loOf true (XOf F .left_closed_directed x) (BOf F x) →
        ¬ 10 ^ κ ∣ loOf true (XOf F .left_closed_directed x) (BOf F x) - 1 →
        (s - 1) * 10 ^ κ < loOf true (XOf F .left_closed_directed x) (BOf F x)) ∧
      (crs ≠ .do_not_care → ((s - 1) * 10 ^ κ < loOf true (XOf F .left_closed_directed x) (BOf F x) ↔
        exponentField F x ∉ Spec.farFields F)) ∧
      s < 10 ^ maxDigits F ∧ s % 10 ≠ 0 := by
  obtain ⟨f1, f2⟩ := ones_fields h ha
  set E := exponentField F x with hEdef
  have hx : XOf F .left_closed_directed x = XOf F .left_closed_directed (onesPattern F E) := by
    simp only [XOf, flOf, f1, f2]
  have hz : ZOf F .left_closed_directed x = ZOf F .left_closed_directed (onesPattern F E) := by
    simp only [ZOf, frOf, f1, f2]
  have hb : BOf F x = BOf F (onesPattern F E) := by simp only [BOf, f2]
  have hctx := fun cfg crs => ones_ctx h ha cfg crs
  rw [← hEdef] at hctx
  obtain ⟨crs', hcrs', hck⟩ : ∃ crs', (crs = .do_not_care ↔ crs' = .do_not_care) ∧ onesCheck F crs' E = true := by
    have hc := onesCheck_all F E (field_range h (allOnes_iff.mp ha).2)
    by_cases hd : crs = .do_not_care
    · exact ⟨.do_not_care, by simp [hd], hc.1⟩
    · exact ⟨.tie_to_even, by simp [hd], hc.2⟩
  have hrun : ∀ cfg, (ctxOf cfg F .left_closed_directed crs x).run = onesRun cfg F crs' E := by
    intro cfg
    rw [hctx]
    exact run_crs _ _ crs' rfl rfl hcrs'
  simp only [hrun, hx, hz, hb, ← f2]
  clear hrun hctx hx hz hb f1 f2
  unfold onesCheck at hck
  split at hck
  · cases hck
  · rename_i s t hr
    simp only [Bool.and_eq_true, decide_eq_true_eq, beq_iff_eq] at hck
    obtain ⟨⟨⟨⟨⟨⟨⟨⟨⟨⟨⟨⟨c1, c2⟩, c3⟩, c4⟩, c5⟩, c5'⟩, c9⟩, c12⟩, c10⟩, c11⟩, c6⟩, c7⟩, c8⟩ := hck
    refine ⟨(t - mkOf (expOf F (onesPattern F E))).toNat, s, ?_, c3, c4, c2, ?_, ?_, ?_, ?_, c10, c11⟩
    rotate_left 3
    · intro hc d1 d2
      simp only [Bool.or_eq_true, decide_eq_true_eq] at c9
      rcases c9 with ((h | h) | h) | h
      · exact absurd (hcrs'.mpr h) hc
      · exact absurd (Nat.dvd_of_mod_eq_zero h) d1
      · exact absurd (Nat.dvd_of_mod_eq_zero h) d2
      · exact h
    · intro hc
      simp only [Bool.or_eq_true, decide_eq_true_eq, beq_iff_eq] at c12
      rcases c12 with h | h
      · exact absurd (hcrs'.mpr h) hc
      · have := congrArg (· = true) h
        simpa using this
    · have ht : ((t - mkOf (expOf F (onesPattern F E))).toNat : Int) + mkOf (expOf F (onesPattern F E)) = t := by
        omega
      rw [ht]
      rintro ⟨a, b⟩
      unfold Strict
      by_cases hm : E ∈ faultFields F
      · simp only [List.contains_eq_mem, hm, decide_true, if_true] at c6 c7 c8
        cases a <;> cases b <;> simp [hr, c6, c7, c8, hm]
      · simp only [List.contains_eq_mem, hm, decide_false, Bool.false_eq_true, if_false] at c6 c7 c8
        cases a <;> cases b <;> simp [hr, c6, c7, c8, hm]
    · have := congrArg (· = true) c5
      simpa using this
    · intro hE
      simp only [List.contains_eq_mem, hE, decide_true, Bool.not_true, Bool.false_or, List.any_eq_true,
        Bool.and_eq_true, decide_eq_true_eq] at c5'
      obtain ⟨j, -, j1, j2⟩ := c5'
      have k1 := numDigits_le_iff.mpr j1
      by_contra hc
      have k2 := numDigits_le_iff.mp ((not_lt.mp hc).trans k1)
      omega

/-! ## The build configuration does not matter -/

theorem boundary_loop_cfg (c : Ctx) (a : Cfg) : ∀ (n : Nat) (st : State),
    ({ c with cfg := a } : Ctx).boundary_loop n st = c.boundary_loop n st := by
  intro n
  induction n with
  | zero => intro st; rfl
  | succ n ih =>
    intro st
    simp only [Ctx.boundary_loop]
    split
    · rfl
    · split
      · rfl
      · exact ih _

theorem left_loop_cfg (c : Ctx) (a : Cfg) (y : Nat) (zf : ZfVsDeltaf)
    (hmul : compute_mul a c.F c.significand c.cache c.minus_beta =
      compute_mul c.cfg c.F c.significand c.cache c.minus_beta)
    (heq : equal_fractional_parts a c.F c.tag c.significand c.exponent c.minus_k =
      equal_fractional_parts c.cfg c.F c.tag c.significand c.exponent c.minus_k) : ∀ (n st s d dv : Nat),
    ({ c with cfg := a } : Ctx).left_loop y zf n st s d dv = c.left_loop y zf n st s d dv := by
  intro n
  induction n with
  | zero => intros; rfl
  | succ n ih =>
    intro st s d dv
    simp only [Ctx.left_loop, hmul, heq]
    split
    · rfl
    · split
      · exact ih _ _ _ _
      · split
        · rfl
        · exact ih _ _ _ _

theorem run_cfg (c c' : Ctx) (a : Cfg) (hc : c' = { c with cfg := a }) (ht : c.tag = .left_closed_directed)
    (hz : c'.zf_smaller = c.zf_smaller)
    (hint : is_product_integer a c.F (if c.tag = .to_nearest then .fc_pm_2_to_the_q_mp_m2_generic else .other)
        c.fr c.exponent c.minus_k =
      is_product_integer c.cfg c.F (if c.tag = .to_nearest then .fc_pm_2_to_the_q_mp_m2_generic else .other)
        c.fr c.exponent c.minus_k)
    (hmul : compute_mul a c.F c.significand c.cache c.minus_beta =
      compute_mul c.cfg c.F c.significand c.cache c.minus_beta)
    (heq : equal_fractional_parts a c.F c.tag c.significand c.exponent c.minus_k =
      equal_fractional_parts c.cfg c.F c.tag c.significand c.exponent c.minus_k) : c.run = c'.run := by
  have ht' : c'.tag = .left_closed_directed := by rw [hc]; exact ht
  have hinc1 : ∀ l b st, c'.increasing_search l b st = c.increasing_search l b st := by
    intro l b st
    unfold Ctx.increasing_search
    rw [hz]
    rw [hc]
    rfl
  have hinc : ∀ st, c'.increasing_searches st = c.increasing_searches st := by
    intro st
    unfold Ctx.increasing_searches
    simp only [hinc1]
    rw [hc]
  have hdec : ∀ st, c'.decreasing_search st = c.decreasing_search st := by
    intro st
    unfold Ctx.decreasing_search Ctx.decrease_by_2
    simp only [after_decrease_left c ht, after_decrease_left c' ht', hz]
    rw [hc]
    rfl
  have hs : c'.search = c.search := by
    unfold Ctx.search
    simp only [hz, hinc, hdec]
    rw [hc]
  have hba : ∀ st, c'.boundary_adjustment st = c.boundary_adjustment st := by
    intro st
    unfold Ctx.boundary_adjustment
    rw [hc]
    simp only [boundary_loop_cfg c, hint]
  have hcr : ∀ st, c'.correct_rounding st = c.correct_rounding st := by
    intro st
    unfold Ctx.correct_rounding Ctx.left_rounding
    rw [hc]
    simp only [left_loop_cfg c a _ _ hmul heq]
    simp [ht]
  unfold Ctx.run
  rw [hs]
  cases h : c.search with
  | fault e => rfl
  | ok ls =>
    have hl := search_left c ht h
    obtain ⟨l, st⟩ := ls
    subst hl
    simp only [Exec.ok_bind, Ctx.finish, hba]
    cases h2 : c.boundary_adjustment st with
    | fault e => rfl
    | ok ls2 =>
      have hl2 := boundary_left c ht st h2
      obtain ⟨l2, st2⟩ := ls2
      subst hl2
      simp only [Exec.ok_bind, hcr]

theorem left_run_cfg (h : FiniteNonzero F x) (hl : ¬ AllOnes F x) (cfg cfg' : Cfg) (crs : Crs) :
    (ctxOf cfg F .left_closed_directed crs x).run = (ctxOf cfg' F .left_closed_directed crs x).run := by
  have hi := FiniteNonzero.input h
  have g := goodB cfg .left_closed_directed crs hi (FiniteNonzero.lt h) (fun _ => hl)
  have g' := goodB cfg' .left_closed_directed crs hi (FiniteNonzero.lt h) (fun _ => hl)
  have hfl : flOf F .left_closed_directed x * unit F = 4 * unit F * sigOf F x := by simp only [flOf]; ring
  refine run_cfg _ _ cfg' rfl rfl ?_ ?_ ?_ ?_
  · rw [g.zs, g'.zs]; rfl
  · exact (g'.fr_int rfl).trans (g.fr_int rfl).symm
  · show compute_mul cfg' F (4 * unit F * sigOf F x) (cacheOf F (expOf F x)) (mbOf (expOf F x)) =
      compute_mul cfg F (4 * unit F * sigOf F x) (cacheOf F (expOf F x)) (mbOf (expOf F x))
    rw [← hfl, hi.expOK.compute_mul cfg (flOf_lt _ hi), hi.expOK.compute_mul cfg' (flOf_lt _ hi)]
  · show equal_fractional_parts cfg' F .left_closed_directed (4 * unit F * sigOf F x) (expOf F x) (mkOf (expOf F x)) =
      equal_fractional_parts cfg F .left_closed_directed (4 * unit F * sigOf F x) (expOf F x) (mkOf (expOf F x))
    rw [← hfl, equal_fractional_parts_spec cfg .left_closed_directed hi (by simp),
      equal_fractional_parts_spec cfg' .left_closed_directed hi (by simp)]

/-! ## `grisu_exact` -/

/-- `grisu_exact` in terms of Steps 2 to 4. -/
theorem grisu_exact_eq_run (cfg : Cfg) (rs : Bool) (mode : RoundingMode) (crs : Crs) (handler : CaseHandler)
    (h : FiniteNonzero F x) :
    grisu_exact cfg F rs x mode crs handler =
      ((ctxOf cfg F (mode.provider F x) crs x).run >>= fun st =>
        .ok ⟨st.1, st.2, if rs then some (isNeg F x) else none⟩) := by
  cases hr : (ctxOf cfg F (mode.provider F x) crs x).run with
  | ok st => exact grisu_exact_of_run cfg rs mode crs handler h hr
  | fault f =>
    have hi := FiniteNonzero.input h
    have hlt := FiniteNonzero.lt h
    unfold grisu_exact
    have hb : get_bit_representation F x = x := wrap_of_lt hlt
    simp only [hb]
    have hh : handler.call cfg F x = .ok () := by
      cases handler
      · show cassert cfg _ = _
        rw [is_finite_of h]
        exact cassert_true rfl
      · rfl
    rw [hh]
    simp only [Exec.ok_bind]
    unfold compute
    rw [setup_spec cfg _ crs hi]
    simp only [Exec.ok_bind]
    unfold Ctx.run at hr
    cases hs : (ctxOf cfg F (mode.provider F x) crs x).search with
    | fault e => rw [hs] at hr; simp only [Exec.fault_bind] at hr ⊢; cases hr; rfl
    | ok ls =>
      rw [hs] at hr
      simp only [Exec.ok_bind] at hr ⊢
      rw [hr]
      rfl

theorem provider_left {mode : RoundingMode} (hm : IsTruncating (isNeg F x) mode = true) :
    mode.provider F x = .left_closed_directed := by
  have ht := (tag_left (F := F) (x := x) mode).mpr hm
  cases hp : mode.provider F x <;> rw [hp] at ht <;> simp_all [Provider.tag]

/-- A number of the interval of which no multiple of the next power of ten is in it. -/
theorem output_of_bounds (hi : Input F x) {κ s : Nat}
    (h1 : loOf true (XOf F .left_closed_directed x) (BOf F x) ≤ s * 10 ^ κ)
    (h2 : s * 10 ^ κ ≤ hiOf false (ZOf F .left_closed_directed x) (BOf F x)) (h3 : κ ≤ 18)
    (h4 : hiOf false (ZOf F .left_closed_directed x) (BOf F x) / 10 ^ (κ + 1) * 10 ^ (κ + 1) <
      loOf true (XOf F .left_closed_directed x) (BOf F x)) :
    Output (MemOf F .left_closed_directed x) s (κ + mkOf (expOf F x)) := by
  refine Result.output (cfg := ⟨true, true⟩) (prov := .left_closed_directed) (crs := .tie_to_even) hi
    ⟨h1, h2, ?_, h3⟩
  intro n κ' hκ a1 a2
  obtain ⟨j, rfl⟩ : ∃ j, κ' = κ + 1 + j := ⟨κ' - (κ + 1), by omega⟩
  change loOf true (XOf F .left_closed_directed x) (BOf F x) ≤ _ at a1
  change _ ≤ hiOf false (ZOf F .left_closed_directed x) (BOf F x) at a2
  rw [pow_add, Nat.mul_comm (10 ^ (κ + 1)), ← Nat.mul_assoc] at a1 a2
  have := (Nat.le_div_iff_mul_le (by positivity)).mpr a2
  have := Nat.mul_le_mul_right (10 ^ (κ + 1)) this
  omega

/-- The left endpoint in units of `10^minus_k`. -/
theorem lo_near (h : FiniteNonzero F x) {m : Nat}
    (hm : m = loOf true (XOf F .left_closed_directed x) (BOf F x) ∨
      m = loOf true (XOf F .left_closed_directed x) (BOf F x) - 1) :
    |(m : ℚ) * 10 ^ mkOf (expOf F x) - value F (mag F x)| ≤ 10 ^ mkOf (expOf F x) := by
  have hB : (0 : ℚ) < phiDen (expOf F x) := by exact_mod_cast phiDen_pos _
  have hT := ten_zpow_pos (mkOf (expOf F x))
  have e1 := endpoint_eq (F := F) (x := x) (4 * sigOf F x)
  rw [← value_mag (FiniteNonzero.lt h)] at e1
  have hX : 4 * sigOf F x * unit F * phiNum (expOf F x) = XOf F .left_closed_directed x := rfl
  rw [hX] at e1
  have hBe : BOf F x = phiDen (expOf F x) := rfl
  rw [← hBe] at e1 hB
  set X := XOf F .left_closed_directed x
  set B := BOf F x
  have hB0 : 0 < B := phiDen_pos _
  have hdm := Nat.div_add_mod X B
  have hmod := Nat.mod_lt X hB0
  have hdm' : B * (X / B) + X % B = X := hdm
  -- bounds on m
  have b1 : m * B ≤ X + B := by
    have : m ≤ X / B + 1 := by
      clear e1 hdm hdm' hmod hX
      unfold loOf at hm
      generalize X / B = Q at hm ⊢
      split at hm <;> omega
    calc m * B ≤ (X / B + 1) * B := Nat.mul_le_mul_right _ this
      _ = B * (X / B) + B := by ring
      _ ≤ X + B := by omega
  have b2 : X ≤ m * B + B := by
    unfold loOf at hm
    split at hm
    · rename_i hd
      have h0 : X % B = 0 := Nat.mod_eq_zero_of_dvd hd.2
      have : X / B ≤ m + 1 := by
        clear e1 hdm hdm' hmod hX
        generalize X / B = Q at hm ⊢
        omega
      calc X = (X / B) * B := by rw [Nat.mul_comm]; exact (hdm'.symm.trans (by rw [h0, Nat.add_zero]))
        _ ≤ (m + 1) * B := Nat.mul_le_mul_right _ this
        _ = m * B + B := by ring
    · have : X / B ≤ m := by
        clear e1 hdm hdm' hmod hX
        generalize X / B = Q at hm ⊢
        omega
      calc X ≤ (X / B) * B + B := by rw [Nat.mul_comm (X / B)]; exact hdm'.ge.trans (by omega)
        _ ≤ m * B + B := by have := Nat.mul_le_mul_right B this; omega
  have b1' : (m : ℚ) * B ≤ X + B := by exact_mod_cast b1
  have b2' : (X : ℚ) ≤ m * B + B := by exact_mod_cast b2
  rw [abs_le]
  constructor
  · refine le_of_mul_le_mul_right ?_ hB
    rw [sub_mul, e1]
    nlinarith
  · refine le_of_mul_le_mul_right ?_ hB
    rw [sub_mul, e1]
    nlinarith

/-- No significand with this exponent is smaller. -/
def Smallest (I : ℚ → Prop) (s : Nat) (t : Int) : Prop := ∀ n, I (dec n t) → s ≤ n

theorem smallest_of (h : FiniteNonzero F x) {κ s : Nat}
    (hs : ¬ 10 ^ κ ∣ loOf true (XOf F .left_closed_directed x) (BOf F x) →
        ¬ 10 ^ κ ∣ loOf true (XOf F .left_closed_directed x) (BOf F x) - 1 →
        (s - 1) * 10 ^ κ < loOf true (XOf F .left_closed_directed x) (BOf F x))
    (far : ∀ n, (10 : ℚ) ^ mkOf (expOf F x) < |dec n (κ + mkOf (expOf F x)) - value F (mag F x)|) :
    Smallest (MemOf F .left_closed_directed x) s (κ + mkOf (expOf F x)) := by
  have hi := FiniteNonzero.input h
  have far' : ∀ m, (m = loOf true (XOf F .left_closed_directed x) (BOf F x) ∨
      m = loOf true (XOf F .left_closed_directed x) (BOf F x) - 1) → ¬ 10 ^ κ ∣ m := by
    rintro m hm ⟨n, hn⟩
    have h1 := far n
    rw [dec_scaled, Nat.mul_comm n, ← hn] at h1
    exact absurd (lo_near h hm) (not_le.mpr h1)
  have h1 := hs (far' _ (Or.inl rfl)) (far' _ (Or.inr rfl))
  intro n hn
  rw [dec_scaled] at hn
  have h2 := ((mem_int ⟨true, true⟩ .left_closed_directed .tie_to_even hi _).mp hn).1
  change loOf true (XOf F .left_closed_directed x) (BOf F x) ≤ _ at h2
  have := Nat.lt_of_mul_lt_mul_right (lt_of_lt_of_le h1 h2)
  omega

/-- The truncating modes on every input. -/
theorem main_truncating (h : FiniteNonzero F x) {mode : RoundingMode} (crs : Crs)
    (hm : IsTruncating (isNeg F x) mode = true) :
    ∃ s t,
      (∀ cfg rs handler,
        (Spec.ZeroDivisibility F x ∧ Strict cfg → ∃ f, grisu_exact cfg F rs x mode crs handler = .fault f) ∧
        (¬ (Spec.ZeroDivisibility F x ∧ Strict cfg) → grisu_exact cfg F rs x mode crs handler =
          .ok ⟨s, t, if rs then some (isNeg F x) else none⟩)) ∧
      Reads F mode x (dec s t) ∧
      (¬ Spec.NotShortest F x → Output (Reads F mode x) s t) ∧
      (Spec.NotShortest F x → ∃ n, Reads F mode x (dec n (t + 1)) ∧ numDigits n < numDigits s) ∧
      (crs ≠ .do_not_care → (∀ n, (10 : ℚ) ^ mkOf (expOf F x) < |dec n t - value F (mag F x)|) →
        Smallest (Reads F mode x) s t) ∧
      (∃ κ : Nat, κ ≤ 18 ∧ t = κ + mkOf (expOf F x)) ∧
      s < 10 ^ maxDigits F ∧ s % 10 ≠ 0 := by
  have hi := FiniteNonzero.input h
  have hp := provider_left hm
  rw [reads_eq h, hp]
  by_cases ha : AllOnes F x
  · obtain ⟨κ, s, h1, h2, h3, h4, h5, h6, h7, -, h8⟩ := ones_run h ha crs
    obtain ⟨a1, a2⟩ := allOnes_iff.mp ha
    have mem : ∀ n, (loOf true (XOf F .left_closed_directed x) (BOf F x) ≤ n ∧
        n ≤ hiOf false (ZOf F .left_closed_directed x) (BOf F x)) →
        MemOf F .left_closed_directed x (n * 10 ^ mkOf (expOf F x)) := fun n hn =>
      (mem_int ⟨true, true⟩ .left_closed_directed .tie_to_even hi n).mpr hn
    refine ⟨s, κ + mkOf (expOf F x), ?_, ?_, ?_, ?_, fun hc => smallest_of h (h7 hc), ⟨κ, h4, rfl⟩, h8⟩
    · intro cfg rs handler
      obtain ⟨g1, g2⟩ := h1 cfg
      rw [grisu_exact_eq_run cfg rs mode crs handler h, hp]
      constructor
      · rintro ⟨z, st⟩
        obtain ⟨f, hf⟩ := g1 ⟨z.2, st⟩
        exact ⟨f, by rw [hf]; rfl⟩
      · intro hz
        rw [g2 (fun hc => hz ⟨⟨a1, hc.1⟩, hc.2⟩)]
        rfl
    · rw [dec_scaled]
      exact mem _ ⟨h2, h3⟩
    · intro hn
      exact output_of_bounds hi h2 h3 h4 (h5.mpr (fun hc => hn ⟨a1, hc⟩))
    · intro hn
      refine ⟨hiOf false (ZOf F .left_closed_directed x) (BOf F x) / 10 ^ (κ + 1), ?_, h6 hn.2⟩
      have := h5.not.mpr (not_not.mpr hn.2)
      rw [show (κ : Int) + mkOf (expOf F x) + 1 = ((κ + 1 : Nat) : Int) + mkOf (expOf F x) by push_cast; ring, dec_scaled]
      exact mem _ ⟨not_lt.mp this, Nat.div_mul_le_self _ _⟩
  · obtain ⟨s, κ, h0, h1, h2, h3⟩ := main_left ⟨true, true⟩ true .assert_finite crs h hm ha
    have hz : ∀ L : List Nat, 0 ∉ L → ¬ (AllOnesSignificand F x ∧ exponentField F x ∈ L) := by
      rintro L h0 ⟨b1, b2⟩
      refine ha (allOnes_iff.mpr ⟨b1, fun hc => h0 (hc ▸ b2)⟩)
    have hz1 : ¬ Spec.ZeroDivisibility F x := hz _ (by cases F <;> decide)
    have hz2 : ¬ Spec.NotShortest F x := hz _ (by cases F <;> decide)
    rw [grisu_exact_eq_run _ _ _ _ _ h, hp] at h1
    have hrun : (ctxOf ⟨true, true⟩ F .left_closed_directed crs x).run =
        .ok (s, κ + mkOf (expOf F x)) := by
      cases hr : (ctxOf ⟨true, true⟩ F .left_closed_directed crs x).run with
      | fault f => rw [hr] at h1; simp at h1
      | ok st =>
        rw [hr] at h1
        simp only [Exec.ok_bind, Exec.ok.injEq, FpT.mk.injEq] at h1
        rw [← h1.1, ← h1.2.1]
    refine ⟨s, κ + mkOf (expOf F x), ?_, ?_, ?_, fun hc => absurd hc hz2, fun hc => smallest_of h (h3 hc), ⟨κ, h0, rfl⟩,
      ?_, h2.no_trailing_zero⟩
    · intro cfg rs handler
      refine ⟨fun hc => absurd hc.1 hz1, fun _ => ?_⟩
      rw [grisu_exact_eq_run _ _ _ _ _ h, hp, left_run_cfg h ha cfg ⟨true, true⟩ crs, hrun]
      rfl
    · rw [← hp, ← reads_eq h]; exact h2.mem
    · intro _
      rw [← hp, ← reads_eq h]; exact h2
    · rw [reads_eq h] at h2
      exact numDigits_le_iff.mp (digits_bound _ hi h2)

end Grisu
