import Verif.Proofs.Search

/-! # Step 3: the right endpoint, and the state in which Step 4 starts -/

namespace Grisu

/-- What Step 3 needs in addition. -/
structure GoodB (c : Ctx) (X Z B : Nat) : Prop extends Good c X Z B where
  fr_int : c.interval_type.include_right_endpoint = false →
    is_product_integer c.cfg c.F
      (if c.tag = .to_nearest then .fc_pm_2_to_the_q_mp_m2_generic else .other)
      c.fr c.exponent c.minus_k = .ok (decide (B ∣ Z))
  il_or : c.interval_type.include_right_endpoint = false → c.tag ≠ .to_nearest →
    c.interval_type.include_left_endpoint = true
  gap : c.tag = .to_nearest → ∀ κ m, Z = m * 10 ^ κ * B → Z - X ≠ 10 ^ κ * B
  dead : c.tag = .to_nearest → c.exponent = -((c.F.q - c.F.p - 1 : Nat) : Int) →
    ∀ κ m, Z = m * 10 ^ κ * B → (Z - X) / B ≠ 10 ^ κ

variable {c : Ctx} {X Z B : Nat}

/-- No multiple of a larger power of ten than `10^κ` lies in the interval. -/
def NoMult (c : Ctx) (X Z B κ : Nat) : Prop :=
  ∀ n κ', κ < κ' → c.lo X B ≤ n * 10 ^ κ' → n * 10 ^ κ' ≤ c.hi Z B → False

/-- The state in which Step 4 starts. -/
structure RoundPre (c : Ctx) (X Z B κ : Nat) (st : State) : Prop where
  exponent : st.exponent = κ + c.minus_k
  divisor : st.divisor = 10 ^ κ
  sum : c.crs ≠ .do_not_care → c.tag ≠ .right_closed_directed →
    st.significand * 10 ^ κ + st.r = c.zi
  noMult : NoMult c X Z B κ
  small : c.deltai ≤ 10 ^ (κ + 1)
  r_le : st.r ≤ c.deltai
  window : c.zi % 10 ^ (κ + 1) = 0 ∨ c.deltai ≤ c.zi % 10 ^ (κ + 1)
  le18 : κ ≤ 18

/-- The significand is the largest one in the interval. -/
def IsTop (c : Ctx) (X Z B κ s : Nat) : Prop :=
  c.lo X B ≤ s * 10 ^ κ ∧ s * 10 ^ κ ≤ c.hi Z B ∧ c.hi Z B < (s + 1) * 10 ^ κ

/-- In the nearest modes with correct rounding search, the significand may also be that of the
excluded right endpoint. -/
def IsTopOrEnd (c : Ctx) (X Z B κ : Nat) (st : State) : Prop :=
  st.r = c.zi % 10 ^ κ ∧
  (c.lo X B ≤ st.significand * 10 ^ κ ∧ st.significand * 10 ^ κ ≤ c.hi Z B ∨
    (st.r = 0 ∧ B ∣ Z ∧ c.interval_type.include_right_endpoint = false ∧ c.lo X B + 10 ^ κ ≤ c.zi))

/-- Correct rounding search in a nearest mode. -/
def Ctx.Rounds (c : Ctx) : Prop := c.crs ≠ .do_not_care ∧ c.tag = .to_nearest

theorem Good.hi_le (g : Good c X Z B) : c.hi Z B ≤ c.zi := by
  rw [g.zi]
  unfold Ctx.hi hiOf
  generalize Z / B = k
  split <;> omega

theorem Good.zi_le (g : Good c X Z B) : c.zi ≤ c.hi Z B + 1 := by
  rw [g.zi]
  unfold Ctx.hi hiOf
  split <;> omega

theorem Good.hi_eq (g : Good c X Z B) (h : ¬ (c.interval_type.include_right_endpoint = false ∧ B ∣ Z)) :
    c.hi Z B = c.zi := by
  rw [g.zi]
  unfold Ctx.hi hiOf
  rw [if_neg h]

theorem Good.hi_eq' (g : Good c X Z B) (h : c.interval_type.include_right_endpoint = false ∧ B ∣ Z) :
    c.hi Z B + 1 = c.zi := by
  have := g.lo_pos
  have h2 := g.lo_or
  have h3 := g.di_ge
  rw [← g.di] at h3
  have h4 : 2 ≤ c.deltai := by cases hF : c.F <;> rw [hF] at h3 <;> simp only at h3 <;> omega
  have h5 : 0 < c.zi := by unfold Ctx.lo at h2; omega
  rw [g.zi] at h5
  unfold Ctx.hi hiOf
  rw [if_pos h, g.zi]
  omega

theorem noMult_of_not_reach {n κ' : Nat} (h : ¬ Reach c X B κ') (h1 : c.lo X B ≤ n * 10 ^ κ')
    (h2 : n * 10 ^ κ' ≤ c.zi) : False := by
  unfold Reach at h
  have h3 : n ≤ c.zi / 10 ^ κ' := (Nat.le_div_iff_mul_le (by positivity)).2 h2
  have h4 := Nat.div_add_mod c.zi (10 ^ κ')
  have h5 := Nat.mul_le_mul_left (10 ^ κ') h3
  rw [mul_comm n] at h1
  omega

theorem Good.two_le_di (g : Good c X Z B) : 2 ≤ c.deltai := by
  have h3 := g.di_ge
  rw [← g.di] at h3
  cases hF : c.F <;> rw [hF] at h3 <;> simp only at h3 <;> omega

theorem Good.b64_di (g : Good c X Z B) (hF : c.F = .b64) : 16 ≤ c.deltai := by
  have h3 := g.di_ge
  rw [← g.di, hF] at h3
  exact h3

/-- The loop of Step 3. -/
theorem GoodB.boundary_loop (g : GoodB c X Z B) (hi : B ∣ Z) : ∀ (fuel κ : Nat) (st : State), κ < fuel →
    At c κ st → c.zi % 10 ^ κ = 0 →
    ∃ κ' st', c.boundary_loop fuel st = .ok st' ∧ At c κ' st' ∧ κ' ≤ κ ∧ 10 ^ κ' ≤ c.deltai ∧
      (κ' < κ → c.deltai < 10 ^ (κ' + 1)) := by
  intro fuel
  induction fuel with
  | zero => intro κ st h; omega
  | succ fuel ih =>
    intro κ st hf h h0
    unfold Ctx.boundary_loop
    rw [h.divisor]
    by_cases c1 : 10 ^ κ < c.deltai
    · rw [if_pos c1]
      exact ⟨κ, st, rfl, h, le_refl _, c1.le, fun hh => absurd hh (lt_irrefl _)⟩
    · rw [if_neg c1]
      by_cases c2 : 10 ^ κ = c.deltai
      · rw [if_pos c2, if_neg]
        · exact ⟨κ, st, rfl, h, le_refl _, c2.le, fun hh => absurd hh (lt_irrefl _)⟩
        · rintro ⟨t1, -, t3⟩
          refine g.dead t1 t3 κ (c.zi / 10 ^ κ) ?_ ?_
          · rw [Nat.div_mul_cancel (Nat.dvd_of_mod_eq_zero h0), g.zi, Nat.div_mul_cancel hi]
          · rw [← g.di, c2]
      · rw [if_neg c2]
        have hκ : 0 < κ := by
          by_contra hk
          have : κ = 0 := by omega
          subst this
          have := g.two_le_di
          omega
        obtain ⟨k, rfl⟩ : ∃ k, κ = k + 1 := ⟨κ - 1, by omega⟩
        have hdvd : 10 ^ (k + 1) ∣ c.zi := Nat.dvd_of_mod_eq_zero h0
        have h0' : c.zi % 10 ^ k = 0 :=
          Nat.mod_eq_zero_of_dvd (Dvd.dvd.trans (pow_dvd_pow 10 (by omega)) hdvd)
        have hat : At c k (c.decrease_kappa st) := by
          have hq := g.lt_q
          constructor
          · simp only [Ctx.decrease_kappa, h.significand]
            obtain ⟨m, hm⟩ := hdvd
            rw [hm, Nat.mul_div_cancel_left _ (by positivity), pow_succ, mul_assoc,
              Nat.mul_div_cancel_left _ (by positivity), mul_comm m 10]
            apply wrap_of_lt
            rw [hm, pow_succ, mul_assoc] at hq
            refine lt_of_le_of_lt ?_ hq
            exact Nat.le_mul_of_pos_left _ (by positivity)
          · simp only [Ctx.decrease_kappa, h.exponent]
            push_cast
            ring
          · simp only [Ctx.decrease_kappa, h.r, h0, h0']
          · simp only [Ctx.decrease_kappa, h.divisor, pow_succ]
            exact Nat.mul_div_cancel _ (by norm_num)
        obtain ⟨κ', st', e1, e2, e3, e4, e5⟩ := ih k _ (by omega) hat h0'
        refine ⟨κ', st', e1, e2, by omega, e4, ?_⟩
        intro hlt
        rcases Nat.lt_or_eq_of_le e3 with h' | h'
        · exact e5 h'
        · rw [h']
          omega

theorem At.sum {κ : Nat} {st : State} (h : At c κ st) : st.significand * 10 ^ κ + st.r = c.zi := by
  rw [h.significand, h.r, mul_comm]
  exact Nat.div_add_mod _ _

theorem SearchPost.noMult (g : Good c X Z B) {κ : Nat} {l : Label} {st : State}
    (h : SearchPost c X B κ l st) : NoMult c X Z B κ := by
  intro n κ' hk h1 h2
  refine noMult_of_not_reach (κ' := κ') (n := n) ?_ h1 (le_trans h2 g.hi_le)
  intro hr
  exact h.max (hr.anti (by omega))

theorem SearchPost.window (g : Good c X Z B) {κ : Nat} {l : Label} {st : State}
    (h : SearchPost c X B κ l st) : c.deltai ≤ c.zi % 10 ^ (κ + 1) := by
  have h1 := h.max
  have h2 := g.lo_or
  unfold Reach at h1
  omega

/-- Without adjustment. -/
theorem SearchPost.roundPre (g : Good c X Z B) {κ : Nat} {l : Label} {st : State}
    (h : SearchPost c X B κ l st) : RoundPre c X Z B κ st := by
  have hw := h.window g
  have hlt : c.zi % 10 ^ (κ + 1) < 10 ^ (κ + 1) := Nat.mod_lt _ (by positivity)
  refine ⟨h.at_.exponent, h.at_.divisor, fun _ _ => h.at_.sum, h.noMult g, by omega, ?_, Or.inr hw, h.le18⟩
  have hr := h.reach
  have := g.lo_or
  unfold Reach at hr
  rw [h.at_.r]
  omega

theorem SearchPost.lo_le {κ : Nat} {l : Label} {st : State}
    (h : SearchPost c X B κ l st) : c.lo X B ≤ st.significand * 10 ^ κ := by
  have hr := h.reach
  have := h.at_.sum
  have := h.at_.r
  unfold Reach at hr
  omega

theorem SearchPost.lt_succ (g : Good c X Z B) {κ : Nat} {l : Label} {st : State}
    (h : SearchPost c X B κ l st) : c.hi Z B < (st.significand + 1) * 10 ^ κ := by
  have h1 := h.at_.sum
  have h2 := h.at_.r
  have h3 : c.zi % 10 ^ κ < 10 ^ κ := Nat.mod_lt _ (by positivity)
  have h4 := g.hi_le
  rw [add_mul]
  omega

/-- The lower end is at least `10^κ` away, when the right endpoint is a multiple of `10^κ`. -/
theorem GoodB.lo_add_le (g : GoodB c X Z B) (hir : c.interval_type.include_right_endpoint = false)
    (hB : B ∣ Z) {κ : Nat} (h0 : c.zi % 10 ^ κ = 0) (hd : 10 ^ κ ≤ c.deltai) : c.lo X B + 10 ^ κ ≤ c.zi := by
  rcases g.lo_or with h | h
  · omega
  · rcases Nat.lt_or_eq_of_le hd with h1 | h1
    · omega
    · exfalso
      have hZ : Z = c.zi / 10 ^ κ * 10 ^ κ * B := by
        rw [Nat.div_mul_cancel (Nat.dvd_of_mod_eq_zero h0), g.zi, Nat.div_mul_cancel hB]
      have hzB : c.zi * B = Z := by rw [g.zi, Nat.div_mul_cancel hB]
      have hlp : 0 < c.lo X B := g.lo_pos
      have hnl : ¬ c.lo X B ≤ c.zi - 10 ^ κ := by omega
      have hle := g.le
      have hdi : (Z - X) / B * B ≤ Z - X := Nat.div_mul_le_self _ _
      rw [← g.di, ← h1] at hdi
      have hsub : (c.zi - 10 ^ κ) * B = Z - 10 ^ κ * B := by rw [Nat.sub_mul, hzB]
      unfold Ctx.lo at hnl
      rw [loOf_le_iff g.posB, hsub] at hnl
      push Not at hnl
      have h3 : Z - X = 10 ^ κ * B := by omega
      by_cases ht : c.tag = .to_nearest
      · exact g.gap ht κ _ hZ h3
      · exact hnl.2 (g.il_or hir ht) (by omega)

/-- After Step 3: the cases. -/
def FinishPre (c : Ctx) (X Z B κ : Nat) (l : Label) (st : State) : Prop :=
  (l = .correct_rounding_search ∧ ¬ c.Rounds ∧ IsTop c X Z B κ st.significand) ∨
  (l = .correct_rounding_search ∧ c.Rounds ∧ 1 ≤ κ ∧ IsTopOrEnd c X Z B κ st) ∨
  (l = .correct_rounding_search_when_kappa_is_0 ∧ c.Rounds ∧ κ = 0 ∧ c.F = .b32)

theorem GoodB.boundary_adjustment (g : GoodB c X Z B) {κ : Nat} {st : State}
    (h : SearchPost c X B κ .boundary_adjustment st) :
    ∃ κ' l st', c.boundary_adjustment st = .ok (l, st') ∧ RoundPre c X Z B κ' st' ∧
      FinishPre c X Z B κ' l st' := by
  have hlab : (c.crs ≠ .do_not_care → c.tag = .to_nearest → 1 ≤ κ) ∧ (c.F = .b64 → 1 ≤ κ) := by
    rcases h.label with h1 | h1 | h1
    · exact h1.2
    · exact absurd h1.1 (by simp)
    · exact absurd h1.1 (by simp)
  -- nothing to do
  have plain : ¬ (c.interval_type.include_right_endpoint = false ∧ B ∣ Z) ∨ st.r ≠ 0 →
      RoundPre c X Z B κ st ∧ FinishPre c X Z B κ .correct_rounding_search st := by
    intro hp
    refine ⟨h.roundPre g.toGood, ?_⟩
    have hhi : st.significand * 10 ^ κ ≤ c.hi Z B := by
      have hs := h.at_.sum
      rcases hp with hp | hp
      · rw [g.hi_eq hp]; omega
      · have := g.zi_le
        omega
    by_cases hR : c.Rounds
    · right; left
      exact ⟨rfl, hR, hlab.1 hR.1 hR.2, h.at_.r, Or.inl ⟨h.lo_le, hhi⟩⟩
    · left
      exact ⟨rfl, hR, h.lo_le, hhi, h.lt_succ g.toGood⟩
  unfold Ctx.boundary_adjustment
  by_cases c1 : c.interval_type.include_right_endpoint = false ∧ st.r = 0
  · rw [if_pos c1, g.fr_int c1.1]
    simp only [Exec.ok_bind, decide_eq_true_eq]
    by_cases c2 : B ∣ Z
    · rw [if_pos c2]
      have h0 : c.zi % 10 ^ κ = 0 := by rw [← h.at_.r]; exact c1.2
      obtain ⟨κ', st', e1, e2, e3, e4, e5⟩ := g.boundary_loop c2 24 κ st (by have := h.le18; omega) h.at_ h0
      rw [e1]
      simp only [Exec.ok_bind]
      have h0' : c.zi % 10 ^ κ' = 0 :=
        Nat.mod_eq_zero_of_dvd (Dvd.dvd.trans (pow_dvd_pow 10 e3) (Nat.dvd_of_mod_eq_zero h0))
      have hr' : st'.r = 0 := by rw [e2.r, h0']
      have hlo := g.lo_add_le c1.1 c2 h0' e4
      have hsum := e2.sum
      have hhi := g.hi_eq' ⟨c1.1, c2⟩
      have hpow : 0 < 10 ^ κ' := by positivity
      have hno : NoMult c X Z B κ' := by
        intro n k hk n1 n2
        by_cases hkk : k ≤ κ
        · have hd := e5 (by omega)
          have hmk : 10 ^ k ∣ c.zi :=
            Dvd.dvd.trans (pow_dvd_pow 10 hkk) (Nat.dvd_of_mod_eq_zero h0)
          obtain ⟨m, hm⟩ := hmk
          have hp1 : 10 ^ (κ' + 1) ≤ 10 ^ k := Nat.pow_le_pow_right (by norm_num) hk
          have hlt : n * 10 ^ k < m * 10 ^ k := by rw [mul_comm m, ← hm]; omega
          have hnm : n < m := Nat.lt_of_mul_lt_mul_right hlt
          have : (n + 1) * 10 ^ k ≤ m * 10 ^ k := Nat.mul_le_mul_right _ hnm
          rw [add_mul, mul_comm m, ← hm] at this
          have := g.lo_or
          omega
        · exact h.noMult g.toGood n k (by omega) n1 n2
      have hsmall : c.deltai ≤ 10 ^ (κ' + 1) := by
        rcases Nat.lt_or_eq_of_le e3 with h' | h'
        · exact (e5 h').le
        · rw [h']
          exact (h.roundPre g.toGood).small
      have hwin : c.zi % 10 ^ (κ' + 1) = 0 ∨ c.deltai ≤ c.zi % 10 ^ (κ' + 1) := by
        rcases Nat.lt_or_eq_of_le e3 with h' | h'
        · left
          exact Nat.mod_eq_zero_of_dvd (Dvd.dvd.trans (pow_dvd_pow 10 h') (Nat.dvd_of_mod_eq_zero h0))
        · right
          rw [h']
          exact h.window g.toGood
      have h18 : κ' ≤ 18 := le_trans e3 h.le18
      by_cases hR : c.Rounds
      · have hR' := hR
        obtain ⟨r1, r2⟩ := hR'
        have hpre : RoundPre c X Z B κ' st' :=
          ⟨e2.exponent, e2.divisor, fun _ _ => hsum, hno, hsmall, by omega, hwin, h18⟩
        have n1 : ¬ (c.crs = .do_not_care ∨ c.tag ≠ .to_nearest) := by tauto
        have n2 : ¬ (c.crs ≠ .do_not_care ∧ c.tag = .left_closed_directed) := by
          rw [r2]; simp
        simp only [if_neg n1, if_neg n2]
        by_cases c3 : (c.crs ≠ .do_not_care ∧ c.tag = .to_nearest ∧ c.F.min_kappa = 0) ∧
            st'.exponent = c.minus_k
        · rw [if_pos c3]
          refine ⟨κ', _, st', rfl, hpre, Or.inr (Or.inr ⟨rfl, hR, ?_, ?_⟩)⟩
          · have := e2.exponent
            have := c3.2
            omega
          · have := c3.1.2.2
            cases hF : c.F
            · rfl
            · rw [hF] at this
              exact absurd this (by decide)
        · rw [if_neg c3]
          refine ⟨κ', _, st', rfl, hpre, Or.inr (Or.inl ⟨rfl, hR, ?_, e2.r, Or.inr ?_⟩)⟩
          · by_contra hk
            have hk0 : κ' = 0 := by omega
            cases hF : c.F
            · apply c3
              refine ⟨⟨r1, r2, by rw [hF]; decide⟩, ?_⟩
              rw [e2.exponent, hk0]
              simp
            · have hd := e5 (by rw [hk0]; exact hlab.2 hF)
              have := g.b64_di hF
              rw [hk0] at hd
              omega
          · exact ⟨hr', c2, c1.1, hlo⟩
      · have n1 : c.crs = .do_not_care ∨ c.tag ≠ .to_nearest := by unfold Ctx.Rounds at hR; tauto
        have hsig : 1 ≤ st'.significand := by
          by_contra hs
          have : st'.significand = 0 := by omega
          rw [this] at hsum
          omega
        have hq := g.lt_q
        have hsub : subw c.F.q st'.significand 1 = st'.significand - 1 := by
          apply subw_of_le hsig
          have : st'.significand ≤ st'.significand * 10 ^ κ' := Nat.le_mul_of_pos_right _ hpow
          omega
        have hmul : (st'.significand - 1) * 10 ^ κ' + 10 ^ κ' = c.zi := by
          rw [← hsum, hr']
          have : st'.significand = st'.significand - 1 + 1 := by omega
          conv_rhs => rw [this, add_mul]
          ring
        have htop : IsTop c X Z B κ' (st'.significand - 1) := by
          refine ⟨by omega, by omega, ?_⟩
          rw [add_mul]
          omega
        simp only [if_pos n1, hsub]
        have n3 : ¬ ((c.crs ≠ .do_not_care ∧ c.tag = .to_nearest ∧ c.F.min_kappa = 0) ∧
            st'.exponent = c.minus_k) := by tauto
        by_cases n2 : c.crs ≠ .do_not_care ∧ c.tag = .left_closed_directed
        · simp only [if_pos n2]
          rw [if_neg (by simpa using n3)]
          refine ⟨κ', _, _, rfl, ⟨e2.exponent, e2.divisor, ?_, hno, hsmall, ?_, hwin, h18⟩,
            Or.inl ⟨rfl, hR, htop⟩⟩
          · intro _ _
            simp only [e2.divisor]
            exact hmul
          · simp only [e2.divisor]
            exact e4
        · simp only [if_neg n2]
          rw [if_neg (by simpa using n3)]
          refine ⟨κ', _, _, rfl, ⟨e2.exponent, e2.divisor, ?_, hno, hsmall, ?_, hwin, h18⟩,
            Or.inl ⟨rfl, hR, htop⟩⟩
          · intro t1 t2
            exfalso
            rcases n1 with n1 | n1
            · exact t1 n1
            · cases ht : c.tag <;> simp_all
          · simp only [hr']
            omega
    · rw [if_neg c2]
      exact ⟨κ, _, st, rfl, plain (Or.inl (by tauto))⟩
  · rw [if_neg c1]
    refine ⟨κ, _, st, rfl, plain ?_⟩
    by_cases hr : st.r = 0
    · left; tauto
    · right; exact hr

end Grisu
