import Verif.Proofs.Bounds

/-! # The specification determines the result -/

namespace Grisu

open Spec (RoundsTo value mag isNeg FiniteNonzero dec numDigits TieChoice IsNearest IsAway IsTruncating)

variable {F : Fmt} {x : Nat} {I : ℚ → Prop} {s s' : Nat} {t t' : Int}

theorem Output.exponent_unique (o : Output I s t) (o' : Output I s' t') : t = t' := by
  rcases lt_trichotomy t t' with h | h | h
  · exact absurd o'.mem (o.noMult _ _ h)
  · exact h
  · exact absurd o.mem (o'.noMult _ _ h)

theorem Largest.unique (o : Output I s t) (o' : Output I s' t') (l : Largest I s t) (l' : Largest I s' t') :
    s = s' ∧ t = t' := by
  obtain rfl := o.exponent_unique o'
  exact ⟨le_antisymm (l' _ o.mem) (l _ o'.mem), rfl⟩

theorem ClosestAt.unique (hI : Interval? I) {y : ℚ} {crs : Crs} (hcrs : crs ≠ .do_not_care)
    (o : Output I s t) (o' : Output I s' t')
    (c : ClosestAt I y crs s t) (c' : ClosestAt I y crs s' t') : s = s' ∧ t = t' := by
  obtain rfl := o.exponent_unique o'
  refine ⟨?_, rfl⟩
  by_contra hne
  have heq : |dec s t - y| = |dec s' t - y| := le_antisymm (c.closest _ o'.mem) (c'.closest _ o.mem)
  have t1 := c.tie s' (Ne.symm hne) o'.mem heq
  have t2 := c'.tie s hne o.mem heq.symm
  -- the two are neighbours
  have key : ∀ a b : Nat, a < b → ClosestAt I y crs a t → I (dec a t) → I (dec b t) →
      |dec a t - y| = |dec b t - y| → b = a + 1 := by
    intro a b hab ca ma mb he
    by_contra hc
    have l1 : dec a t < dec (a + 1) t := dec_lt_dec.mpr (by omega)
    have l2 : dec (a + 1) t < dec b t := dec_lt_dec.mpr (by omega)
    have hm : I (dec (a + 1) t) := hI.convex _ _ _ ma mb l1.le l2.le
    have hcl := ca.closest _ hm
    have hy : y = (dec a t + dec b t) / 2 := by
      rcases le_total y (dec a t) with g1 | g1
      · rw [abs_of_nonneg (by linarith), abs_of_nonneg (by linarith)] at he; linarith
      · rcases le_total y (dec b t) with g2 | g2
        · rw [abs_of_nonpos (by linarith), abs_of_nonneg (by linarith)] at he; linarith
        · rw [abs_of_nonpos (by linarith), abs_of_nonpos (by linarith)] at he; linarith
    have h3 : |dec (a + 1) t - y| < |dec a t - y| := by
      rw [abs_of_nonpos (a := dec a t - y) (by linarith), abs_lt]
      constructor <;> linarith
    linarith
  rcases Nat.lt_or_gt_of_ne hne with hlt | hlt
  · have := key s s' hlt c o.mem o'.mem heq
    cases crs <;> simp only [TieChoice] at t1 t2 <;> first | omega | exact hcrs rfl
  · have := key s' s hlt c' o'.mem o.mem heq.symm
    cases crs <;> simp only [TieChoice] at t1 t2 <;> first | omega | exact hcrs rfl

/-- Every number that reads back as a smaller input is smaller. -/
theorem reads_lt {mode : RoundingMode} {y : Nat} {a b : ℚ} (hx : FiniteNonzero F x) (hy : FiniteNonzero F y)
    (hs : isNeg F x = isNeg F y) (hlt : mag F x < mag F y) (ha : Reads F mode x a) (hb : Reads F mode y b) :
    a < b := by
  by_contra hc
  have hba : b ≤ a := not_lt.mp hc
  have hIx : Interval? (Reads F mode x) := by rw [reads_eq hx]; exact interval? _ (FiniteNonzero.input hx)
  have hIy : Interval? (Reads F mode y) := by rw [reads_eq hy]; exact interval? _ (FiniteNonzero.input hy)
  have vx : Reads F mode x (value F (mag F x)) := by rw [reads_eq hx]; exact value_mem _ hx
  have vy : Reads F mode y (value F (mag F y)) := by rw [reads_eq hy]; exact value_mem _ hy
  have hv : value F (mag F x) < value F (mag F y) := Spec.value_strictMono hlt
  have contra : ∀ c, Reads F mode x c → Reads F mode y c → False := by
    intro c h1 h2
    unfold Reads at h1 h2
    rw [hs] at h1
    have := Spec.RoundsTo.unique h1 h2
    omega
  rcases le_total (value F (mag F x)) b with h | h
  · exact contra b (hIx.convex _ _ _ vx ha h hba) hb
  · exact contra _ vx (hIy.convex _ _ _ hb vy h hv.le)

theorem eq_of_mag (hx : FiniteNonzero F x) {y : Nat} (hy : FiniteNonzero F y) (hs : isNeg F x = isNeg F y)
    (hm : mag F x = mag F y) : x = y := by
  have h1 := hx.inRange
  have h2 := hy.inRange
  unfold isNeg at hs
  rw [decide_eq_decide] at hs
  unfold mag at hm
  have e : 2 ^ Spec.width F = 2 * 2 ^ (Spec.width F - 1) := by cases F <;> decide
  rw [e] at h1 h2
  generalize 2 ^ (Spec.width F - 1) = N at *
  by_cases h : N ≤ x
  · have hy' := hs.mp h
    rw [Nat.mod_eq_sub_mod h, Nat.mod_eq_of_lt (by omega), Nat.mod_eq_sub_mod hy', Nat.mod_eq_of_lt (by omega)] at hm
    omega
  · have hy' : ¬ N ≤ y := fun h' => h (hs.mpr h')
    rw [Nat.mod_eq_of_lt (by omega), Nat.mod_eq_of_lt (by omega)] at hm
    exact hm

/-- What is known of every call in a nearest or right-closed directed mode. -/
theorem main (cfg : Cfg) (rs : Bool) (handler : CaseHandler) {mode : RoundingMode} (crs : Crs)
    (h : FiniteNonzero F x) (hm : IsTruncating (isNeg F x) mode = false) :
    ∃ s t, grisu_exact cfg F rs x mode crs handler = .ok ⟨s, t, if rs then some (isNeg F x) else none⟩ ∧
      Output (Reads F mode x) s t := by
  by_cases hc : crs = .do_not_care ∨ IsAway (isNeg F x) mode = true
  · obtain ⟨s, t, h1, h2, -⟩ := main_top cfg rs handler h hc (by simp [hm])
    exact ⟨s, t, h1, h2⟩
  · have hn : IsNearest mode = true := by
      have hc2 : ¬ IsAway (isNeg F x) mode = true := fun h => hc (Or.inr h)
      cases mode <;> simp_all [IsNearest, IsAway, IsTruncating]
    obtain ⟨s, t, h1, h2, -⟩ := main_nearest cfg rs handler h hn (fun h => hc (Or.inl h))
    exact ⟨s, t, h1, h2⟩

/-- The result does not depend on the build configuration, on the case handler, or on whether the
sign is returned. -/
theorem main_unique (cfg cfg' : Cfg) (rs rs' : Bool) (handler handler' : CaseHandler) {mode : RoundingMode}
    (crs : Crs) (h : FiniteNonzero F x) (hm : IsTruncating (isNeg F x) mode = false) :
    ∃ s t, grisu_exact cfg F rs x mode crs handler = .ok ⟨s, t, if rs then some (isNeg F x) else none⟩ ∧
      grisu_exact cfg' F rs' x mode crs handler' = .ok ⟨s, t, if rs' then some (isNeg F x) else none⟩ := by
  by_cases hc : crs = .do_not_care ∨ IsAway (isNeg F x) mode = true
  · obtain ⟨s, t, h1, h2, h3⟩ := main_top cfg rs handler h hc (by simp [hm])
    obtain ⟨s', t', h1', h2', h3'⟩ := main_top cfg' rs' handler' h hc (by simp [hm])
    obtain ⟨rfl, rfl⟩ := Largest.unique h2 h2' h3 h3'
    exact ⟨s, t, h1, h1'⟩
  · have hn : IsNearest mode = true := by
      have hc2 : ¬ IsAway (isNeg F x) mode = true := fun h => hc (Or.inr h)
      cases mode <;> simp_all [IsNearest, IsAway, IsTruncating]
    have hcrs : crs ≠ .do_not_care := fun h => hc (Or.inl h)
    obtain ⟨s, t, h1, h2, h3, -⟩ := main_nearest cfg rs handler h hn hcrs
    obtain ⟨s', t', h1', h2', h3', -⟩ := main_nearest cfg' rs' handler' h hn hcrs
    have hI : Interval? (Reads F mode x) := by rw [reads_eq h]; exact interval? _ (FiniteNonzero.input h)
    obtain ⟨rfl, rfl⟩ := ClosestAt.unique hI hcrs h2 h2' h3 h3'
    exact ⟨s, t, h1, h1'⟩

end Grisu
