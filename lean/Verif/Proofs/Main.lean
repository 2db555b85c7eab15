import Verif.Proofs.Output

/-! # What `grisu_exact` returns -/

namespace Grisu

open Spec (RoundsTo value mag isNeg FiniteNonzero dec numDigits TieChoice IsNearest IsAway IsTruncating)

variable {F : Fmt} {x : Nat}

/-! ## The interval -/

theorem Mem.convex {L R : ℚ} {il ir : Bool} {a b c : ℚ} (ha : Mem L R il ir a) (hc : Mem L R il ir c)
    (h1 : a ≤ b) (h2 : b ≤ c) : Mem L R il ir b := by
  constructor
  · rcases ha.1 with h | ⟨h, h'⟩
    · left; linarith
    · rcases h1.lt_or_eq with h3 | h3
      · left; linarith
      · right; exact ⟨by linarith, h'⟩
  · rcases hc.2 with h | ⟨h, h'⟩
    · left; linarith
    · rcases h2.lt_or_eq with h3 | h3
      · left; linarith
      · right; exact ⟨by linarith, h'⟩

theorem interval? (prov : Provider) (hi : Input F x) : Interval? (MemOf F prov x) := by
  refine ⟨fun a b c ha hc => Mem.convex ha hc, ?_⟩
  intro a ha
  have hu := ulpq_pos (F := F) (x := x)
  rcases ha.1 with h | ⟨h, h'⟩
  · refine lt_of_le_of_lt ?_ h
    positivity
  · rw [← h]
    have : 0 < flOf F prov.tag x := by
      have hpos := hi.pos
      cases ht : prov.tag with
      | to_nearest => simp only [flOf]; split <;> omega
      | left_closed_directed => simp only [flOf]; omega
      | right_closed_directed =>
        rw [(interval_left prov).2 ht] at h'
        simp [Interval.right_closed_left_open] at h'
    positivity

/-- The value itself is in the interval. -/
theorem value_mem (prov : Provider) (h : FiniteNonzero F x) : MemOf F prov x (value F (mag F x)) := by
  have hi := FiniteNonzero.input h
  have hpos := hi.pos
  have hu := ulpq_pos (F := F) (x := x)
  rw [value_mag (FiniteNonzero.lt h)]
  have hlt : ∀ a b : Nat, a < b → (a : ℚ) * ulpq F x < b * ulpq F x := fun a b hab =>
    mul_lt_mul_of_pos_right (by exact_mod_cast hab) hu
  unfold MemOf Mem
  cases ht : prov.tag with
  | to_nearest =>
    refine ⟨Or.inl (hlt _ _ ?_), Or.inl (hlt _ _ ?_)⟩
    · simp only [flOf]; split <;> omega
    · simp only [frOf]; omega
  | left_closed_directed =>
    rw [(interval_left prov).1 ht]
    refine ⟨Or.inr ⟨rfl, rfl⟩, Or.inl (hlt _ _ ?_)⟩
    simp only [frOf]; omega
  | right_closed_directed =>
    rw [(interval_left prov).2 ht]
    refine ⟨Or.inl (hlt _ _ ?_), Or.inr ⟨rfl, rfl⟩⟩
    simp only [flOf]; split <;> omega

/-! ## From the integers of the algorithm to decimals -/

theorem dec_scaled (s κ : Nat) (k : Int) : dec s (κ + k) = ((s * 10 ^ κ : Nat) : ℚ) * 10 ^ k := by
  rw [add_comm, dec_shift]
  rfl

theorem Result.output {cfg : Cfg} {prov : Provider} {crs : Crs} (hi : Input F x) {κ s : Nat}
    (r : Result (ctxOf cfg F prov crs x) (XOf F prov.tag x) (ZOf F prov.tag x) (BOf F x) κ s) :
    Output (MemOf F prov x) s (κ + mkOf (expOf F x)) := by
  constructor
  · rw [dec_scaled, mem_int cfg prov crs hi]
    exact ⟨r.lo_le, r.le_hi⟩
  · intro n t' ht hm
    obtain ⟨κ', rfl⟩ : ∃ κ' : Nat, t' = κ' + mkOf (expOf F x) := ⟨(t' - mkOf (expOf F x)).toNat, by omega⟩
    rw [dec_scaled, mem_int cfg prov crs hi] at hm
    exact r.noMult n κ' (by omega) hm.1 hm.2

/-! ## `grisu_exact` in terms of the steps -/

theorem is_finite_of (h : FiniteNonzero F x) : BitRep.is_finite F x = true := by
  have hi := (FiniteNonzero.input h).finite
  have key : x &&& F.exponent_bits_mask = (x / 2 ^ F.p % 2 ^ F.exponent_bits) * 2 ^ F.p := by
    unfold Fmt.exponent_bits_mask
    rw [← Nat.and_two_pow_sub_one_eq_mod, ← Nat.shiftRight_eq_div_pow, ← Nat.shiftLeft_eq, ← Nat.shiftLeft_eq]
    apply Nat.eq_of_testBit_eq
    intro i
    simp only [Nat.testBit_and, Nat.testBit_shiftLeft, Nat.testBit_shiftRight]
    by_cases hp : F.p ≤ i
    · simp [hp]
    · simp [hp]
  unfold BitRep.is_finite
  rw [key]
  simp only [ne_eq, decide_not, Bool.not_eq_true', decide_eq_false_iff_not]
  intro hc
  unfold Fmt.exponent_bits_mask at hc
  exact hi (Nat.eq_of_mul_eq_mul_right (by positivity) hc)

/-- Assembling the steps. -/
theorem grisu_exact_of_run (cfg : Cfg) (rs : Bool) (mode : RoundingMode) (crs : Crs) (handler : CaseHandler)
    (h : FiniteNonzero F x) {s : Nat} {t : Int}
    (hrun : (ctxOf cfg F (mode.provider F x) crs x).run = .ok (s, t)) :
    grisu_exact cfg F rs x mode crs handler =
      .ok ⟨s, t, if rs then some (isNeg F x) else none⟩ := by
  have hi := FiniteNonzero.input h
  have hlt := FiniteNonzero.lt h
  unfold grisu_exact
  have hb : get_bit_representation F x = x := wrap_of_lt hlt
  simp only [hb]
  have hh : handler.call cfg F x = .ok () := by
    cases handler
    · show cassert cfg _ = _
      rw [is_finite_of h]
      exact cassert_true rfl
    · rfl
  rw [hh]
  simp only [Exec.ok_bind]
  unfold compute
  rw [setup_spec cfg _ crs hi]
  simp only [Exec.ok_bind]
  unfold Ctx.run at hrun
  cases hs : (ctxOf cfg F (mode.provider F x) crs x).search with
  | fault e => rw [hs] at hrun; simp at hrun
  | ok ls =>
    rw [hs] at hrun
    simp only [Exec.ok_bind] at hrun ⊢
    rw [hrun]
    simp only [Exec.ok_bind, isNeg_eq]

/-- The set of numbers that a parser reads back as `x`. -/
abbrev Reads (F : Fmt) (mode : RoundingMode) (x : Nat) (v : ℚ) : Prop :=
  RoundsTo F mode (isNeg F x) v (mag F x)

theorem reads_eq (h : FiniteNonzero F x) (mode : RoundingMode) :
    Reads F mode x = MemOf F (mode.provider F x) x := by
  funext v
  exact propext (rounds_iff h mode v)

theorem tag_nearest (mode : RoundingMode) :
    (mode.provider F x).tag = .to_nearest ↔ IsNearest mode = true := by
  cases mode <;> simp only [RoundingMode.provider, IsNearest] <;> (try split) <;> simp [Provider.tag]

theorem tag_right (mode : RoundingMode) :
    (mode.provider F x).tag = .right_closed_directed ↔ IsAway (isNeg F x) mode = true := by
  rw [isNeg_eq]
  cases mode <;> simp only [RoundingMode.provider, IsAway] <;> (try split) <;> simp_all [Provider.tag]

theorem tag_left (mode : RoundingMode) :
    (mode.provider F x).tag = .left_closed_directed ↔ IsTruncating (isNeg F x) mode = true := by
  rw [isNeg_eq]
  cases mode <;> simp only [RoundingMode.provider, IsTruncating] <;> (try split) <;> simp_all [Provider.tag]

/-- The closest-output property among outputs with the same exponent. -/
structure ClosestAt (I : ℚ → Prop) (y : ℚ) (crs : Crs) (s : Nat) (t : Int) : Prop where
  closest : ∀ n, I (dec n t) → |dec s t - y| ≤ |dec n t - y|
  tie : ∀ n, n ≠ s → I (dec n t) → |dec s t - y| = |dec n t - y| → TieChoice crs s n

theorem Closest.closestAt {cfg : Cfg} {prov : Provider} {crs : Crs} (h : FiniteNonzero F x) {κ s : Nat}
    (ht : prov.tag = .to_nearest)
    (c : Closest (ctxOf cfg F prov crs x) (XOf F .to_nearest x) (YOf F x) (ZOf F .to_nearest x) (BOf F x) κ s) :
    ClosestAt (MemOf F prov x) (value F (mag F x)) crs s (κ + mkOf (expOf F x)) := by
  have hi := FiniteNonzero.input h
  have hT := ten_zpow_pos (mkOf (expOf F x))
  have key : ∀ n : Nat, |dec n (κ + mkOf (expOf F x)) - value F (mag F x)| =
      |(n * 10 ^ κ : ℚ) - (YOf F x : ℚ) / BOf F x| * 10 ^ mkOf (expOf F x) := by
    intro n
    rw [dec_scaled, value_scaled (FiniteNonzero.lt h), ← sub_mul, abs_mul, abs_of_pos hT]
    push_cast
    rfl
  have hmem : ∀ n, MemOf F prov x (dec n (κ + mkOf (expOf F x))) →
      (ctxOf cfg F prov crs x).lo (XOf F .to_nearest x) (BOf F x) ≤ n * 10 ^ κ ∧
      n * 10 ^ κ ≤ (ctxOf cfg F prov crs x).hi (ZOf F .to_nearest x) (BOf F x) := by
    intro n hn
    rw [dec_scaled, mem_int cfg prov crs hi, ht] at hn
    exact hn
  constructor
  · intro n hn
    obtain ⟨h1, h2⟩ := hmem n hn
    rw [key, key]
    exact mul_le_mul_of_nonneg_right (c.closest n h1 h2).1 hT.le
  · intro n hne hn heq
    obtain ⟨h1, h2⟩ := hmem n hn
    rw [key, key] at heq
    exact (c.closest n h1 h2).2 hne (mul_right_cancel₀ hT.ne' heq)

/-- Nearest rounding with correct rounding search. -/
theorem main_nearest (cfg : Cfg) (rs : Bool) (handler : CaseHandler) {mode : RoundingMode} {crs : Crs}
    (h : FiniteNonzero F x) (hm : IsNearest mode = true) (hcrs : crs ≠ .do_not_care) :
    ∃ s t, grisu_exact cfg F rs x mode crs handler = .ok ⟨s, t, if rs then some (isNeg F x) else none⟩ ∧
      Output (Reads F mode x) s t ∧ ClosestAt (Reads F mode x) (value F (mag F x)) crs s t ∧
      ∃ κ : Nat, κ ≤ 18 ∧ t = κ + mkOf (expOf F x) := by
  have hi := FiniteNonzero.input h
  have ht := (tag_nearest (F := F) (x := x) mode).mpr hm
  have g := goodN cfg (mode.provider F x) crs hi (FiniteNonzero.lt h) ht
  obtain ⟨κ, s, h1, h2, h3⟩ := g.run hcrs
  refine ⟨s, κ + mkOf (expOf F x), grisu_exact_of_run cfg rs mode crs handler h h1, ?_, ?_,
    κ, h2.le18, rfl⟩
  · rw [reads_eq h]
    rw [← ht] at h2
    exact h2.output hi
  · rw [reads_eq h]
    exact h3.closestAt h ht

/-- The largest output with the exponent `t`. -/
def Largest (I : ℚ → Prop) (s : Nat) (t : Int) : Prop := ∀ n, I (dec n t) → n ≤ s

/-- Without correct rounding search, and for right-closed directed rounding: the largest output. -/
theorem main_top (cfg : Cfg) (rs : Bool) (handler : CaseHandler) {mode : RoundingMode} {crs : Crs}
    (h : FiniteNonzero F x) (hc : crs = .do_not_care ∨ IsAway (isNeg F x) mode = true)
    (hl : IsTruncating (isNeg F x) mode = true → ¬ AllOnes F x) :
    ∃ s t, grisu_exact cfg F rs x mode crs handler = .ok ⟨s, t, if rs then some (isNeg F x) else none⟩ ∧
      Output (Reads F mode x) s t ∧ Largest (Reads F mode x) s t := by
  have hi := FiniteNonzero.input h
  have g := goodB cfg (mode.provider F x) crs hi (FiniteNonzero.lt h)
    (fun ht => hl ((tag_left mode).mp ht))
  obtain ⟨κ, s, h1, h2, h3⟩ := g.run_top (hc.imp_right (fun h => (tag_right (F := F) (x := x) mode).mpr h))
  refine ⟨s, κ + mkOf (expOf F x), grisu_exact_of_run cfg rs mode crs handler h h1, ?_, ?_⟩
  · rw [reads_eq h]
    exact h2.output hi
  · rw [reads_eq h]
    intro n hn
    rw [dec_scaled, mem_int cfg (mode.provider F x) crs hi] at hn
    have h4 : n * 10 ^ κ < (s + 1) * 10 ^ κ := lt_of_le_of_lt hn.2 h3
    have := Nat.lt_of_mul_lt_mul_right h4
    omega

/-- Left-closed directed rounding. -/
theorem main_left (cfg : Cfg) (rs : Bool) (handler : CaseHandler) {mode : RoundingMode} (crs : Crs)
    (h : FiniteNonzero F x) (hm : IsTruncating (isNeg F x) mode = true) (hl : ¬ AllOnes F x) :
    ∃ (s κ : Nat), κ ≤ 18 ∧ grisu_exact cfg F rs x mode crs handler =
        .ok ⟨s, κ + mkOf (expOf F x), if rs then some (isNeg F x) else none⟩ ∧
      Output (Reads F mode x) s (κ + mkOf (expOf F x)) ∧
      (crs ≠ .do_not_care → ¬ 10 ^ κ ∣ loOf true (XOf F .left_closed_directed x) (BOf F x) →
        ¬ 10 ^ κ ∣ loOf true (XOf F .left_closed_directed x) (BOf F x) - 1 →
        (s - 1) * 10 ^ κ < loOf true (XOf F .left_closed_directed x) (BOf F x)) := by
  have hi := FiniteNonzero.input h
  have ht := (tag_left (F := F) (x := x) mode).mpr hm
  have g := goodB cfg (mode.provider F x) crs hi (FiniteNonzero.lt h) (fun _ => hl)
  have hfl : flOf F .left_closed_directed x * unit F = 4 * unit F * sigOf F x := by simp only [flOf]; ring
  have hmul : ∃ v, compute_mul cfg F (4 * unit F * sigOf F x) (cacheOf F (expOf F x)) (mbOf (expOf F x)) = .ok v := by
    rw [← hfl]
    exact ⟨_, hi.expOK.compute_mul cfg (flOf_lt _ hi)⟩
  have heq : ∃ b, equal_fractional_parts cfg F (mode.provider F x).tag (4 * unit F * sigOf F x) (expOf F x)
      (mkOf (expOf F x)) = .ok b := by
    rw [ht, ← hfl]
    exact ⟨_, equal_fractional_parts_spec cfg .left_closed_directed hi (by simp)⟩
  obtain ⟨κ, s, h1, h2, h3⟩ := g.run_left ht hmul heq
  refine ⟨s, κ, h2.le18, grisu_exact_of_run cfg rs mode crs handler h h1, ?_, ?_⟩
  · rw [reads_eq h]
    exact h2.output hi
  · have hlo : (ctxOf cfg F (mode.provider F x) crs x).lo (XOf F (mode.provider F x).tag x) (BOf F x) =
        loOf true (XOf F .left_closed_directed x) (BOf F x) := by
      have hp : mode.provider F x = .left_closed_directed := by
        cases hp : mode.provider F x <;> rw [hp] at ht <;> simp_all [Provider.tag]
      rw [hp]
      rfl
    rw [hlo] at h3
    intro hc d1 d2
    refine h3 hc fun hd => ?_
    have hor := g.lo_or
    rw [hlo] at hor
    rcases hor with hor | hor
    · exact d1 (by rwa [show loOf true (XOf F .left_closed_directed x) (BOf F x) = _ - _ from by
        exact Nat.eq_sub_of_add_eq hor])
    · exact d2 (by
        rwa [show loOf true (XOf F .left_closed_directed x) (BOf F x) - 1 =
          (ctxOf cfg F (mode.provider F x) crs x).zi - (ctxOf cfg F (mode.provider F x) crs x).deltai by omega])

end Grisu
