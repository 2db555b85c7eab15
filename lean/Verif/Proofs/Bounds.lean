import Verif.Proofs.Main

/-! # Length of the output, range of its exponent, and outputs of one digit -/

namespace Grisu

open Spec (RoundsTo value mag isNeg FiniteNonzero dec numDigits TieChoice IsNearest IsAway IsTruncating)

variable {F : Fmt} {x : Nat} {I : ℚ → Prop} {s : Nat} {t : Int}

/-- 9 digits for binary32, 17 for binary64. -/
def maxDigits : Fmt → Nat
  | .b32 => 9
  | .b64 => 17

theorem width_digits (tag : Tag) (hi : Input F x) :
    10 * frOf F tag x < (frOf F tag x - flOf F tag x) * 10 ^ maxDigits F := by
  have hpos := hi.pos
  have hlt := sigOf_lt F x
  have hE : isEdge F x = true → sigOf F x = 2 ^ F.p := fun h => (isEdge_iff.mp h).1
  cases F <;> simp only [Fmt.p, maxDigits] at * <;> cases tag <;> simp only [frOf, flOf] <;>
    (try split) <;> (try (rename_i h; have := hE h)) <;> omega

theorem digits_bound (prov : Provider) (hi : Input F x) (o : Output (MemOf F prov x) s t) :
    numDigits s ≤ maxDigits F := by
  have hu := ulpq_pos (F := F) (x := x)
  refine o.digits_le (L := flOf F prov.tag x * ulpq F x) (R := frOf F prov.tag x * ulpq F x) (by positivity)
    (fun v h1 h2 => ⟨Or.inl h1, Or.inl h2⟩) ?_ ?_
  · intro v hv
    rcases hv.2 with h | h
    · exact h.le
    · exact h.1.le
  · have h1 := width_digits prov.tag hi
    have h2 := (fr_sub_fl prov.tag hi).1
    have h3 : (10 * frOf F prov.tag x : ℚ) < (frOf F prov.tag x - flOf F prov.tag x) * 10 ^ maxDigits F := by
      have : ((10 * frOf F prov.tag x : Nat) : ℚ) <
          (((frOf F prov.tag x - flOf F prov.tag x) * 10 ^ maxDigits F : Nat) : ℚ) := by exact_mod_cast h1
      push_cast [Nat.cast_sub h2] at this
      exact this
    calc 10 * (frOf F prov.tag x * ulpq F x) = 10 * frOf F prov.tag x * ulpq F x := by ring
      _ < (frOf F prov.tag x - flOf F prov.tag x) * 10 ^ maxDigits F * ulpq F x :=
        mul_lt_mul_of_pos_right h3 hu
      _ = _ := by ring

/-- Smallest and largest scientific exponent. -/
def minSci : Fmt → Int
  | .b32 => -45
  | .b64 => -324

def maxSci : Fmt → Int
  | .b32 => 38
  | .b64 => 308

theorem value_bounds (h : FiniteNonzero F x) :
    (10 : ℚ) ^ minSci F ≤ value F (mag F x) ∧ value F (mag F x + 1) < 10 ^ (maxSci F + 1) := by
  constructor
  · have h1 : value F 1 ≤ value F (mag F x) := Spec.value_strictMono.monotone h.nonzero
    refine le_trans ?_ h1
    rw [Spec.value_eq]
    cases F
    · rw [show Spec.sg .b32 1 = 1 by decide, show Spec.ex .b32 1 = -149 by decide]
      simp only [minSci]
      rw [zpow_neg, zpow_neg, Nat.cast_one, one_mul]
      apply inv_anti₀ (zpow_pos (by norm_num) _)
      rw [show (149 : Int) = ((149 : Nat) : Int) by norm_num,
        show (45 : Int) = ((45 : Nat) : Int) by norm_num, zpow_natCast, zpow_natCast]
      have : 2 ^ 149 ≤ 10 ^ 45 := by decide +kernel
      exact_mod_cast this
    · rw [show Spec.sg .b64 1 = 1 by decide, show Spec.ex .b64 1 = -1074 by decide]
      simp only [minSci]
      rw [zpow_neg, zpow_neg, Nat.cast_one, one_mul]
      apply inv_anti₀ (zpow_pos (by norm_num) _)
      rw [show (1074 : Int) = ((1074 : Nat) : Int) by norm_num,
        show (324 : Int) = ((324 : Nat) : Int) by norm_num, zpow_natCast, zpow_natCast]
      have : 2 ^ 1074 ≤ 10 ^ 324 := by decide +kernel
      exact_mod_cast this
  · have h4 : value F (mag F x + 1) ≤ value F (Spec.infPattern F) :=
      Spec.value_strictMono.monotone h.finite
    refine lt_of_le_of_lt h4 ?_
    rw [Spec.value_eq]
    cases F
    · rw [show Spec.sg .b32 (Spec.infPattern .b32) = 2 ^ 23 by decide,
        show Spec.ex .b32 (Spec.infPattern .b32) = 105 by decide]
      simp only [maxSci]
      norm_num
    · rw [show Spec.sg .b64 (Spec.infPattern .b64) = 2 ^ 52 by decide,
        show Spec.ex .b64 (Spec.infPattern .b64) = 972 by decide]
      simp only [maxSci]
      rw [show (308 + 1 : Int) = ((309 : Nat) : Int) by norm_num,
        show (972 : Int) = ((972 : Nat) : Int) by norm_num, zpow_natCast, zpow_natCast]
      have : 2 ^ 52 * 2 ^ 972 < 10 ^ 309 := by decide +kernel
      exact_mod_cast this

theorem sciExp_bounds (prov : Provider) (h : FiniteNonzero F x) (o : Output (MemOf F prov x) s t) :
    minSci F ≤ t + numDigits s - 1 ∧ t + numDigits s - 1 ≤ maxSci F := by
  have hi := FiniteNonzero.input h
  have hI := interval? prov hi
  obtain ⟨b1, b2⟩ := value_bounds h
  constructor
  · exact o.sciExp_ge hI (value_mem prov h) b1
  · have : t + numDigits s - 1 < maxSci F + 1 := by
      refine o.sciExp_lt hI ?_
      intro v hv
      have h1 : v ≤ frOf F prov.tag x * ulpq F x := by
        rcases hv.2 with h | h
        · exact h.le
        · exact h.1.le
      have h2 : frOf F prov.tag x ≤ 4 * sigOf F x + 4 := by
        cases prov.tag <;> simp only [frOf] <;> omega
      have hu := ulpq_pos (F := F) (x := x)
      have h3 : (frOf F prov.tag x : ℚ) * ulpq F x ≤ (4 * sigOf F x + 4 : Nat) * ulpq F x :=
        mul_le_mul_of_nonneg_right (by exact_mod_cast h2) hu.le
      rw [← value_mag_succ (FiniteNonzero.lt h)] at h3
      exact lt_of_le_of_lt (h1.trans h3) b2
    omega

/-! ## Outputs of one digit -/

/-- For the inputs whose interval contains `10^t` and a number below `0.9 * 10^t`: the value is close
to `10^t` or above. -/
theorem small_table (F : Fmt) : ∀ g ∈ List.range 11, ∀ κ ∈ List.range 19,
    0 < g →
    (4 * g - 2) * unit F * phiNum F.min_exponent ≤ 10 ^ κ * phiDen F.min_exponent →
    10 ^ κ * phiDen F.min_exponent ≤ (4 * g + 2) * unit F * phiNum F.min_exponent →
    10 * ((4 * g - 2) * unit F * phiNum F.min_exponent) ≤ 9 * (10 ^ κ * phiDen F.min_exponent) →
    95 * (10 ^ κ * phiDen F.min_exponent) < 100 * (4 * g * unit F * phiNum F.min_exponent) := by
  cases F <;> decide +kernel

theorem expOf_of_small (h : sigOf F x < 2 ^ F.p) : expOf F x = F.min_exponent := by
  unfold sigOf at h
  unfold expOf
  split at h
  · rename_i h1
    rw [if_pos h1]
  · omega

theorem small_case (prov : Provider) (ht : prov.tag = .to_nearest) (h : FiniteNonzero F x) {κ : Nat}
    (hκ : κ ≤ 18) (h10 : MemOf F prov x (10 ^ ((κ : Int) + mkOf (expOf F x)))) {v : ℚ}
    (hv : MemOf F prov x v) (hv9 : v ≤ 9 / 10 * 10 ^ ((κ : Int) + mkOf (expOf F x))) :
    95 / 100 * 10 ^ ((κ : Int) + mkOf (expOf F x)) < value F (mag F x) := by
  have hi := FiniteNonzero.input h
  have hpos := hi.pos
  have hu := ulpq_pos (F := F) (x := x)
  have hL : (flOf F .to_nearest x : ℚ) * ulpq F x ≤ v := by
    have := hv.1
    rw [ht] at this
    rcases this with h | h
    · exact h.le
    · exact h.1.le
  have hL' : (flOf F .to_nearest x : ℚ) * ulpq F x ≤ 10 ^ ((κ : Int) + mkOf (expOf F x)) := by
    have := ten_zpow_pos ((κ : Int) + mkOf (expOf F x))
    linarith
  have hR : (10 : ℚ) ^ ((κ : Int) + mkOf (expOf F x)) ≤ frOf F .to_nearest x * ulpq F x := by
    have := h10.2
    rw [ht] at this
    rcases this with h | h
    · exact h.le
    · exact h.1.le
  have h1 : (10 * flOf F .to_nearest x : ℚ) ≤ 9 * frOf F .to_nearest x := by
    have : 10 * (flOf F .to_nearest x * ulpq F x) ≤ 9 * (frOf F .to_nearest x * ulpq F x) := by linarith
    have h2 : (10 * flOf F .to_nearest x) * ulpq F x ≤ (9 * frOf F .to_nearest x) * ulpq F x := by linarith
    exact le_of_mul_le_mul_right h2 hu
  have h2 : 10 * flOf F .to_nearest x ≤ 9 * frOf F .to_nearest x := by exact_mod_cast h1
  have h3 : sigOf F x < 2 ^ F.p := by
    have hp : 64 ≤ 2 ^ F.p := by cases F <;> decide
    simp only [flOf, frOf] at h2
    split at h2 <;> omega
  have hexp := expOf_of_small h3
  have hE : isEdge F x = false := by
    cases hc : isEdge F x
    · rfl
    · exact absurd hexp (isEdge_iff.mp hc).2
  have hfl : flOf F .to_nearest x = 4 * sigOf F x - 2 := by simp [flOf, hE]
  have hfr : frOf F .to_nearest x = 4 * sigOf F x + 2 := rfl
  have hg : sigOf F x < 11 := by rw [hfl, hfr] at h2; omega
  have hB : (0 : ℚ) < phiDen (expOf F x) := by exact_mod_cast phiDen_pos _
  have hT := ten_zpow_pos (mkOf (expOf F x))
  have e10 : (10 : ℚ) ^ ((κ : Int) + mkOf (expOf F x)) = ((10 ^ κ : Nat) : ℚ) * 10 ^ mkOf (expOf F x) := by
    rw [zpow_add₀ (by norm_num), zpow_natCast]
    push_cast
    rfl
  have efl := endpoint_eq (F := F) (x := x) (flOf F .to_nearest x)
  have efr := endpoint_eq (F := F) (x := x) (frOf F .to_nearest x)
  have efc := endpoint_eq (F := F) (x := x) (4 * sigOf F x)
  -- clear denominators
  have conv : ∀ (a b : Nat) (u w : ℚ), u * phiDen (expOf F x) = (a : ℚ) * 10 ^ mkOf (expOf F x) →
      w * phiDen (expOf F x) = (b : ℚ) * 10 ^ mkOf (expOf F x) → u ≤ w → a ≤ b := by
    intro a b u w hu hw huw
    have h5 : u * phiDen (expOf F x) ≤ w * phiDen (expOf F x) := mul_le_mul_of_nonneg_right huw hB.le
    rw [hu, hw] at h5
    exact_mod_cast le_of_mul_le_mul_right h5 hT
  have e10' : (10 : ℚ) ^ ((κ : Int) + mkOf (expOf F x)) * phiDen (expOf F x) =
      ((10 ^ κ * phiDen (expOf F x) : Nat) : ℚ) * 10 ^ mkOf (expOf F x) := by
    rw [e10]; push_cast; ring
  have t1 := conv _ _ _ _ efl e10' hL'
  have t2 := conv _ _ _ _ e10' efr hR
  have t3 := conv (10 * (flOf F .to_nearest x * unit F * phiNum (expOf F x)))
    (9 * (10 ^ κ * phiDen (expOf F x))) (10 * ((flOf F .to_nearest x : ℚ) * ulpq F x))
    (9 * 10 ^ ((κ : Int) + mkOf (expOf F x)))
    (by rw [mul_assoc, efl]; push_cast; ring) (by rw [mul_assoc, e10']; push_cast; ring) (by linarith)
  have tab := small_table F (sigOf F x) (List.mem_range.mpr hg) κ (List.mem_range.mpr (by omega)) hpos
  rw [← hexp, ← hfl, ← hfr] at tab
  have t4 := tab t1 t2 t3
  by_contra hc
  have hc' := not_lt.mp hc
  rw [value_mag (FiniteNonzero.lt h)] at hc'
  have t5 := conv (100 * (4 * sigOf F x * unit F * phiNum (expOf F x)))
    (95 * (10 ^ κ * phiDen (expOf F x))) (100 * (((4 * sigOf F x : Nat) : ℚ) * ulpq F x))
    (95 * 10 ^ ((κ : Int) + mkOf (expOf F x)))
    (by rw [mul_assoc, efc]; push_cast; ring) (by rw [mul_assoc, e10']; push_cast; ring) (by linarith)
  omega

/-- Closest among all outputs of the same length, and the tie policy, for the nearest modes. -/
theorem closest_all (prov : Provider) (ht : prov.tag = .to_nearest) (h : FiniteNonzero F x) {crs : Crs} {κ : Nat}
    (hκ : κ ≤ 18) (o : Output (MemOf F prov x) s (κ + mkOf (expOf F x)))
    (c : ClosestAt (MemOf F prov x) (value F (mag F x)) crs s (κ + mkOf (expOf F x)))
    {s' : Nat} {t' : Int} (h' : MemOf F prov x (dec s' t')) (hd : numDigits s' ≤ numDigits s) :
    |dec s (κ + mkOf (expOf F x)) - value F (mag F x)| ≤ |dec s' t' - value F (mag F x)| ∧
    ((s', t') ≠ (s, (κ : Int) + mkOf (expOf F x)) →
      |dec s (κ + mkOf (expOf F x)) - value F (mag F x)| = |dec s' t' - value F (mag F x)| →
      t' = κ + mkOf (expOf F x) ∧ TieChoice crs s s') := by
  have hi := FiniteNonzero.input h
  rcases o.same_length (interval? prov hi) h' hd with rfl | ⟨h1, h2, h3, h4, h5⟩
  · refine ⟨c.closest _ h', fun hne heq => ⟨rfl, c.tie _ ?_ h' heq⟩⟩
    intro hs
    exact hne (by rw [hs])
  · have h6 := small_case prov ht h hκ h3 h' h4
    have hp := ten_zpow_pos ((κ : Int) + mkOf (expOf F x))
    have h7 := c.closest 1 (by rw [dec_one]; exact h3)
    rw [dec_one] at h7
    have h8 : |(10 : ℚ) ^ ((κ : Int) + mkOf (expOf F x)) - value F (mag F x)| < |dec s' t' - value F (mag F x)| := by
      rw [abs_sub_comm (dec s' t'), abs_of_nonneg (a := value F (mag F x) - dec s' t') (by linarith), abs_lt]
      constructor <;> linarith
    refine ⟨by linarith, fun _ heq => absurd heq (by linarith)⟩

/-- Nearest rounding with correct rounding search: the output is the closest of all shortest ones. -/
theorem main_nearest_closest (cfg : Cfg) (rs : Bool) (handler : CaseHandler) {mode : RoundingMode} {crs : Crs}
    (h : FiniteNonzero F x) (hm : IsNearest mode = true) (hcrs : crs ≠ .do_not_care) :
    ∃ s t, grisu_exact cfg F rs x mode crs handler = .ok ⟨s, t, if rs then some (isNeg F x) else none⟩ ∧
      Output (Reads F mode x) s t ∧
      ∀ s' t', Reads F mode x (dec s' t') → numDigits s' ≤ numDigits s →
        |dec s t - value F (mag F x)| ≤ |dec s' t' - value F (mag F x)| ∧
        ((s', t') ≠ (s, t) → |dec s t - value F (mag F x)| = |dec s' t' - value F (mag F x)| →
          t' = t ∧ TieChoice crs s s') := by
  obtain ⟨s, t, h1, h2, h3, κ, h4, rfl⟩ := main_nearest cfg rs handler h hm hcrs
  refine ⟨s, _, h1, h2, ?_⟩
  rw [reads_eq h] at h2 h3 ⊢
  intro s' t' h5 h6
  exact closest_all _ ((tag_nearest mode).mpr hm) h h4 h2 h3 h5 h6

/-- Right-closed directed rounding: the output is the closest of all shortest ones. -/
theorem closest_away {mode : RoundingMode} (h : FiniteNonzero F x) (hm : IsAway (isNeg F x) mode = true)
    (o : Output (Reads F mode x) s t) (l : Largest (Reads F mode x) s t) {s' : Nat} {t' : Int}
    (h' : Reads F mode x (dec s' t')) (hd : numDigits s' ≤ numDigits s) :
    |dec s t - value F (mag F x)| ≤ |dec s' t' - value F (mag F x)| ∧
      (|dec s t - value F (mag F x)| = |dec s' t' - value F (mag F x)| → (s', t') = (s, t)) := by
  have hi := FiniteNonzero.input h
  have ht := (tag_right (F := F) (x := x) mode).mpr hm
  have hle : ∀ v, Reads F mode x v → v ≤ value F (mag F x) := by
    intro v hv
    rw [reads_eq h] at hv
    rw [value_mag (FiniteNonzero.lt h)]
    have := hv.2
    rw [ht] at this
    rcases this with h | h
    · exact h.le
    · exact h.1.le
  have h1 := hle _ o.mem
  have h2 := hle _ h'
  have h3 : dec s' t' ≤ dec s t ∧ (dec s' t' = dec s t → (s', t') = (s, t)) := by
    have hI : Interval? (Reads F mode x) := by rw [reads_eq h]; exact interval? _ hi
    rcases o.same_length hI h' hd with rfl | ⟨-, -, -, h4, h5⟩
    · refine ⟨dec_le_dec.mpr (l _ h'), fun he => ?_⟩
      have : s' = s := le_antisymm (l _ h') (dec_le_dec.mp he.ge)
      rw [this]
    · have := ten_zpow_pos t
      exact ⟨by linarith, fun he => by linarith⟩
  rw [abs_sub_comm, abs_of_nonneg (by linarith), abs_sub_comm, abs_of_nonneg (by linarith)]
  exact ⟨by linarith, fun he => h3.2 (by linarith)⟩

end Grisu
