import Verif.Proofs.RyuCore
import Verif.Proofs.RyuArith

/-! # The digit removal loops of Ryu -/

namespace Grisu.Ryu

/-- `vrIsTrailingZeros` after `r` steps, as computed. -/
def zerosB (R last0 : Nat) (z0 : Bool) : Nat → Bool
  | 0 => z0
  | r + 1 => zerosB R last0 z0 r && decide (digit R last0 r = 0)

theorem zerosB_iff (R last0 : Nat) (z0 : Bool) : ∀ r, zerosB R last0 z0 r = true ↔ zeros R last0 z0 r
  | 0 => by simp [zerosB, zeros]
  | r + 1 => by
    rw [zerosB, Bool.and_eq_true, zerosB_iff R last0 z0 r, decide_eq_true_iff]
    unfold zeros
    constructor
    · rintro ⟨⟨h1, h2⟩, h3⟩
      refine ⟨h1, fun k hk => ?_⟩
      rcases Nat.lt_succ_iff_lt_or_eq.mp hk with h | h
      · exact h2 k h
      · rw [h]; exact h3
    · rintro ⟨h1, h2⟩
      exact ⟨⟨h1, fun k hk => h2 k (by omega)⟩, h2 r (by omega)⟩

/-- The variables after `r` steps. -/
def stateAt (R M P last0 : Nat) (f0 z0 : Bool) (r : Nat) : St :=
  ⟨R / 10 ^ r, P / 10 ^ r, M / 10 ^ r, f0 && decide (10 ^ r ∣ M), zerosB R last0 z0 r, digit R last0 r, r⟩

variable {R M P last0 : Nat} {f0 z0 acc : Bool}

theorem div_pow_succ (n r : Nat) : n / 10 ^ r / 10 = n / 10 ^ (r + 1) := by
  rw [Nat.div_div_eq_div_mul, ← pow_succ]

theorem pow_succ_dvd_iff (n r : Nat) : 10 ^ (r + 1) ∣ n ↔ 10 ^ r ∣ n ∧ n / 10 ^ r % 10 = 0 := by
  constructor
  · rintro ⟨k, rfl⟩
    have h0 : 0 < 10 ^ r := by positivity
    refine ⟨⟨10 * k, by rw [pow_succ]; ring⟩, ?_⟩
    rw [pow_succ, mul_assoc, Nat.mul_div_cancel_left _ h0, Nat.mul_mod_right]
  · rintro ⟨⟨k, rfl⟩, h⟩
    rw [Nat.mul_div_cancel_left _ (by positivity)] at h
    obtain ⟨j, rfl⟩ := Nat.dvd_of_mod_eq_zero h
    exact ⟨j, by rw [pow_succ]; ring⟩

theorem step_flag (f0 : Bool) (M r : Nat) :
    (f0 && decide (10 ^ r ∣ M) && decide (M / 10 ^ r % 10 = 0)) = (f0 && decide (10 ^ (r + 1) ∣ M)) := by
  rw [Bool.eq_iff_iff]
  simp only [Bool.and_eq_true, decide_eq_true_iff, pow_succ_dvd_iff, and_assoc]

theorem wrap_mod10 (n : Nat) : wrap 8 (n % 10) = n % 10 := wrap_of_lt (by omega)

theorem div_pow_lt {n r w : Nat} (h : n < 2 ^ w) : n / 10 ^ r < 2 ^ w := lt_of_le_of_lt (Nat.div_le_self _ _) h

theorem stateAt_succ (r : Nat) :
    (⟨R / 10 ^ r / 10, P / 10 ^ r / 10, M / 10 ^ r / 10,
      (f0 && decide (10 ^ r ∣ M)) && decide (M / 10 ^ r % 10 = 0),
      zerosB R last0 z0 r && decide (digit R last0 r = 0), R / 10 ^ r % 10, r + 1⟩ : St) =
    stateAt R M P last0 f0 z0 (r + 1) := by
  unfold stateAt
  rw [div_pow_succ, div_pow_succ, div_pow_succ, step_flag]
  rfl

/-- All steps up to `r'` were taken, and no further one. -/
def Removed (M P r r' : Nat) : Prop :=
  r ≤ r' ∧ P / 10 ^ (r' + 1) ≤ M / 10 ^ (r' + 1) ∧ (r' = r ∨ M / 10 ^ r' < P / 10 ^ r')

theorem Removed.of_succ {M P r r' : Nat} (h : Removed M P (r + 1) r') (h1 : M / 10 ^ (r + 1) < P / 10 ^ (r + 1)) :
    Removed M P r r' := by
  obtain ⟨a, b, e⟩ := h
  refine ⟨by omega, b, Or.inr ?_⟩
  rcases e with e | e
  · rw [e]; exact h1
  · exact e

theorem d_general_loop_succ (c : Config) (fuel : Nat) {s : St} (h1 : s.vr < 2 ^ 64) (h2 : s.vp < 2 ^ 64)
    (h3 : s.vm < 2 ^ 64) : d_general_loop c (fuel + 1) s = if s.vp / 10 ≤ s.vm / 10 then .ok s else
      d_general_loop c fuel ⟨s.vr / 10, s.vp / 10, s.vm / 10, s.vmZ && decide (s.vm % 10 = 0),
        s.vrZ && decide (s.last = 0), s.vr % 10, s.removed + 1⟩ := by
  rw [d_general_loop]
  dsimp only
  rw [div10_eq c h1, div10_eq c h2, div10_eq c h3, rem32_eq (by norm_num) (by norm_num),
    rem32_eq (by norm_num) (by norm_num), wrap_mod10]

theorem d_trailing_loop_succ (c : Config) (fuel : Nat) {s : St} (h1 : s.vr < 2 ^ 64) (h2 : s.vp < 2 ^ 64)
    (h3 : s.vm < 2 ^ 64) : d_trailing_loop c (fuel + 1) s = if s.vm % 10 ≠ 0 then .ok s else
      d_trailing_loop c fuel ⟨s.vr / 10, s.vp / 10, s.vm / 10, s.vmZ, s.vrZ && decide (s.last = 0), s.vr % 10,
        s.removed + 1⟩ := by
  rw [d_trailing_loop]
  dsimp only
  rw [div10_eq c h1, div10_eq c h2, div10_eq c h3, rem32_eq (by norm_num) (by norm_num),
    rem32_eq (by norm_num) (by norm_num), wrap_mod10]

theorem d_general_loop_spec (c : Config) (hR : R < 2 ^ 64) (hM : M < 2 ^ 64) (hP : P < 2 ^ 64) :
    ∀ (fuel r : Nat), P / 10 ^ r < 10 ^ fuel →
    ∃ r', d_general_loop c (fuel + 1) (stateAt R M P last0 f0 z0 r) = .ok (stateAt R M P last0 f0 z0 r') ∧
      Removed M P r r' := by
  intro fuel
  induction fuel with
  | zero =>
    intro r h
    rw [pow_zero] at h
    have h0 : P / 10 ^ r / 10 ≤ M / 10 ^ r / 10 := by
      rw [Nat.lt_one_iff.mp h]; exact Nat.zero_le _
    refine ⟨r, ?_, le_rfl, ?_, Or.inl rfl⟩
    · rw [d_general_loop_succ c 0 (div_pow_lt hR) (div_pow_lt hP) (div_pow_lt hM)]
      exact if_pos h0
    · rw [← div_pow_succ, ← div_pow_succ]
      exact h0
  | succ fuel ih =>
    intro r h
    rw [d_general_loop_succ c (fuel + 1) (div_pow_lt hR) (div_pow_lt hP) (div_pow_lt hM)]
    by_cases hc : P / 10 ^ (r + 1) ≤ M / 10 ^ (r + 1)
    · refine ⟨r, if_pos ?_, le_rfl, hc, Or.inl rfl⟩
      simp only [stateAt, div_pow_succ]
      exact hc
    · obtain ⟨r', h1, h2⟩ := ih (r + 1) (by rw [← div_pow_succ]; rw [pow_succ] at h; omega)
      refine ⟨r', ?_, h2.of_succ (by omega)⟩
      rw [← h1, if_neg (by simp only [stateAt, div_pow_succ]; exact hc)]
      congr 1
      exact stateAt_succ r

theorem d_trailing_loop_spec (c : Config) (hR : R < 2 ^ 64) (hM : M < 2 ^ 64) (hP : P < 2 ^ 64) (h0 : 0 < M)
    (hf : f0 = true) :
    ∀ (fuel r : Nat), 10 ^ r ∣ M → M / 10 ^ r < 10 ^ fuel →
    ∃ r', d_trailing_loop c (fuel + 1) (stateAt R M P last0 f0 z0 r) = .ok (stateAt R M P last0 f0 z0 r') ∧
      r ≤ r' ∧ 10 ^ r' ∣ M ∧ ¬ 10 ^ (r' + 1) ∣ M := by
  intro fuel
  induction fuel with
  | zero =>
    intro r hd h
    have : 0 < M / 10 ^ r := Nat.div_pos (Nat.le_of_dvd h0 hd) (by positivity)
    simp only [pow_zero] at h
    omega
  | succ fuel ih =>
    intro r hd h
    rw [d_trailing_loop_succ c (fuel + 1) (div_pow_lt hR) (div_pow_lt hP) (div_pow_lt hM)]
    by_cases hc : M / 10 ^ r % 10 = 0
    · have hd' : 10 ^ (r + 1) ∣ M := (pow_succ_dvd_iff M r).mpr ⟨hd, hc⟩
      obtain ⟨r', h1, h2, h3⟩ := ih (r + 1) hd' (by rw [← div_pow_succ]; rw [pow_succ] at h; omega)
      refine ⟨r', ?_, by omega, h3⟩
      rw [← h1, if_neg (by simpa [stateAt] using hc)]
      congr 1
      have := stateAt_succ (R := R) (M := M) (P := P) (last0 := last0) (f0 := f0) (z0 := z0) r
      rw [← this]
      simp [stateAt, hf, hd, hc]
    · refine ⟨r, if_pos ?_, le_rfl, hd, fun h => hc ((pow_succ_dvd_iff M r).mp h).2⟩
      simpa [stateAt] using hc

theorem div_pow_mono {a b r r' : Nat} (h : a / 10 ^ r ≤ b / 10 ^ r) (hr : r ≤ r') : a / 10 ^ r' ≤ b / 10 ^ r' := by
  obtain ⟨k, rfl⟩ := Nat.exists_eq_add_of_le hr
  rw [pow_add, ← Nat.div_div_eq_div_mul, ← Nat.div_div_eq_div_mul]
  exact Nat.div_le_div_right h

theorem Removed.final {r : Nat} (h : Removed M P 0 r) (hn : ¬ (f0 = true ∧ 10 ^ r ∣ M)) : Final M P f0 r := by
  obtain ⟨-, h1, h2⟩ := h
  refine ⟨h1, ?_, fun h => hn ⟨h.1, dvd_trans (pow_dvd_pow 10 (Nat.le_succ r)) h.2⟩⟩
  rcases h2 with h2 | h2
  · exact Or.inl h2
  · exact Or.inr (Or.inl h2)

theorem Removed.final2 {r r' : Nat} (h : Removed M P 0 r) (hr : r ≤ r') (hf : f0 = true) (hd : 10 ^ r' ∣ M)
    (hd' : ¬ 10 ^ (r' + 1) ∣ M) : Final M P f0 r' := by
  obtain ⟨-, h1, -⟩ := h
  exact ⟨div_pow_mono h1 (by omega), Or.inr (Or.inr ⟨hf, hd⟩), fun h => hd' h.2⟩

/-- What step 4 delivers. -/
def Step4 (R M P last0 : Nat) (f0 z0 : Bool) (out r : Nat) : Prop :=
  Final M P f0 r ∧ (Up R M last0 f0 z0 r → out = R / 10 ^ r + 1) ∧ (¬ Up R M last0 f0 z0 r → out = R / 10 ^ r)

theorem general_output_spec {w r : Nat} (hf : f0 = true → acc = true) (hR : R + 1 < 2 ^ w) :
    (Up R M last0 f0 z0 r → general_output w acc (stateAt R M P last0 f0 z0 r) = R / 10 ^ r + 1) ∧
    (¬ Up R M last0 f0 z0 r → general_output w acc (stateAt R M P last0 f0 z0 r) = R / 10 ^ r) := by
  have hlt : R / 10 ^ r + 1 < 2 ^ w := lt_of_le_of_lt (Nat.add_le_add_right (Nat.div_le_self _ _) 1) hR
  have hb : ((decide (R / 10 ^ r = M / 10 ^ r) && (!acc || !(f0 && decide (10 ^ r ∣ M)))) ||
      decide ((if zerosB R last0 z0 r && decide (digit R last0 r = 5) && decide (R / 10 ^ r % 2 = 0) then 4
        else digit R last0 r) ≥ 5)) = true ↔ Up R M last0 f0 z0 r := by
    rw [Bool.or_eq_true, Bool.and_eq_true, decide_eq_true_iff, decide_eq_true_iff]
    unfold Up
    refine or_congr (and_congr_right fun _ => ?_) ?_
    · cases acc <;> cases f0 <;> simp_all
    · rw [← zerosB_iff]
      by_cases hz : zerosB R last0 z0 r = true ∧ digit R last0 r = 5 ∧ R / 10 ^ r % 2 = 0
      · rw [if_pos (by simp [hz.1, hz.2.1, hz.2.2])]
        constructor
        · intro h; omega
        · intro h; exact absurd hz h.2
      · rw [if_neg (by
          intro h
          simp only [Bool.and_eq_true, decide_eq_true_iff] at h
          exact hz ⟨h.1.1, h.1.2, h.2⟩)]
        exact ⟨fun h => ⟨h, hz⟩, fun h => h.1⟩
  have hg : general_output w acc (stateAt R M P last0 f0 z0 r) = wrap w (R / 10 ^ r +
      if ((decide (R / 10 ^ r = M / 10 ^ r) && (!acc || !(f0 && decide (10 ^ r ∣ M)))) ||
      decide ((if zerosB R last0 z0 r && decide (digit R last0 r = 5) && decide (R / 10 ^ r % 2 = 0) then 4
        else digit R last0 r) ≥ 5)) then 1 else 0) := rfl
  constructor
  · intro h
    rw [hg, if_pos (hb.mpr h), wrap_of_lt hlt]
  · intro h
    rw [hg, if_neg (fun h' => h (hb.mp h')), wrap_of_lt (by omega), Nat.add_zero]

theorem d_common_loop_spec (c : Config) (hR : R < 2 ^ 64) (hM : M < 2 ^ 64) (hP : P < 2 ^ 64) :
    ∀ (fuel r : Nat), P / 10 ^ r < 10 ^ fuel → ∀ a b l,
    ∃ r', d_common_loop c (fuel + 1) ⟨R / 10 ^ r, P / 10 ^ r, M / 10 ^ r, a, b, l, r⟩ (decide (digit R 0 r ≥ 5)) =
      .ok (⟨R / 10 ^ r', P / 10 ^ r', M / 10 ^ r', a, b, l, r'⟩, decide (digit R 0 r' ≥ 5)) ∧ Removed M P r r' := by
  intro fuel
  induction fuel with
  | zero =>
    intro r h a b l
    rw [pow_zero] at h
    have h0 : P / 10 ^ r / 10 ≤ M / 10 ^ r / 10 := by
      rw [Nat.lt_one_iff.mp h]; exact Nat.zero_le _
    refine ⟨r, ?_, le_rfl, ?_, Or.inl rfl⟩
    · unfold d_common_loop
      dsimp only
      rw [div10_eq c (div_pow_lt hP), div10_eq c (div_pow_lt hM), if_pos h0]
    · rw [← div_pow_succ, ← div_pow_succ]
      exact h0
  | succ fuel ih =>
    intro r h a b l
    unfold d_common_loop
    by_cases hc : P / 10 ^ (r + 1) ≤ M / 10 ^ (r + 1)
    · refine ⟨r, ?_, le_rfl, hc, Or.inl rfl⟩
      dsimp only
      rw [div10_eq c (div_pow_lt hP), div10_eq c (div_pow_lt hM), div_pow_succ, div_pow_succ, if_pos hc]
    · obtain ⟨r', h1, h2⟩ := ih (r + 1) (by rw [← div_pow_succ]; rw [pow_succ] at h; omega) a b l
      refine ⟨r', ?_, h2.of_succ (by omega)⟩
      rw [← h1]
      dsimp only
      rw [div10_eq c (div_pow_lt hP), div10_eq c (div_pow_lt hM), div10_eq c (div_pow_lt hR),
        rem32_eq (by norm_num) (by norm_num), div_pow_succ, div_pow_succ, div_pow_succ, if_neg hc]
      rfl

theorem common_output {w r : Nat} (hR : R + 1 < 2 ^ w) :
    (Up R M last0 false false r → wrap w (R / 10 ^ r + if decide (R / 10 ^ r = M / 10 ^ r) ||
      decide (digit R last0 r ≥ 5) then 1 else 0) = R / 10 ^ r + 1) ∧
    (¬ Up R M last0 false false r → wrap w (R / 10 ^ r + if decide (R / 10 ^ r = M / 10 ^ r) ||
      decide (digit R last0 r ≥ 5) then 1 else 0) = R / 10 ^ r) := by
  have hlt : R / 10 ^ r + 1 < 2 ^ w := lt_of_le_of_lt (Nat.add_le_add_right (Nat.div_le_self _ _) 1) hR
  have hb : (decide (R / 10 ^ r = M / 10 ^ r) || decide (digit R last0 r ≥ 5)) = true ↔
      Up R M last0 false false r := by
    unfold Up zeros
    simp
  constructor
  · intro h
    rw [if_pos (hb.mpr h), wrap_of_lt hlt]
  · intro h
    rw [if_neg (fun h' => h (hb.mp h')), wrap_of_lt (by omega), Nat.add_zero]

theorem d_step4_spec (c : Config) (hR : R + 1 < 2 ^ 64) (hM : M < 2 ^ 64) (hP : P < 2 ^ 64)
    (hf : f0 = true → acc = true ∧ 0 < M) :
    ∃ out r, d_step4 c acc ⟨R, P, M, f0, z0, 0, 0⟩ = .ok (out, r) ∧ Step4 R M P 0 f0 z0 out r := by
  have hs0 : (⟨R, P, M, f0, z0, 0, 0⟩ : St) = stateAt R M P 0 f0 z0 0 := by
    simp [stateAt, zerosB, digit]
  have hP20 : P / 10 ^ 0 < 10 ^ 20 := by
    rw [pow_zero, Nat.div_one]; exact lt_trans hP (by norm_num)
  unfold d_step4
  by_cases hg : (f0 || z0) = true
  · rw [if_pos hg, hs0]
    obtain ⟨r, h1, h2⟩ := d_general_loop_spec (R := R) (last0 := 0) (f0 := f0) (z0 := z0) c (by omega) hM hP 20 0 hP20
    rw [h1, Exec.ok_bind]
    by_cases hz : f0 = true ∧ 10 ^ r ∣ M
    · have hM20 : M / 10 ^ r < 10 ^ 20 := lt_of_le_of_lt (Nat.div_le_self _ _) (lt_trans hM (by norm_num))
      obtain ⟨r', g1, g2, g3, g4⟩ := d_trailing_loop_spec (R := R) (P := P) (last0 := 0) (z0 := z0) c (by omega) hM hP
        (hf hz.1).2 hz.1 20 r hz.2 hM20
      rw [if_pos (show (stateAt R M P 0 f0 z0 r).vmZ = true by simp [stateAt, hz.1, hz.2]), g1, Exec.ok_bind]
      obtain ⟨u1, u2⟩ := general_output_spec (P := P) (M := M) (last0 := 0) (f0 := f0) (z0 := z0) (r := r')
        (fun h => (hf h).1) hR
      exact ⟨_, r', rfl, h2.final2 g2 hz.1 g3 g4, u1, u2⟩
    · rw [if_neg (show ¬ (stateAt R M P 0 f0 z0 r).vmZ = true by
        simp only [stateAt, Bool.and_eq_true, decide_eq_true_iff]; exact hz), Exec.ok_bind]
      obtain ⟨u1, u2⟩ := general_output_spec (P := P) (M := M) (last0 := 0) (f0 := f0) (z0 := z0) (r := r)
        (fun h => (hf h).1) hR
      exact ⟨_, r, rfl, h2.final hz, u1, u2⟩
  · rw [if_neg hg]
    have hff : f0 = false := by cases f0 <;> simp_all
    have hzz : z0 = false := by cases z0 <;> simp_all
    subst hff hzz
    dsimp only
    rw [div100_eq c hP, div100_eq c hM, div100_eq c (by omega : R < 2 ^ 64), rem32_eq (by norm_num) (by norm_num)]
    have hlow : ∃ r up, (if P / 100 > M / 100 then
          ((⟨R / 100, P / 100, M / 100, false, false, 0, 0 + 2⟩ : St), decide (R % 100 ≥ 50))
        else (⟨R, P, M, false, false, 0, 0⟩, false)) =
        (⟨R / 10 ^ r, P / 10 ^ r, M / 10 ^ r, false, false, 0, r⟩, up) ∧ up = decide (digit R 0 r ≥ 5) ∧
        (r = 0 ∨ r ≠ 0 ∧ M / 10 ^ r < P / 10 ^ r) := by
      by_cases h : P / 100 > M / 100
      · refine ⟨2, decide (R % 100 ≥ 50), by rw [if_pos h]; norm_num, ?_, Or.inr ⟨by norm_num, h⟩⟩
        rw [decide_eq_decide]
        simp only [digit, pow_one]
        omega
      · refine ⟨0, false, by rw [if_neg h]; simp, by simp [digit], Or.inl rfl⟩
    obtain ⟨r, up, h1, h2, h3⟩ := hlow
    rw [h1]
    dsimp only
    rw [h2]
    obtain ⟨r', g1, g2⟩ := d_common_loop_spec (R := R) c (by omega) hM hP 20 r
      (lt_of_le_of_lt (Nat.div_le_self _ _) (lt_trans hP (by norm_num))) false false 0
    rw [g1, Exec.ok_bind]
    have g3 : Removed M P 0 r' := by
      obtain ⟨a, b, e⟩ := g2
      refine ⟨Nat.zero_le _, b, ?_⟩
      rcases e with e | e
      · rw [e]
        rcases h3 with h | h
        · exact Or.inl h
        · exact Or.inr h.2
      · exact Or.inr e
    obtain ⟨u1, u2⟩ := common_output (M := M) (last0 := 0) (r := r') hR
    exact ⟨_, r', rfl, g3.final (by simp), u1, u2⟩

/-! ## Single precision -/

theorem f_general_loop_spec :
    ∀ (fuel r : Nat), P / 10 ^ r < 10 ^ fuel →
    ∃ r', f_general_loop (fuel + 1) (stateAt R M P last0 f0 z0 r) = .ok (stateAt R M P last0 f0 z0 r') ∧
      Removed M P r r' := by
  intro fuel
  induction fuel with
  | zero =>
    intro r h
    rw [pow_zero] at h
    have h0 : P / 10 ^ r / 10 ≤ M / 10 ^ r / 10 := by
      rw [Nat.lt_one_iff.mp h]; exact Nat.zero_le _
    refine ⟨r, ?_, le_rfl, ?_, Or.inl rfl⟩
    · unfold f_general_loop
      rw [if_neg]
      simp only [stateAt]
      exact not_lt.mpr h0
    · rw [← div_pow_succ, ← div_pow_succ]
      exact h0
  | succ fuel ih =>
    intro r h
    unfold f_general_loop
    by_cases hc : P / 10 ^ (r + 1) ≤ M / 10 ^ (r + 1)
    · refine ⟨r, ?_, le_rfl, hc, Or.inl rfl⟩
      rw [if_neg]
      simp only [stateAt, div_pow_succ]
      omega
    · obtain ⟨r', h1, h2⟩ := ih (r + 1) (by rw [← div_pow_succ]; rw [pow_succ] at h; omega)
      refine ⟨r', ?_, h2.of_succ (by omega)⟩
      rw [← h1, if_pos (by simp only [stateAt, div_pow_succ]; omega)]
      congr 1
      simp only [stateAt]
      rw [wrap_mod10]
      exact stateAt_succ r

theorem f_trailing_loop_spec (h0 : 0 < M) (hf : f0 = true) :
    ∀ (fuel r : Nat), 10 ^ r ∣ M → M / 10 ^ r < 10 ^ fuel →
    ∃ r', f_trailing_loop (fuel + 1) (stateAt R M P last0 f0 z0 r) = .ok (stateAt R M P last0 f0 z0 r') ∧
      r ≤ r' ∧ 10 ^ r' ∣ M ∧ ¬ 10 ^ (r' + 1) ∣ M := by
  intro fuel
  induction fuel with
  | zero =>
    intro r hd h
    have : 0 < M / 10 ^ r := Nat.div_pos (Nat.le_of_dvd h0 hd) (by positivity)
    simp only [pow_zero] at h
    omega
  | succ fuel ih =>
    intro r hd h
    unfold f_trailing_loop
    by_cases hc : M / 10 ^ r % 10 = 0
    · have hd' : 10 ^ (r + 1) ∣ M := (pow_succ_dvd_iff M r).mpr ⟨hd, hc⟩
      obtain ⟨r', h1, h2, h3⟩ := ih (r + 1) hd' (by rw [← div_pow_succ]; rw [pow_succ] at h; omega)
      refine ⟨r', ?_, by omega, h3⟩
      rw [← h1, if_pos (by simpa only [stateAt] using hc)]
      congr 1
      have := stateAt_succ (R := R) (M := M) (P := P) (last0 := last0) (f0 := f0) (z0 := z0) r
      rw [← this]
      simp [stateAt, hf, hd, hc, wrap_mod10]
    · refine ⟨r, ?_, le_rfl, hd, fun h => hc ((pow_succ_dvd_iff M r).mp h).2⟩
      rw [if_neg (by simpa only [stateAt] using hc)]

theorem f_common_loop_spec :
    ∀ (fuel r : Nat), P / 10 ^ r < 10 ^ fuel → ∀ a b,
    ∃ r', f_common_loop (fuel + 1) ⟨R / 10 ^ r, P / 10 ^ r, M / 10 ^ r, a, b, digit R last0 r, r⟩ =
      .ok ⟨R / 10 ^ r', P / 10 ^ r', M / 10 ^ r', a, b, digit R last0 r', r'⟩ ∧ Removed M P r r' := by
  intro fuel
  induction fuel with
  | zero =>
    intro r h a b
    rw [pow_zero] at h
    have h0 : P / 10 ^ r / 10 ≤ M / 10 ^ r / 10 := by
      rw [Nat.lt_one_iff.mp h]; exact Nat.zero_le _
    refine ⟨r, ?_, le_rfl, ?_, Or.inl rfl⟩
    · unfold f_common_loop
      rw [if_neg]
      exact not_lt.mpr h0
    · rw [← div_pow_succ, ← div_pow_succ]
      exact h0
  | succ fuel ih =>
    intro r h a b
    unfold f_common_loop
    by_cases hc : P / 10 ^ (r + 1) ≤ M / 10 ^ (r + 1)
    · refine ⟨r, ?_, le_rfl, hc, Or.inl rfl⟩
      rw [if_neg]
      simp only [div_pow_succ]
      omega
    · obtain ⟨r', h1, h2⟩ := ih (r + 1) (by rw [← div_pow_succ]; rw [pow_succ] at h; omega) a b
      refine ⟨r', ?_, h2.of_succ (by omega)⟩
      rw [← h1, if_pos (by simp only [div_pow_succ]; omega)]
      congr 1
      dsimp only
      rw [wrap_mod10, div_pow_succ, div_pow_succ, div_pow_succ]
      rfl

theorem f_step4_spec (hR : R + 1 < 2 ^ 32) (hM : M < 2 ^ 32) (hP : P < 2 ^ 32)
    (hf : f0 = true → acc = true ∧ 0 < M) :
    ∃ out r, f_step4 acc ⟨R, P, M, f0, z0, last0, 0⟩ = .ok (out, r) ∧ Step4 R M P last0 f0 z0 out r := by
  have hs0 : (⟨R, P, M, f0, z0, last0, 0⟩ : St) = stateAt R M P last0 f0 z0 0 := by
    simp [stateAt, zerosB, digit]
  have hP20 : P / 10 ^ 0 < 10 ^ 20 := by
    rw [pow_zero, Nat.div_one]; exact lt_trans hP (by norm_num)
  unfold f_step4
  by_cases hg : (f0 || z0) = true
  · rw [if_pos hg, hs0]
    obtain ⟨r, h1, h2⟩ := f_general_loop_spec (R := R) (M := M) (last0 := last0) (f0 := f0) (z0 := z0) 20 0 hP20
    rw [h1, Exec.ok_bind]
    by_cases hz : f0 = true ∧ 10 ^ r ∣ M
    · have hM20 : M / 10 ^ r < 10 ^ 20 := lt_of_le_of_lt (Nat.div_le_self _ _) (lt_trans hM (by norm_num))
      obtain ⟨r', g1, g2, g3, g4⟩ := f_trailing_loop_spec (R := R) (P := P) (last0 := last0) (z0 := z0)
        (hf hz.1).2 hz.1 20 r hz.2 hM20
      rw [if_pos (show (stateAt R M P last0 f0 z0 r).vmZ = true by simp [stateAt, hz.1, hz.2]), g1, Exec.ok_bind]
      obtain ⟨u1, u2⟩ := general_output_spec (P := P) (M := M) (last0 := last0) (f0 := f0) (z0 := z0) (r := r')
        (fun h => (hf h).1) hR
      exact ⟨_, r', rfl, h2.final2 g2 hz.1 g3 g4, u1, u2⟩
    · rw [if_neg (show ¬ (stateAt R M P last0 f0 z0 r).vmZ = true by
        simp only [stateAt, Bool.and_eq_true, decide_eq_true_iff]; exact hz), Exec.ok_bind]
      obtain ⟨u1, u2⟩ := general_output_spec (P := P) (M := M) (last0 := last0) (f0 := f0) (z0 := z0) (r := r)
        (fun h => (hf h).1) hR
      exact ⟨_, r, rfl, h2.final hz, u1, u2⟩
  · rw [if_neg hg]
    have hff : f0 = false := by cases f0 <;> simp_all
    have hzz : z0 = false := by cases z0 <;> simp_all
    subst hff hzz
    obtain ⟨r, g1, g2⟩ := f_common_loop_spec (R := R) (M := M) (last0 := last0) 20 0 hP20 false false
    have hs1 : (⟨R, P, M, false, false, last0, 0⟩ : St) =
        ⟨R / 10 ^ 0, P / 10 ^ 0, M / 10 ^ 0, false, false, digit R last0 0, 0⟩ := by simp [digit]
    rw [hs1, g1, Exec.ok_bind]
    obtain ⟨u1, u2⟩ := common_output (M := M) (last0 := last0) (r := r) hR
    exact ⟨_, r, rfl, g2.final (by simp), u1, u2⟩

end Grisu.Ryu
