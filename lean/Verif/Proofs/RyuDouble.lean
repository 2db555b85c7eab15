import Verif.Proofs.RyuArith
import Verif.Proofs.RyuFlags
import Verif.Proofs.RyuLoops
import Verif.Proofs.RyuCerts64

/-!
# Ryu, double precision: step 3
-/

namespace Grisu.Ryu

theorem log10Pow2_eq (c : Config) {e : Int} (h0 : 0 ≤ e) (h1 : e ≤ 1650) :
    log10Pow2 c e = .ok (e.toNat * 78913 / 2 ^ 18) := by
  unfold log10Pow2
  rw [rassert_true (decide_eq_true h0), Exec.ok_bind, rassert_true (decide_eq_true h1), Exec.ok_bind,
    u32_eq h0 (by omega), wrap_of_lt (by omega)]

theorem log10Pow5_eq (c : Config) {e : Int} (h0 : 0 ≤ e) (h1 : e ≤ 2620) :
    log10Pow5 c e = .ok (e.toNat * 732923 / 2 ^ 20) := by
  unfold log10Pow5
  rw [rassert_true (decide_eq_true h0), Exec.ok_bind, rassert_true (decide_eq_true h1), Exec.ok_bind,
    u32_eq h0 (by omega), wrap_of_lt (by omega)]

theorem pow5bits_eq (c : Config) {n : Nat} (h : n ≤ 3528) : pow5bits c n = .ok ((p5b n : Nat) : Int) := by
  unfold pow5bits p5b
  rw [rassert_true (decide_eq_true (Int.natCast_nonneg n)), Exec.ok_bind, rassert_true (decide_eq_true (by omega)),
    Exec.ok_bind, u32_eq (Int.natCast_nonneg n) (by omega), Int.toNat_natCast, wrap_of_lt (by omega)]

theorem at_eq {α : Type} {l : List α} {i : Nat} {a : α} (h : l[i]? = some a) : at_ l i = .ok a := by
  unfold at_
  rw [h]

/-- The facts about one exponent. -/
theorem dFacts {e : Int} (h0 : -1076 ≤ e) (h1 : e ≤ 970) :
    ∃ b d, DFacts e (dq e) (num e (dq e)) (den e (dq e)) (dShift e (dq e)) (dEntry e (dq e)) b d := by
  have l0 : dCerts0.length = 512 := by decide +kernel
  have l1 : dCerts1.length = 512 := by decide +kernel
  have l2 : dCerts2.length = 512 := by decide +kernel
  have l3 : dCerts3.length = 511 := by decide +kernel
  obtain ⟨j, hj⟩ : ∃ j : Nat, e = -1076 + (j : Int) := ⟨(e + 1076).toNat, by omega⟩
  have : ∃ b d, dCheck (-1076 + (j : Int)) b d = true := by
    rcases (by omega : j < 512 ∨ (512 ≤ j ∧ j < 1024) ∨ (1024 ≤ j ∧ j < 1536) ∨ (1536 ≤ j ∧ j < 2047)) with h | h | h | h
    · exact checkFrom_sound _ _ _ _ dCerts0_ok j (by omega) (by omega)
    · exact checkFrom_sound _ _ _ _ dCerts1_ok j (by omega) (by omega)
    · exact checkFrom_sound _ _ _ _ dCerts2_ok j (by omega) (by omega)
    · exact checkFrom_sound _ _ _ _ dCerts3_ok j (by omega) (by omega)
  obtain ⟨b, d, h⟩ := this
  rw [hj]
  exact ⟨b, d, dCheck_sound h⟩

theorem full_split (c : Nat) : full (c % 2 ^ 64, c / 2 ^ 64) = c := by
  unfold full
  omega

theorem den_pos (e : Int) (q : Nat) : 0 < den e q := by
  unfold den
  split <;> positivity

theorem floor_lt {n N A B k : Nat} (hB : 0 < B) (hA : A < k * B) (hn : n ≤ N) : n * A / B ≤ k * N := by
  have : n * A ≤ N * (k * B) := Nat.mul_le_mul hn hA.le
  rw [Nat.div_le_iff_le_mul_add_pred hB]
  calc n * A ≤ N * (k * B) := this
    _ = B * (k * N) := by ring
    _ ≤ _ := Nat.le_add_right _ _

/-- The three products. -/
theorem d_products (c : Config) {m s : Nat} {e : Int} (hm0 : 0 < m) (hm : m < 2 ^ 53) (hs : s ≤ 1)
    (hedge : s = 0 → m = 2 ^ 52) (h0 : -1076 ≤ e) (h1 : e ≤ 970) :
    ∃ t, at_ (dTable e) (dIndex e (dq e)) = .ok t ∧
      mulShiftAll64 c m t (dShift e (dq e) : Nat) s = .ok (4 * m * num e (dq e) / den e (dq e),
        (4 * m + 2) * num e (dq e) / den e (dq e), (4 * m - 1 - s) * num e (dq e) / den e (dq e)) := by
  obtain ⟨b, d, f1, f2, f3, f4, f5, f6, f7, f8, f9, f10⟩ := dFacts h0 h1
  refine ⟨_, at_eq f1, ?_⟩
  have hB := den_pos e (dq e)
  generalize num e (dq e) = A at *
  generalize den e (dq e) = B at *
  generalize dEntry e (dq e) = w at *
  have fl : ∀ n, n ≤ 2 ^ 55 → n * w / 2 ^ dShift e (dq e) % 2 ^ 64 = n * A / B := by
    intro n hn
    rw [f6.floor_eq hB (by positivity) hn]
    exact Nat.mod_eq_of_lt (lt_of_le_of_lt (floor_lt hB f9 hn) (by norm_num))
  rw [mulShiftAll64_eq c hm0 hm (Nat.mod_lt _ (by norm_num)) (by omega) (by exact_mod_cast f3) (by exact_mod_cast f4) hs
    (by intro h; rw [hedge h, full_split]; exact f5), full_split, Int.toNat_natCast, fl _ (by omega), fl _ (by omega),
    fl _ (by omega)]

theorem dq_zero_of_pos {e : Int} (h : 0 ≤ e) : dq e = e.toNat * 78913 / 2 ^ 18 - (if e > 3 then 1 else 0) := by
  unfold dq fq
  rw [if_pos h]
  congr 1
  by_cases h3 : e > 3
  · rw [if_pos h3, if_pos (Or.inl h3)]
  · rw [if_neg h3, if_neg (by omega)]

theorem dq_of_neg {e : Int} (h : e < 0) : dq e = (-e).toNat * 732923 / 2 ^ 20 - (if -e > 1 then 1 else 0) := by
  unfold dq fq
  rw [if_neg (by omega)]
  congr 1
  by_cases h3 : -e > 1
  · rw [if_pos h3, if_pos (by omega)]
  · rw [if_neg h3, if_neg (by omega)]

/-- If the scale is at least 10 then at least one digit is removed. -/
theorem wide {A B m s P : Nat} (hB : 0 < B) (hA : 10 * B ≤ A) (hm : 0 < m) (hP : (4 * m + 2) * A / B - 1 ≤ P) :
    ¬ P / 10 ≤ (4 * m - 1 - s) * A / B / 10 := by
  have h1 : (4 * m - 1 - s) * A / B + 30 ≤ (4 * m + 2) * A / B := by
    rw [← Nat.add_mul_div_left _ _ hB]
    apply Nat.div_le_div_right
    have : (4 * m + 2) * A = (4 * m - 1) * A + 3 * A := by
      rw [← Nat.add_mul]; congr 1; omega
    rw [this]
    have h2 : (4 * m - 1 - s) * A ≤ (4 * m - 1) * A := Nat.mul_le_mul_right _ (by omega)
    omega
  omega

theorem d_last {q m A B : Nat} (h : q = 0 ∨ 10 * B ≤ A) (hq : q = 0 → B = 1) (hB : 0 < B) (hm : 0 < m) {s : Nat} :
    ∀ P, (4 * m + 2) * A / B - 1 ≤ P → P / 10 ≤ (4 * m - 1 - s) * A / B / 10 →
      0 = 10 * (4 * m * A) / B % 10 ∧ (0 = 1 ∨ q ≤ 1) := by
  intro P h1 h2
  rcases h with h | h
  · rw [hq h, Nat.div_one]
    exact ⟨(Nat.mul_mod_right _ _).symm, Or.inr (by omega)⟩
  · exact absurd h2 (wide hB h hm h1)

theorem five_23 {q n : Nat} (hq : 21 < q) (h : 5 ^ (q + 1) ∣ n) : 5 ^ 23 ∣ n :=
  dvd_trans (pow_dvd_pow 5 (by omega)) h

theorem not_five_23_mv {m w : Nat} (hm0 : 0 < m) (hm : m < 9007199254740992) : 4 * m ≠ 11920928955078125 * w := by
  intro h
  have hw : w < 4 := by
    apply Nat.lt_of_mul_lt_mul_left (a := 11920928955078125)
    rw [← h]
    clear h
    omega
  interval_cases w <;> norm_num only at h <;> omega

theorem not_five_23_mp {m w : Nat} (hm : m < 9007199254740992) (h2 : m % 2 = 1) :
    4 * m + 2 ≠ 11920928955078125 * w := by
  intro h
  have hw : w < 4 := by
    apply Nat.lt_of_mul_lt_mul_left (a := 11920928955078125)
    rw [← h]
    clear h
    omega
  interval_cases w <;> norm_num only at h <;> omega

theorem not_five_23_mm {m w : Nat} (hm0 : 0 < m) (hm : m < 9007199254740992) (h2 : m % 2 = 0) :
    4 * m - 2 ≠ 11920928955078125 * w := by
  intro h
  have hw : w < 4 := by
    apply Nat.lt_of_mul_lt_mul_left (a := 11920928955078125)
    rw [← h]
    clear h
    omega
  interval_cases w <;> norm_num only at h <;> omega

theorem not_five_23 {m s : Nat} (hm0 : 0 < m) (hm : m < 9007199254740992) (hs : s ≤ 1)
    (hedge : s = 0 → m = 4503599627370496) : ¬ 11920928955078125 ∣ 4 * m ∧
      (m % 2 = 1 → ¬ 11920928955078125 ∣ 4 * m + 2) ∧ (m % 2 = 0 → ¬ 11920928955078125 ∣ 4 * m - 1 - s) := by
  refine ⟨?_, ?_, ?_⟩
  · rintro ⟨w, hw⟩
    exact not_five_23_mv hm0 hm hw
  · rintro h ⟨w, hw⟩
    exact not_five_23_mp hm h hw
  · rintro h hd
    rcases Nat.lt_or_ge s 1 with h0 | h0
    · have h0' : s = 0 := Nat.lt_one_iff.mp h0
      rw [hedge h0', h0'] at hd
      revert hd
      decide
    · have h0' : s = 1 := le_antisymm hs h0
      rw [h0'] at hd
      obtain ⟨w, hw⟩ := hd
      exact not_five_23_mm hm0 hm h hw

theorem d_big {q m s : Nat} {acc : Bool} (hm0 : 0 < m) (hm : m < 2 ^ 53) (hs : s ≤ 1) (hedge : s = 0 → m = 2 ^ 52)
    (hacc : acc = decide (m % 2 = 0)) : 21 < q → ¬ 5 ^ (q + 1) ∣ 4 * m ∧ (acc = false → ¬ 5 ^ (q + 1) ∣ 4 * m + 2) ∧
      (acc = true → ¬ 5 ^ (q + 1) ∣ 4 * m - 1 - s) := by
  intro hq
  obtain ⟨h1, h2, h3⟩ := not_five_23 hm0 hm hs hedge
  refine ⟨fun h => h1 (five_23 hq h), fun ha h => h2 ?_ (five_23 hq h), fun ha h => h3 ?_ (five_23 hq h)⟩
  · rw [hacc, decide_eq_false_iff_not] at ha
    exact Nat.mod_two_ne_zero.mp ha
  · rw [hacc, decide_eq_true_iff] at ha
    exact ha

theorem d_step3_pos_spec (c : Config) {m s : Nat} {e : Int} {acc : Bool} (hm0 : 0 < m) (hm : m < 2 ^ 53) (hs : s ≤ 1)
    (hedge : s = 0 → m = 2 ^ 52) (hacc : acc = decide (m % 2 = 0)) (h0 : 0 ≤ e) (h1 : e ≤ 970) :
    ∃ R M P f0 z0, d_step3_pos c m e s acc = .ok (⟨R, P, M, f0, z0, 0, 0⟩, (dq e : Int)) ∧
      Init (num e (dq e)) (den e (dq e)) m s R M P acc f0 z0 0 := by
  obtain ⟨b, d, f1, f2, f3, f4, f5, f6, f7, f8, f9, f10⟩ := dFacts (by omega) h1
  obtain ⟨t, t1, t2⟩ := d_products c hm0 hm hs hedge (by omega : -1076 ≤ e) h1
  have hq := dq_zero_of_pos h0
  have hA : num e (dq e) = 2 ^ (e.toNat - dq e) := by unfold num; rw [if_pos h0]
  have hB : den e (dq e) = 5 ^ dq e := by unfold den; rw [if_pos h0]
  have hsh : ((dShift e (dq e) : Nat) : Int) = -e + (dq e : Int) + (125 + ((p5b (dq e) : Nat) : Int) - 1) := by
    unfold dShift at f3 ⊢
    rw [if_pos h0] at f3 ⊢
    omega
  have ht : dTable e = DOUBLE_POW5_INV_SPLIT := by unfold dTable; rw [if_pos h0]
  have hix : dIndex e (dq e) = dq e := by unfold dIndex; rw [if_pos h0]
  rw [ht, hix] at t1
  have hsub : subw 32 (e.toNat * 78913 / 2 ^ 18) (if e > 3 then 1 else 0) = dq e := by
    rw [hq]
    apply subw_of_le
    · split <;> omega
    · omega
  have hdq : dq e ≤ 3528 := by rw [hq]; omega
  have hI := posFlags_init (Q0 := 21) (q := dq e) (E := e.toNat - dq e) (m := m) (s := s) (acc := acc) (last := 0)
    (by rw [← hA, ← hB]; exact f7) hm0 hs (d_big hm0 hm hs hedge hacc) (Or.inl rfl)
    (fun P p1 p2 => (d_last (q := dq e) (by rw [← hA, ← hB]; exact f8) (by intro h; rw [h]; rfl) (by positivity) hm0 P p1 p2).1)
  rw [hA, hB]
  rw [hA, hB] at t2
  refine ⟨_, _, _, _, _, ?_, hI⟩
  unfold d_step3_pos
  dsimp only
  rw [log10Pow2_eq c h0 (by omega), Exec.ok_bind, hsub, pow5bits_eq c hdq, Exec.ok_bind, t1, Exec.ok_bind, ← hsh, t2,
    Exec.ok_bind]
  dsimp only
  generalize 4 * m * 2 ^ (e.toNat - dq e) / 5 ^ dq e = R at *
  generalize (4 * m - 1 - s) * 2 ^ (e.toNat - dq e) / 5 ^ dq e = M at *
  have hvp : (4 * m + 2) * 2 ^ (e.toNat - dq e) / 5 ^ dq e < 2 ^ 64 := by
    rw [← hA, ← hB]
    exact lt_of_le_of_lt (floor_lt (den_pos _ _) f9 (show 4 * m + 2 ≤ 2 ^ 55 by omega)) (by norm_num)
  have hvp1 : 1 ≤ (4 * m + 2) * 2 ^ (e.toNat - dq e) / 5 ^ dq e := by
    rw [Nat.le_div_iff_mul_le (by positivity), one_mul, ← hA, ← hB]
    exact le_trans f7 (Nat.le_mul_of_pos_left _ (by omega))
  generalize (4 * m + 2) * 2 ^ (e.toNat - dq e) / 5 ^ dq e = V at *
  unfold posFlags
  rw [wrap_of_lt (show 4 * m < 2 ^ 64 by omega), div5_eq c (by omega), rem32_eq (by norm_num) (by norm_num)]
  by_cases g1 : dq e ≤ 21
  · simp only [if_pos g1]
    by_cases g2 : 4 * m % 5 = 0
    · simp only [if_pos g2]
      rw [multipleOfPowerOf5_eq c (by omega) (by omega), Exec.ok_bind]
    · simp only [if_neg g2]
      cases acc
      · rw [if_neg (by simp), wrap_of_lt (by omega), multipleOfPowerOf5_eq c (by omega) (by omega), Exec.ok_bind]
        simp only [Bool.false_eq_true, if_false, decide_eq_true_eq]
        rw [subw_of_le (by split <;> omega) hvp]
      · rw [if_pos rfl, subw_of_le (show 1 ≤ 4 * m by omega) (by omega), subw_of_le (by omega) (by omega),
          multipleOfPowerOf5_eq c (by omega) (by omega), Exec.ok_bind]
        simp only [if_true]
  · simp only [if_neg g1]

theorem d_step3_neg_spec (c : Config) {m s : Nat} {e : Int} {acc : Bool} (hm0 : 0 < m) (hm : m < 2 ^ 53) (hs : s ≤ 1)
    (hedge : s = 0 → m = 2 ^ 52) (h0 : -1076 ≤ e) (h1 : e < 0) :
    ∃ R M P f0 z0, d_step3_neg c m e s acc = .ok (⟨R, P, M, f0, z0, 0, 0⟩, (dq e : Int) + e) ∧
      Init (num e (dq e)) (den e (dq e)) m s R M P acc f0 z0 0 := by
  obtain ⟨b, d, f1, f2, f3, f4, f5, f6, f7, f8, f9, f10⟩ := dFacts h0 (by omega)
  obtain ⟨t, t1, t2⟩ := d_products c hm0 hm hs hedge h0 (by omega : e ≤ 970)
  have hq := dq_of_neg h1
  have hn : ¬ 0 ≤ e := by omega
  have hA : num e (dq e) = 5 ^ ((-e).toNat - dq e) := by unfold num; rw [if_neg hn]
  have hB : den e (dq e) = 2 ^ dq e := by unfold den; rw [if_neg hn]
  have hsub : subw 32 ((-e).toNat * 732923 / 2 ^ 20) (if -e > 1 then 1 else 0) = dq e := by
    rw [hq]
    apply subw_of_le
    · split <;> omega
    · omega
  have hi : -e - (dq e : Int) = (((-e).toNat - dq e : Nat) : Int) := by omega
  have hi0 : 0 < (-e).toNat - dq e := by rw [hq]; omega
  have hsh : ((dShift e (dq e) : Nat) : Int) =
      (dq e : Int) - (((p5b ((-e).toNat - dq e) : Nat) : Int) - 125) := by
    unfold dShift at f3 ⊢
    rw [if_neg hn] at f3 ⊢
    omega
  have ht : dTable e = DOUBLE_POW5_SPLIT := by unfold dTable; rw [if_neg hn]
  have hix : dIndex e (dq e) = (-e).toNat - dq e := by unfold dIndex; rw [if_neg hn]
  rw [ht, hix] at t1
  have hbig : 63 ≤ dq e → ¬ 2 ^ (dq e - 0) ∣ 4 * m := by
    intro hq h
    obtain ⟨w, hw⟩ := dvd_trans (pow_dvd_pow 2 (show 55 ≤ dq e - 0 by omega)) h
    omega
  have hI := negFlags_init (k := 0) (Q1 := 63) (q := dq e) (i := (-e).toNat - dq e) (m := m) (s := s) (acc := acc)
    (last := 0) (by rw [← hA, ← hB]; exact f7) hm0 hs (by omega) hi0 hbig (Or.inl rfl)
    (fun P p1 p2 => d_last (q := dq e) (by rw [← hA, ← hB]; exact f8) (by intro h; rw [h]; rfl) (by positivity) hm0 P p1 p2)
  rw [hA, hB]
  rw [hA, hB] at t2
  refine ⟨_, _, _, _, _, ?_, hI⟩
  unfold d_step3_neg
  dsimp only
  rw [log10Pow5_eq c (by omega) (by omega), Exec.ok_bind, hsub, hi, pow5bits_eq c (by omega), Exec.ok_bind,
    u32_eq (by omega) (by omega), Int.toNat_natCast, t1, Exec.ok_bind, ← hsh, t2, Exec.ok_bind]
  dsimp only
  generalize 4 * m * 5 ^ ((-e).toNat - dq e) / 2 ^ dq e = R at *
  generalize (4 * m - 1 - s) * 5 ^ ((-e).toNat - dq e) / 2 ^ dq e = M at *
  have hvp : (4 * m + 2) * 5 ^ ((-e).toNat - dq e) / 2 ^ dq e < 2 ^ 64 := by
    rw [← hA, ← hB]
    exact lt_of_le_of_lt (floor_lt (den_pos _ _) f9 (show 4 * m + 2 ≤ 2 ^ 55 by omega)) (by norm_num)
  have hvp1 : 1 ≤ (4 * m + 2) * 5 ^ ((-e).toNat - dq e) / 2 ^ dq e := by
    rw [Nat.le_div_iff_mul_le (by positivity), one_mul, ← hA, ← hB]
    exact le_trans f7 (Nat.le_mul_of_pos_left _ (by omega))
  generalize (4 * m + 2) * 5 ^ ((-e).toNat - dq e) / 2 ^ dq e = V at *
  unfold negFlags
  rw [wrap_of_lt (show 4 * m < 2 ^ 64 by omega)]
  by_cases g1 : dq e ≤ 1
  · simp only [if_pos g1]
    cases acc
    · simp only [Bool.false_eq_true, if_false]
      rw [subw_of_le hvp1 hvp]
    · simp only [if_true]
  · simp only [if_neg g1]
    by_cases g2 : dq e < 63
    · simp only [if_pos g2]
      rw [multipleOfPowerOf2_eq c (by omega) (by omega), Exec.ok_bind, Nat.sub_zero]
    · simp only [if_neg g2]

end Grisu.Ryu
