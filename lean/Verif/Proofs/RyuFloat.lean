import Verif.Proofs.RyuDouble
import Verif.Proofs.RyuCerts32

/-!
# Ryu, single precision: step 3
-/

namespace Grisu.Ryu

/-- The facts about one exponent. -/
theorem fFacts (ft : Bool) {e : Int} (h0 : -151 ≤ e) (h1 : e ≤ 102) :
    ∃ v b d, FFacts ft e (fq e) (num e (fq e)) (den e (fq e)) (fShift ft e (fq e)) v b d := by
  have l0 : fCertsFull.length = 254 := by decide +kernel
  have l1 : fCertsSplit.length = 254 := by decide +kernel
  obtain ⟨j, hj⟩ : ∃ j : Nat, e = -151 + (j : Int) := ⟨(e + 151).toNat, by omega⟩
  have : ∃ b d, fCheck ft (-151 + (j : Int)) b d = true := by
    cases ft
    · exact checkFrom_sound _ _ _ _ fCertsSplit_ok j (by omega) (by omega)
    · exact checkFrom_sound _ _ _ _ fCertsFull_ok j (by omega) (by omega)
  obtain ⟨b, d, h⟩ := this
  rw [hj]
  exact ⟨_, b, d, fCheck_sound h⟩

theorem gFacts (ft : Bool) {e : Int} (h0 : -151 ≤ e) (h1 : e ≤ 102) :
    ∃ v b d, GFacts ft e (fq e) (num e (fq e)) (den e (fq e)) (gShift ft e (fq e)) v b d := by
  have l0 : gCertsFull.length = 254 := by decide +kernel
  have l1 : gCertsSplit.length = 254 := by decide +kernel
  obtain ⟨j, hj⟩ : ∃ j : Nat, e = -151 + (j : Int) := ⟨(e + 151).toNat, by omega⟩
  have : ∃ b d, gCheck ft (-151 + (j : Int)) b d = true := by
    cases ft
    · exact checkFrom_sound _ _ _ _ gCertsSplit_ok j (by omega) (by omega)
    · exact checkFrom_sound _ _ _ _ gCertsFull_ok j (by omega) (by omega)
  obtain ⟨b, d, h⟩ := this
  rw [hj]
  exact ⟨_, b, d, gCheck_sound h⟩

theorem mulPow5InvDivPow2_eq (c : Config) {m q v : Nat} {j : Int} (h : fTable c.floatTable true q = some v)
    (hv : v < 2 ^ 64) : mulPow5InvDivPow2 c m q j = mulShift32 c m v j := by
  unfold mulPow5InvDivPow2
  unfold fTable at h
  cases hf : c.floatTable
  · rw [hf] at h
    simp only [Bool.false_eq_true, if_false, if_true, Option.map_eq_some_iff] at h ⊢
    obtain ⟨t, h1, h2⟩ := h
    rw [at_eq h1, Exec.ok_bind, h2, wrap_of_lt hv]
  · rw [hf] at h
    simp only [if_true] at h ⊢
    rw [at_eq h, Exec.ok_bind]

theorem mulPow5divPow2_eq (c : Config) {m q v : Nat} {j : Int} (h : fTable c.floatTable false q = some v) :
    mulPow5divPow2 c m q j = mulShift32 c m v j := by
  unfold mulPow5divPow2
  unfold fTable at h
  cases hf : c.floatTable
  · rw [hf] at h
    simp only [Bool.false_eq_true, if_false, Option.map_eq_some_iff] at h ⊢
    obtain ⟨t, h1, h2⟩ := h
    rw [at_eq h1, Exec.ok_bind, h2]
  · rw [hf] at h
    simp only [Bool.false_eq_true, if_false, if_true] at h ⊢
    rw [at_eq h, Exec.ok_bind]

/-- One product. -/
theorem f_product (c : Config) {n A B v j b d : Nat} (hn : n ≤ 2 ^ 26) (hB : 0 < B) (hv : v < 2 ^ 64) (hj : 32 < j)
    (hj' : j < 64) (hc : CertCheck A B v (2 ^ j) b d (2 ^ 26)) (hA : A < 10 * B) :
    mulShift32 c n v (j : Int) = .ok (n * A / B) := by
  have fl := hc.floor_eq hB (by positivity) hn
  have hlt : n * A / B < 2 ^ 32 := lt_of_le_of_lt (floor_lt hB hA hn) (by norm_num)
  rw [mulShift32_eq c (by omega) hv (by omega) (by omega) (by rw [Int.toNat_natCast, fl]; exact hlt), Int.toNat_natCast,
    fl]

/-- The digit behind the point. -/
theorem f_digit (c : Config) {m A B v j b d : Nat} (hm : m < 2 ^ 24) (hB : 0 < B) (hv : v < 2 ^ 64) (hj : 32 < j)
    (hj' : j < 64) (hc : CertCheck (40 * A) B (4 * v) (2 ^ j) b d (2 ^ 24)) (hA : 3 * A < 11 * B) :
    mulShift32 c (4 * m) v (j : Int) = .ok (10 * (4 * m * A) / B) := by
  have fl := hc.floor_eq hB (by positivity) hm.le
  have e1 : m * (4 * v) = 4 * m * v := by ring
  have e2 : m * (40 * A) = 10 * (4 * m * A) := by ring
  rw [e1, e2] at fl
  have hlt : 10 * (4 * m * A) / B < 2 ^ 32 := by
    rw [Nat.div_lt_iff_lt_mul hB]
    have : m * A * 3 ≤ 2 ^ 24 * (11 * B) := by
      rw [mul_assoc, mul_comm A]
      exact Nat.mul_le_mul hm.le hA.le
    have e3 : 10 * (4 * m * A) * 3 = 40 * (m * A * 3) := by ring
    omega
  rw [mulShift32_eq c (by omega) hv (by omega) (by omega) (by rw [Int.toNat_natCast, fl]; exact hlt), Int.toNat_natCast,
    fl]

/-- When the digit behind the point is needed the scale is small. -/
theorem f_narrow {A B m s : Nat} (hB : 0 < B) (hm : 0 < m) (hs : s ≤ 1)
    (h : ((4 * m + 2) * A / B - 1) / 10 ≤ (4 * m - 1 - s) * A / B / 10) : (3 + s) * A < 11 * B := by
  by_contra hA
  have h1 : (4 * m - 1 - s) * A / B + 11 ≤ (4 * m + 2) * A / B := by
    rw [← Nat.add_mul_div_left _ _ hB]
    apply Nat.div_le_div_right
    have : (4 * m + 2) * A = (4 * m - 1 - s) * A + (3 + s) * A := by
      rw [← Nat.add_mul]; congr 1; omega
    rw [this]
    omega
  omega

theorem fq_of_pos {e : Int} (h : 0 ≤ e) : fq e = e.toNat * 78913 / 2 ^ 18 := by unfold fq; rw [if_pos h]

theorem fq_of_neg {e : Int} (h : e < 0) : fq e = (-e).toNat * 732923 / 2 ^ 20 := by unfold fq; rw [if_neg (by omega)]

theorem invBits_eq (c : Config) : float_pow5_inv_bitcount c = (invBits c.floatTable : Nat) := by
  unfold float_pow5_inv_bitcount invBits
  split <;> simp

theorem bitcount_eq (c : Config) : float_pow5_bitcount c = 61 := by
  unfold float_pow5_bitcount
  split <;> simp

/-- `lastRemovedDigit` before the loops. -/
def lastDigit (q m s A B : Nat) : Nat :=
  if q ≠ 0 ∧ ((4 * m + 2) * A / B - 1) / 10 ≤ (4 * m - 1 - s) * A / B / 10 then 10 * (4 * m * A) / B % 10 else 0

theorem lastDigit_or (q m s A B : Nat) : lastDigit q m s A B = 0 ∨ lastDigit q m s A B = 10 * (4 * m * A) / B % 10 := by
  unfold lastDigit
  split
  · exact Or.inr rfl
  · exact Or.inl rfl

theorem lastDigit_stop {q m s A B : Nat} (hq : q = 0 → B = 1) :
    ∀ P, (4 * m + 2) * A / B - 1 ≤ P → P / 10 ≤ (4 * m - 1 - s) * A / B / 10 →
      lastDigit q m s A B = 10 * (4 * m * A) / B % 10 := by
  intro P h1 h2
  unfold lastDigit
  by_cases h : q = 0
  · rw [if_neg (by omega), hq h, Nat.div_one, Nat.mul_mod_right]
  · rw [if_pos ⟨h, by omega⟩]

theorem f_big {q m s : Nat} {acc : Bool} (hm0 : 0 < m) (hm : m < 2 ^ 24) (hs : s ≤ 1) (hedge : s = 0 → m = 2 ^ 23) :
    9 < q → ¬ 5 ^ (q + 1) ∣ 4 * m ∧ (acc = false → ¬ 5 ^ (q + 1) ∣ 4 * m + 2) ∧
      (acc = true → ¬ 5 ^ (q + 1) ∣ 4 * m - 1 - s) := by
  intro hq
  have h11 : ∀ n, 5 ^ (q + 1) ∣ n → 48828125 ∣ n := fun n h => dvd_trans (pow_dvd_pow 5 (by omega : 11 ≤ q + 1)) h
  refine ⟨fun h => ?_, fun _ h => ?_, fun _ h => ?_⟩
  · obtain ⟨w, hw⟩ := h11 _ h
    clear h h11 hedge
    omega
  · obtain ⟨w, hw⟩ := h11 _ h
    clear h h11 hedge
    omega
  · obtain ⟨w, hw⟩ := h11 _ h
    rcases Nat.lt_or_ge s 1 with h0 | h0
    · have := hedge (Nat.lt_one_iff.mp h0)
      clear h h11 hedge
      omega
    · clear h h11 hedge
      omega

theorem f_step3_pos_spec (c : Config) {m s : Nat} {e : Int} {acc : Bool} (hm0 : 0 < m) (hm : m < 2 ^ 24) (hs : s ≤ 1)
    (hedge : s = 0 → m = 2 ^ 23) (h0 : 0 ≤ e) (h1 : e ≤ 102) :
    ∃ R M P f0 z0 last, f_step3_pos c m e s acc = .ok (⟨R, P, M, f0, z0, last, 0⟩, (fq e : Int)) ∧
      Init (num e (fq e)) (den e (fq e)) m s R M P acc f0 z0 last := by
  obtain ⟨v, b, d, f1, f2, f3, f4, f5, f6, f7, f8⟩ := fFacts c.floatTable (by omega : -151 ≤ e) h1
  obtain ⟨v', b', d', g⟩ := gFacts c.floatTable (by omega : -151 ≤ e) h1
  have hq := fq_of_pos h0
  have hA : num e (fq e) = 2 ^ (e.toNat - fq e) := by unfold num; rw [if_pos h0]
  have hB : den e (fq e) = 5 ^ fq e := by unfold den; rw [if_pos h0]
  have hsh : ((fShift c.floatTable e (fq e) : Nat) : Int) =
      -e + (fq e : Int) + ((invBits c.floatTable : Nat) + ((p5b (fq e) : Nat) : Int) - 1) := by
    have hib : 1 ≤ invBits c.floatTable := by unfold invBits; split <;> norm_num
    unfold fShift at f3 ⊢
    rw [if_pos h0] at f3 ⊢
    omega
  rw [decide_eq_true h0] at f1
  have hix : fIndex e (fq e) = fq e := by unfold fIndex; rw [if_pos h0]
  rw [hix] at f1
  have hBp := den_pos e (fq e)
  have hprod : ∀ n, n ≤ 2 ^ 26 → mulPow5InvDivPow2 c n (fq e) (fShift c.floatTable e (fq e) : Nat) =
      .ok (n * num e (fq e) / den e (fq e)) := by
    intro n hn
    rw [mulPow5InvDivPow2_eq c f1 f2, f_product c hn hBp f2 f3 f4 f5 f7]
  have hvp : (4 * m + 2) * num e (fq e) / den e (fq e) < 2 ^ 32 :=
    lt_of_le_of_lt (floor_lt hBp f7 (show 4 * m + 2 ≤ 2 ^ 26 by omega)) (by norm_num)
  have hvp1 : 1 ≤ (4 * m + 2) * num e (fq e) / den e (fq e) := by
    rw [Nat.le_div_iff_mul_le hBp, one_mul]
    exact le_trans f6 (Nat.le_mul_of_pos_left _ (by omega))
  have hI := posFlags_init (Q0 := 9) (q := fq e) (E := e.toNat - fq e) (m := m) (s := s) (acc := acc)
    (last := lastDigit (fq e) m s (2 ^ (e.toNat - fq e)) (5 ^ fq e))
    (by rw [← hA, ← hB]; exact f6) hm0 hs (f_big hm0 hm hs hedge) (lastDigit_or _ _ _ _ _)
    (lastDigit_stop (by intro h; rw [h]; rfl))
  rw [← hA, ← hB] at hI
  refine ⟨_, _, _, _, _, _, ?_, hI⟩
  unfold f_step3_pos
  dsimp only
  rw [wrap_of_lt (show 4 * m < 2 ^ 32 by omega), wrap_of_lt (show 4 * m + 2 < 2 ^ 32 by omega),
    subw_of_le (show 1 ≤ 4 * m by omega) (by omega), subw_of_le (show s ≤ 4 * m - 1 by omega) (by omega),
    log10Pow2_eq c h0 (by omega), Exec.ok_bind, ← hq, pow5bits_eq c (by omega), Exec.ok_bind, invBits_eq, ← hsh,
    hprod _ (by omega), Exec.ok_bind, hprod _ (by omega), Exec.ok_bind, hprod _ (by omega), Exec.ok_bind,
    subw_of_le hvp1 hvp]
  have hlast : (if fq e ≠ 0 ∧ ((4 * m + 2) * num e (fq e) / den e (fq e) - 1) / 10 ≤
        (4 * m - 1 - s) * num e (fq e) / den e (fq e) / 10 then (do
        let l := (invBits c.floatTable : Nat) + (← pow5bits c (subw 32 (fq e) 1)) - 1
        let r ← mulPow5InvDivPow2 c (4 * m) (subw 32 (fq e) 1) (-e + (fq e : Int) - 1 + l)
        .ok (wrap 8 (r % 10)) : Exec Nat)
      else .ok 0 : Exec Nat) = .ok (lastDigit (fq e) m s (num e (fq e)) (den e (fq e))) := by
    unfold lastDigit
    by_cases hc : fq e ≠ 0 ∧ ((4 * m + 2) * num e (fq e) / den e (fq e) - 1) / 10 ≤
        (4 * m - 1 - s) * num e (fq e) / den e (fq e) / 10
    · have hnar := f_narrow hBp hm0 hs hc.2
      have hnar3 : 3 * num e (fq e) < 11 * den e (fq e) :=
        lt_of_le_of_lt (Nat.mul_le_mul_right _ (by omega)) hnar
      rcases g with g | g | g | ⟨g1, g2, g3, g4, g5⟩
      · exact absurd g hc.1
      · omega
      · omega
      rw [decide_eq_true h0] at g1
      have hgx : gIndex e (fq e) = fq e - 1 := by unfold gIndex; rw [if_pos h0]
      rw [hgx] at g1
      have hgs : ((gShift c.floatTable e (fq e) : Nat) : Int) =
          -e + (fq e : Int) - 1 + ((invBits c.floatTable : Nat) + ((p5b (fq e - 1) : Nat) : Int) - 1) := by
        have hib : 1 ≤ invBits c.floatTable := by unfold invBits; split <;> norm_num
        unfold gShift at g3 ⊢
        rw [if_pos h0] at g3 ⊢
        omega
      rw [if_pos hc, if_pos hc, subw_of_le (by omega) (by omega), pow5bits_eq c (by omega), Exec.ok_bind]
      dsimp only
      rw [← hgs, mulPow5InvDivPow2_eq c g1 g2, f_digit c hm hBp g2 g3 g4 g5 hnar3, Exec.ok_bind, wrap_of_lt (by omega)]
    · rw [if_neg hc, if_neg hc]
  dsimp only at hlast
  rw [hlast, Exec.ok_bind]
  generalize 4 * m * num e (fq e) / den e (fq e) = R at *
  generalize (4 * m - 1 - s) * num e (fq e) / den e (fq e) = M at *
  generalize (4 * m + 2) * num e (fq e) / den e (fq e) = V at *
  unfold posFlags
  by_cases g1 : fq e ≤ 9
  · simp only [if_pos g1]
    by_cases g2 : 4 * m % 5 = 0
    · simp only [if_pos g2]
      rw [multipleOfPowerOf5_32_eq c (by omega) (by omega), Exec.ok_bind]
    · simp only [if_neg g2]
      cases acc
      · rw [if_neg (by simp), multipleOfPowerOf5_32_eq c (by omega) (by omega), Exec.ok_bind]
        simp only [Bool.false_eq_true, if_false, decide_eq_true_eq]
        rw [subw_of_le (by split <;> omega) hvp]
      · rw [if_pos rfl, multipleOfPowerOf5_32_eq c (by omega) (by omega), Exec.ok_bind]
        simp only [if_true]
  · simp only [if_neg g1]

theorem f_step3_neg_spec (c : Config) {m s : Nat} {e : Int} {acc : Bool} (hm0 : 0 < m) (hm : m < 2 ^ 24) (hs : s ≤ 1)
    (hmin : e = -151 → s = 1) (h0 : -151 ≤ e) (h1 : e < 0) :
    ∃ R M P f0 z0 last, f_step3_neg c m e s acc = .ok (⟨R, P, M, f0, z0, last, 0⟩, (fq e : Int) + e) ∧
      Init (num e (fq e)) (den e (fq e)) m s R M P acc f0 z0 last := by
  obtain ⟨v, b, d, f1, f2, f3, f4, f5, f6, f7, f8⟩ := fFacts c.floatTable h0 (by omega : e ≤ 102)
  obtain ⟨v', b', d', g⟩ := gFacts c.floatTable h0 (by omega : e ≤ 102)
  have hn : ¬ 0 ≤ e := by omega
  have hq := fq_of_neg h1
  have hA : num e (fq e) = 5 ^ ((-e).toNat - fq e) := by unfold num; rw [if_neg hn]
  have hB : den e (fq e) = 2 ^ fq e := by unfold den; rw [if_neg hn]
  have hi : -e - (fq e : Int) = (((-e).toNat - fq e : Nat) : Int) := by omega
  have hi0 : 0 < (-e).toNat - fq e := by rw [hq]; omega
  have hsh : ((fShift c.floatTable e (fq e) : Nat) : Int) =
      (fq e : Int) - (((p5b ((-e).toNat - fq e) : Nat) : Int) - 61) := by
    unfold fShift at f3 ⊢
    rw [if_neg hn] at f3 ⊢
    omega
  rw [decide_eq_false hn] at f1
  have hix : fIndex e (fq e) = (-e).toNat - fq e := by unfold fIndex; rw [if_neg hn]
  rw [hix] at f1
  have hBp := den_pos e (fq e)
  have hprod : ∀ n, n ≤ 2 ^ 26 → mulPow5divPow2 c n ((-e).toNat - fq e) (fShift c.floatTable e (fq e) : Nat) =
      .ok (n * num e (fq e) / den e (fq e)) := by
    intro n hn
    rw [mulPow5divPow2_eq c f1, f_product c hn hBp f2 f3 f4 f5 f7]
  have hvp : (4 * m + 2) * num e (fq e) / den e (fq e) < 2 ^ 32 :=
    lt_of_le_of_lt (floor_lt hBp f7 (show 4 * m + 2 ≤ 2 ^ 26 by omega)) (by norm_num)
  have hvp1 : 1 ≤ (4 * m + 2) * num e (fq e) / den e (fq e) := by
    rw [Nat.le_div_iff_mul_le hBp, one_mul]
    exact le_trans f6 (Nat.le_mul_of_pos_left _ (by omega))
  have hbig : 31 ≤ fq e → ¬ 2 ^ (fq e - 1) ∣ 4 * m := by
    intro hq h
    obtain ⟨w, hw⟩ := dvd_trans (pow_dvd_pow 2 (show 30 ≤ fq e - 1 by omega)) h
    omega
  have hI := negFlags_init (k := 1) (Q1 := 31) (q := fq e) (i := (-e).toNat - fq e) (m := m) (s := s) (acc := acc)
    (last := lastDigit (fq e) m s (5 ^ ((-e).toNat - fq e)) (2 ^ fq e))
    (by rw [← hA, ← hB]; exact f6) hm0 hs le_rfl hi0 hbig (lastDigit_or _ _ _ _ _)
    (fun P p1 p2 => ⟨lastDigit_stop (by intro h; rw [h]; rfl) P p1 p2, Or.inl rfl⟩)
  rw [← hA, ← hB] at hI
  refine ⟨_, _, _, _, _, _, ?_, hI⟩
  unfold f_step3_neg
  dsimp only
  rw [wrap_of_lt (show 4 * m < 2 ^ 32 by omega), wrap_of_lt (show 4 * m + 2 < 2 ^ 32 by omega),
    subw_of_le (show 1 ≤ 4 * m by omega) (by omega), subw_of_le (show s ≤ 4 * m - 1 by omega) (by omega),
    log10Pow5_eq c (by omega) (by omega), Exec.ok_bind, ← hq, hi, pow5bits_eq c (by omega), Exec.ok_bind, bitcount_eq,
    ← hsh, u32_eq (by omega) (by omega), Int.toNat_natCast,
    hprod _ (by omega), Exec.ok_bind, hprod _ (by omega), Exec.ok_bind, hprod _ (by omega), Exec.ok_bind,
    subw_of_le hvp1 hvp]
  have hi1 : (((-e).toNat - fq e : Nat) : Int) + 1 = (((-e).toNat - fq e + 1 : Nat) : Int) := by push_cast; rfl
  rw [hi1]
  have hlast : (if fq e ≠ 0 ∧ ((4 * m + 2) * num e (fq e) / den e (fq e) - 1) / 10 ≤
        (4 * m - 1 - s) * num e (fq e) / den e (fq e) / 10 then (do
        let j := (fq e : Int) - 1 - ((← pow5bits c (((-e).toNat - fq e + 1 : Nat) : Int)) - 61)
        let r ← mulPow5divPow2 c (4 * m) (u32 (((-e).toNat - fq e + 1 : Nat) : Int)) j
        .ok (wrap 8 (r % 10)) : Exec Nat)
      else .ok 0 : Exec Nat) = .ok (lastDigit (fq e) m s (num e (fq e)) (den e (fq e))) := by
    unfold lastDigit
    by_cases hc : fq e ≠ 0 ∧ ((4 * m + 2) * num e (fq e) / den e (fq e) - 1) / 10 ≤
        (4 * m - 1 - s) * num e (fq e) / den e (fq e) / 10
    · have hnar := f_narrow hBp hm0 hs hc.2
      have hnar3 : 3 * num e (fq e) < 11 * den e (fq e) :=
        lt_of_le_of_lt (Nat.mul_le_mul_right _ (by omega)) hnar
      rcases g with g | g | ⟨g, g'⟩ | ⟨g1, g2, g3, g4, g5⟩
      · exact absurd g hc.1
      · omega
      · rw [hmin g] at hnar
        omega
      rw [decide_eq_false hn] at g1
      have hgx : gIndex e (fq e) = (-e).toNat - fq e + 1 := by unfold gIndex; rw [if_neg hn]
      rw [hgx] at g1
      have hgs : ((gShift c.floatTable e (fq e) : Nat) : Int) =
          (fq e : Int) - 1 - (((p5b ((-e).toNat - fq e + 1) : Nat) : Int) - 61) := by
        unfold gShift at g3 ⊢
        rw [if_neg hn] at g3 ⊢
        omega
      rw [if_pos hc, if_pos hc, pow5bits_eq c (by omega), Exec.ok_bind]
      dsimp only
      rw [← hgs, u32_eq (by omega) (by omega), Int.toNat_natCast, mulPow5divPow2_eq c g1,
        f_digit c hm hBp g2 g3 g4 g5 hnar3, Exec.ok_bind, wrap_of_lt (by omega)]
    · rw [if_neg hc, if_neg hc]
  dsimp only at hlast
  rw [hlast, Exec.ok_bind]
  generalize 4 * m * num e (fq e) / den e (fq e) = R at *
  generalize (4 * m - 1 - s) * num e (fq e) / den e (fq e) = M at *
  generalize (4 * m + 2) * num e (fq e) / den e (fq e) = V at *
  unfold negFlags
  by_cases g1 : fq e ≤ 1
  · simp only [if_pos g1]
    cases acc
    · simp only [Bool.false_eq_true, if_false]
    · simp only [if_true]
  · simp only [if_neg g1]
    by_cases g2 : fq e < 31
    · simp only [if_pos g2]
      rw [subw_of_le (by omega) (by omega), multipleOfPowerOf2_32_eq (by omega), Exec.ok_bind]
    · simp only [if_neg g2]

end Grisu.Ryu
