import Verif.Proofs.RyuSizeExp

/-! # Ryu with `RYU_OPTIMIZE_SIZE`, single precision: step 3 -/

namespace Grisu.Ryu

/-- The factor at index `k`. -/
def fTableS (inv : Bool) (k : Nat) : Nat := if inv then inv_want k / 2 ^ 64 + 1 else pow_want k / 2 ^ 64

/-- The range in which the factors are right. -/
def fRangeS (inv : Bool) (k : Nat) : Prop := if inv then k < 292 else k < 326

instance (inv : Bool) (k : Nat) : Decidable (fRangeS inv k) := by unfold fRangeS; infer_instance

def fShiftS (e : Int) (q : Nat) : Nat :=
  if 0 ≤ e then 57 + p5b q + q - e.toNat else q + 57 - p5b ((-e).toNat - q)

def FFactsS (e : Int) (q A B j v b d : Nat) : Prop :=
  fRangeS (decide (0 ≤ e)) (fIndex e q) ∧ v < 2 ^ 64 ∧ 32 < j ∧ j < 64 ∧ CertCheck A B v (2 ^ j) b d (2 ^ 26)

instance (e : Int) (q A B j v b d : Nat) : Decidable (FFactsS e q A B j v b d) := by
  unfold FFactsS; infer_instance

def fCheckS (e : Int) (b d : Nat) : Bool :=
  force (fq e) fun q => force (num e q) fun A => force (den e q) fun B => force (fShiftS e q) fun j =>
  force (fTableS (decide (0 ≤ e)) (fIndex e q)) fun v => decide (FFactsS e q A B j v b d)

theorem fCheckS_sound {e : Int} {b d : Nat} (h : fCheckS e b d = true) :
    FFactsS e (fq e) (num e (fq e)) (den e (fq e)) (fShiftS e (fq e)) (fTableS (decide (0 ≤ e)) (fIndex e (fq e))) b d := by
  simpa only [fCheckS, force_eq, decide_eq_true_iff] using h

def gShiftS (e : Int) (q : Nat) : Nat :=
  if 0 ≤ e then 57 + p5b (q - 1) + (q - 1) - e.toNat else q - 1 + 57 - p5b ((-e).toNat - q + 1)

/-- The exponents for which the precision of the digit behind the point is not enough. -/
def gExc : List Int := [-141, -115, -83, -82]

def GFactsS (e : Int) (q A B j v b d : Nat) : Prop :=
  q = 0 ∨ 11 * B ≤ 3 * A ∨ (e = -151 ∧ 11 * B ≤ 4 * A) ∨
  (fRangeS (decide (0 ≤ e)) (gIndex e q) ∧ v < 2 ^ 64 ∧ 32 < j ∧ j < 64 ∧
    (e ∈ gExc ∨ CertCheck (40 * A) B (4 * v) (2 ^ j) b d (2 ^ 24)))

instance (e : Int) (q A B j v b d : Nat) : Decidable (GFactsS e q A B j v b d) := by
  unfold GFactsS; infer_instance

def gCheckS (e : Int) (b d : Nat) : Bool :=
  force (fq e) fun q => force (num e q) fun A => force (den e q) fun B => force (gShiftS e q) fun j =>
  force (fTableS (decide (0 ≤ e)) (gIndex e q)) fun v => decide (GFactsS e q A B j v b d)

theorem gCheckS_sound {e : Int} {b d : Nat} (h : gCheckS e b d = true) :
    GFactsS e (fq e) (num e (fq e)) (den e (fq e)) (gShiftS e (fq e)) (fTableS (decide (0 ≤ e)) (gIndex e (fq e))) b d := by
  simpa only [gCheckS, force_eq, decide_eq_true_iff] using h

set_option maxRecDepth 100000 in
theorem fCerts_okS : checkFrom (-151) fCheckS 0 fCertsSplit = true := by decide +kernel

set_option maxRecDepth 100000 in
theorem gCerts_okS : checkFrom (-151) gCheckS 0 gCertsSplit = true := by decide +kernel

theorem fFactsS {e : Int} (h0 : -151 ≤ e) (h1 : e ≤ 102) :
    ∃ b d, FFactsS e (fq e) (num e (fq e)) (den e (fq e)) (fShiftS e (fq e)) (fTableS (decide (0 ≤ e)) (fIndex e (fq e))) b d := by
  have l1 : fCertsSplit.length = 254 := by decide +kernel
  obtain ⟨j, hj⟩ : ∃ j : Nat, e = -151 + (j : Int) := ⟨(e + 151).toNat, by omega⟩
  obtain ⟨b, d, h⟩ := checkFrom_sound _ _ _ _ fCerts_okS j (by omega) (by omega)
  rw [hj]
  exact ⟨b, d, fCheckS_sound h⟩

theorem gFactsS {e : Int} (h0 : -151 ≤ e) (h1 : e ≤ 102) :
    ∃ b d, GFactsS e (fq e) (num e (fq e)) (den e (fq e)) (gShiftS e (fq e)) (fTableS (decide (0 ≤ e)) (gIndex e (fq e))) b d := by
  have l1 : gCertsSplit.length = 254 := by decide +kernel
  obtain ⟨j, hj⟩ : ∃ j : Nat, e = -151 + (j : Int) := ⟨(e + 151).toNat, by omega⟩
  obtain ⟨b, d, h⟩ := checkFrom_sound _ _ _ _ gCerts_okS j (by omega) (by omega)
  rw [hj]
  exact ⟨b, d, gCheckS_sound h⟩

theorem mulPow5InvDivPow2_size_eq (c : Config) (hf : c.floatTable = false) {m q : Nat} {j : Int} (h : fRangeS true q)
    (hv : fTableS true q < 2 ^ 64) : mulPow5InvDivPow2_size c m q j = mulShift32 c m (fTableS true q) j := by
  have h' : q < 292 := h
  obtain ⟨t, t1, t2, t3, t4⟩ := inv_at c (show q < 313 by omega)
  rw [isShort_inv h'] at t4
  have e : t.2 + 1 = fTableS true q := by
    unfold fTableS
    rw [if_pos rfl, ← t4]
    unfold words
    omega
  unfold mulPow5InvDivPow2_size
  rw [hf, if_neg (by simp), t1, Exec.ok_bind, e, wrap_of_lt hv]

theorem mulPow5divPow2_size_eq (c : Config) (hf : c.floatTable = false) {m q : Nat} {j : Int} (h : fRangeS false q) :
    mulPow5divPow2_size c m q j = mulShift32 c m (fTableS false q) j := by
  have h' : q < 326 := h
  obtain ⟨t, t1, t2, t3, t4⟩ := pow_at c (show q < 338 by omega)
  rw [isShort_pow h'] at t4
  have e : t.2 = fTableS false q := by
    unfold fTableS
    rw [if_neg (by simp), ← t4]
    unfold words
    omega
  unfold mulPow5divPow2_size
  rw [hf, if_neg (by simp), t1, Exec.ok_bind, e]

/-- The digit behind the point. -/
theorem f_digit_of (c : Config) {m A B v j : Nat} (hm : m < 2 ^ 24) (hB : 0 < B) (hv : v < 2 ^ 64) (hj : 32 < j)
    (hj' : j < 64) (fl : m * (4 * v) / 2 ^ j = m * (40 * A) / B) (hA : 3 * A < 11 * B) :
    mulShift32 c (4 * m) v (j : Int) = .ok (10 * (4 * m * A) / B) := by
  have e1 : m * (4 * v) = 4 * m * v := by ring
  have e2 : m * (40 * A) = 10 * (4 * m * A) := by ring
  rw [e1, e2] at fl
  have hlt : 10 * (4 * m * A) / B < 2 ^ 32 := by
    rw [Nat.div_lt_iff_lt_mul hB]
    have : m * A * 3 ≤ 2 ^ 24 * (11 * B) := by
      rw [mul_assoc, mul_comm A]
      exact Nat.mul_le_mul hm.le hA.le
    have e3 : 10 * (4 * m * A) * 3 = 40 * (m * A * 3) := by ring
    omega
  rw [mulShift32_eq c (by omega) hv (by omega) (by omega) (by rw [Int.toNat_natCast, fl]; exact hlt), Int.toNat_natCast,
    fl]

/-- The four numbers whose digit behind the point is not right. -/
def gBad (e : Int) (m : Nat) : Prop :=
  (e = -141 ∧ 16226928 ∣ m) ∨ (e = -115 ∧ 15980504 ∣ m) ∨ (e = -83 ∧ 14855922 ∣ m) ∨ (e = -82 ∧ 7427961 ∣ m)

theorem g_floorS {e : Int} {m b d : Nat} (hm : m < 2 ^ 24) (hx : ¬ gBad e m)
    (h : e ∈ gExc ∨ CertCheck (40 * num e (fq e)) (den e (fq e)) (4 * fTableS (decide (0 ≤ e)) (gIndex e (fq e)))
      (2 ^ gShiftS e (fq e)) b d (2 ^ 24)) :
    m * (4 * fTableS (decide (0 ≤ e)) (gIndex e (fq e))) / 2 ^ gShiftS e (fq e) =
      m * (40 * num e (fq e)) / den e (fq e) := by
  have hm' : m < 16777216 := hm
  rcases h with h | h
  · simp only [gExc, List.mem_cons, List.not_mem_nil, or_false] at h
    rcases h with h | h | h | h
    · have y : ¬ 16226928 ∣ m := fun hd => hx (Or.inl ⟨h, hd⟩)
      subst h
      exact floor_skip (a1 := 522597783) (b1 := 3641975) (a := 2328449975) (b := 16226928) (a2 := 1805852192)
        (b2 := 12584953) (by decide +kernel) (by decide +kernel) (by norm_num) (by norm_num) (by decide +kernel)
        (by decide +kernel) (by norm_num) (by decide +kernel) (by decide +kernel) (by norm_num) (by omega) (by omega) y
    · have y : ¬ 15980504 ∣ m := fun hd => hx (Or.inr (Or.inl ⟨h, hd⟩))
      subst h
      exact floor_skip (a1 := 1430107658) (b1 := 14851087) (a := 1538866559) (b := 15980504) (a2 := 108758901)
        (b2 := 1129417) (by decide +kernel) (by decide +kernel) (by norm_num) (by norm_num) (by decide +kernel)
        (by decide +kernel) (by norm_num) (by decide +kernel) (by decide +kernel) (by norm_num) (by omega) (by omega) y
    · have y : ¬ 14855922 ∣ m := fun hd => hx (Or.inr (Or.inr (Or.inl ⟨h, hd⟩)))
      subst h
      exact floor_skip (a1 := 132719599) (b1 := 3208963) (a := 614426533) (b := 14855922) (a2 := 481706934)
        (b2 := 11646959) (by decide +kernel) (by decide +kernel) (by norm_num) (by norm_num) (by decide +kernel)
        (by decide +kernel) (by norm_num) (by decide +kernel) (by decide +kernel) (by norm_num) (by omega) (by omega) y
    · have y : ¬ 7427961 ∣ m := fun hd => hx (Or.inr (Or.inr (Or.inr ⟨h, hd⟩)))
      subst h
      exact floor_skip (a1 := 879865731) (b1 := 10636924) (a := 614426533) (b := 7427961) (a2 := 963413868)
        (b2 := 11646959) (by decide +kernel) (by decide +kernel) (by norm_num) (by norm_num) (by decide +kernel)
        (by decide +kernel) (by norm_num) (by decide +kernel) (by decide +kernel) (by norm_num) (by omega) (by omega) y
  · exact h.floor_eq (den_pos _ _) (by positivity) hm.le

/-! ## `e2 >= 0` -/

theorem f_products_pos (c : Config) {e : Int} (h0 : 0 ≤ e) (h1 : e ≤ 102) {n : Nat} (hn : n ≤ 2 ^ 26) :
    mulPow5InvDivPow2 c n (fq e) (-e + (fq e : Int) + (float_pow5_inv_bitcount c + ((p5b (fq e) : Nat) : Int) - 1)) =
      .ok (n * num e (fq e) / den e (fq e)) := by
  obtain ⟨v, b, d, f1, f2, f3, f4, f5, f6, f7, f8⟩ := fFacts c.floatTable (by omega : -151 ≤ e) h1
  have hsh : ((fShift c.floatTable e (fq e) : Nat) : Int) =
      -e + (fq e : Int) + ((invBits c.floatTable : Nat) + ((p5b (fq e) : Nat) : Int) - 1) := by
    have hib : 1 ≤ invBits c.floatTable := by unfold invBits; split <;> norm_num
    unfold fShift at f3 ⊢
    rw [if_pos h0] at f3 ⊢
    omega
  rw [decide_eq_true h0] at f1
  have hix : fIndex e (fq e) = fq e := by unfold fIndex; rw [if_pos h0]
  rw [hix] at f1
  rw [invBits_eq, ← hsh, mulPow5InvDivPow2_eq c f1 f2, f_product c hn (den_pos _ _) f2 f3 f4 f5 f7]

theorem f_products_posS (c : Config) (hf : c.floatTable = false) {e : Int} (h0 : 0 ≤ e) (h1 : e ≤ 102) {n : Nat}
    (hn : n ≤ 2 ^ 26) :
    mulPow5InvDivPow2_size c n (fq e)
      (-e + (fq e : Int) + (float_pow5_inv_bitcount_size c + ((p5b (fq e) : Nat) : Int) - 1)) =
      .ok (n * num e (fq e) / den e (fq e)) := by
  obtain ⟨-, -, -, -, -, -, -, -, -, f7, -⟩ := fFacts c.floatTable (by omega : -151 ≤ e) h1
  obtain ⟨b, d, f1, f2, f3, f4, f5⟩ := fFactsS (by omega : -151 ≤ e) h1
  have hsh : ((fShiftS e (fq e) : Nat) : Int) =
      -e + (fq e : Int) + (float_pow5_inv_bitcount_size c + ((p5b (fq e) : Nat) : Int) - 1) := by
    have hb : float_pow5_inv_bitcount_size c = 58 := by
      unfold float_pow5_inv_bitcount_size small_pow5_inv_bitcount; rw [hf]; simp
    rw [hb]
    unfold fShiftS at f3 ⊢
    rw [if_pos h0] at f3 ⊢
    omega
  have hix : fIndex e (fq e) = fq e := by unfold fIndex; rw [if_pos h0]
  rw [decide_eq_true h0, hix] at f1 f2 f5
  rw [← hsh, mulPow5InvDivPow2_size_eq c hf f1 f2, f_product c hn (den_pos _ _) f2 f3 f4 f5 f7]

theorem f_last_pos (c : Config) {m s : Nat} {e : Int} (hm0 : 0 < m) (hm : m < 2 ^ 24) (hs : s ≤ 1) (h0 : 0 ≤ e)
    (h1 : e ≤ 102) (hq : fq e ≠ 0)
    (hc : ((4 * m + 2) * num e (fq e) / den e (fq e) - 1) / 10 ≤ (4 * m - 1 - s) * num e (fq e) / den e (fq e) / 10) :
    mulPow5InvDivPow2 c (4 * m) (fq e - 1)
      (-e + (fq e : Int) - 1 + (float_pow5_inv_bitcount c + ((p5b (fq e - 1) : Nat) : Int) - 1)) =
      .ok (10 * (4 * m * num e (fq e)) / den e (fq e)) := by
  obtain ⟨v', b', d', g⟩ := gFacts c.floatTable (by omega : -151 ≤ e) h1
  have hBp := den_pos e (fq e)
  have hnar := f_narrow hBp hm0 hs hc
  have hnar3 : 3 * num e (fq e) < 11 * den e (fq e) :=
    lt_of_le_of_lt (Nat.mul_le_mul_right _ (by omega)) hnar
  rcases g with g | g | g | ⟨g1, g2, g3, g4, g5⟩
  · exact absurd g hq
  · omega
  · omega
  rw [decide_eq_true h0] at g1
  have hgx : gIndex e (fq e) = fq e - 1 := by unfold gIndex; rw [if_pos h0]
  rw [hgx] at g1
  have hgs : ((gShift c.floatTable e (fq e) : Nat) : Int) =
      -e + (fq e : Int) - 1 + ((invBits c.floatTable : Nat) + ((p5b (fq e - 1) : Nat) : Int) - 1) := by
    have hib : 1 ≤ invBits c.floatTable := by unfold invBits; split <;> norm_num
    unfold gShift at g3 ⊢
    rw [if_pos h0] at g3 ⊢
    omega
  rw [invBits_eq, ← hgs, mulPow5InvDivPow2_eq c g1 g2, f_digit c hm hBp g2 g3 g4 g5 hnar3]

theorem f_last_posS (c : Config) (hf : c.floatTable = false) {m s : Nat} {e : Int} (hm0 : 0 < m) (hm : m < 2 ^ 24)
    (hs : s ≤ 1) (h0 : 0 ≤ e) (h1 : e ≤ 102) (hq : fq e ≠ 0)
    (hc : ((4 * m + 2) * num e (fq e) / den e (fq e) - 1) / 10 ≤ (4 * m - 1 - s) * num e (fq e) / den e (fq e) / 10) :
    mulPow5InvDivPow2_size c (4 * m) (fq e - 1)
      (-e + (fq e : Int) - 1 + (float_pow5_inv_bitcount_size c + ((p5b (fq e - 1) : Nat) : Int) - 1)) =
      .ok (10 * (4 * m * num e (fq e)) / den e (fq e)) := by
  obtain ⟨b', d', g⟩ := gFactsS (by omega : -151 ≤ e) h1
  have hBp := den_pos e (fq e)
  have hnar := f_narrow hBp hm0 hs hc
  have hnar3 : 3 * num e (fq e) < 11 * den e (fq e) :=
    lt_of_le_of_lt (Nat.mul_le_mul_right _ (by omega)) hnar
  rcases g with g | g | g | ⟨g1, g2, g3, g4, g5⟩
  · exact absurd g hq
  · omega
  · omega
  have fl := g_floorS hm (by unfold gBad; omega) g5
  have hgx : gIndex e (fq e) = fq e - 1 := by unfold gIndex; rw [if_pos h0]
  rw [decide_eq_true h0, hgx] at g1 g2 fl
  have hgs : ((gShiftS e (fq e) : Nat) : Int) =
      -e + (fq e : Int) - 1 + (float_pow5_inv_bitcount_size c + ((p5b (fq e - 1) : Nat) : Int) - 1) := by
    have hb : float_pow5_inv_bitcount_size c = 58 := by
      unfold float_pow5_inv_bitcount_size small_pow5_inv_bitcount; rw [hf]; simp
    rw [hb]
    unfold gShiftS at g3 ⊢
    rw [if_pos h0] at g3 ⊢
    omega
  rw [← hgs, mulPow5InvDivPow2_size_eq c hf g1 g2, f_digit_of c hm hBp g2 g3 g4 fl hnar3]

theorem f_step3_pos_size_eq (c : Config) (hf : c.floatTable = false) {m s : Nat} {e : Int} {acc : Bool} (hm0 : 0 < m)
    (hm : m < 2 ^ 24) (hs : s ≤ 1) (h0 : 0 ≤ e) (h1 : e ≤ 102) :
    f_step3_pos_size c m e s acc = f_step3_pos c m e s acc := by
  have hq := fq_of_pos h0
  have hBp := den_pos e (fq e)
  obtain ⟨-, -, -, -, -, -, -, -, f6, f7, -⟩ := fFacts c.floatTable (by omega : -151 ≤ e) h1
  have hvp : (4 * m + 2) * num e (fq e) / den e (fq e) < 2 ^ 32 :=
    lt_of_le_of_lt (floor_lt hBp f7 (show 4 * m + 2 ≤ 2 ^ 26 by omega)) (by norm_num)
  have hvp1 : 1 ≤ (4 * m + 2) * num e (fq e) / den e (fq e) := by
    rw [Nat.le_div_iff_mul_le hBp, one_mul]
    exact le_trans f6 (Nat.le_mul_of_pos_left _ (by omega))
  unfold f_step3_pos f_step3_pos_size
  dsimp only
  rw [wrap_of_lt (show 4 * m < 2 ^ 32 by omega), wrap_of_lt (show 4 * m + 2 < 2 ^ 32 by omega),
    subw_of_le (show 1 ≤ 4 * m by omega) (by omega), subw_of_le (show s ≤ 4 * m - 1 by omega) (by omega),
    log10Pow2_eq c h0 (by omega), Exec.ok_bind, Exec.ok_bind, ← hq, pow5bits_eq c (by omega), Exec.ok_bind, Exec.ok_bind]
  have p1 := f_products_pos c h0 h1 (n := 4 * m) (by omega)
  have p2 := f_products_pos c h0 h1 (n := 4 * m + 2) (by omega)
  have p3 := f_products_pos c h0 h1 (n := 4 * m - 1 - s) (by omega)
  have s1 := f_products_posS c hf h0 h1 (n := 4 * m) (by omega)
  have s2 := f_products_posS c hf h0 h1 (n := 4 * m + 2) (by omega)
  have s3 := f_products_posS c hf h0 h1 (n := 4 * m - 1 - s) (by omega)
  rw [p1, p2, p3, s1, s2, s3]
  simp only [Exec.ok_bind]
  rw [subw_of_le hvp1 hvp]
  by_cases hc : fq e ≠ 0 ∧ ((4 * m + 2) * num e (fq e) / den e (fq e) - 1) / 10 ≤
      (4 * m - 1 - s) * num e (fq e) / den e (fq e) / 10
  · rw [if_pos hc, if_pos hc, subw_of_le (by omega) (by omega), pow5bits_eq c (by omega), Exec.ok_bind, Exec.ok_bind,
      f_last_pos c hm0 hm hs h0 h1 hc.1 hc.2, f_last_posS c hf hm0 hm hs h0 h1 hc.1 hc.2]
  · rw [if_neg hc, if_neg hc]

/-! ## `e2 < 0` -/

theorem f_products_neg (c : Config) {e : Int} (h0 : -151 ≤ e) (h1 : e < 0) {n : Nat} (hn : n ≤ 2 ^ 26) :
    mulPow5divPow2 c n ((-e).toNat - fq e)
      ((fq e : Int) - (((p5b ((-e).toNat - fq e) : Nat) : Int) - float_pow5_bitcount c)) =
      .ok (n * num e (fq e) / den e (fq e)) := by
  have hneg : ¬ 0 ≤ e := by omega
  obtain ⟨v, b, d, f1, f2, f3, f4, f5, f6, f7, f8⟩ := fFacts c.floatTable h0 (by omega : e ≤ 102)
  have hsh : ((fShift c.floatTable e (fq e) : Nat) : Int) =
      (fq e : Int) - (((p5b ((-e).toNat - fq e) : Nat) : Int) - 61) := by
    unfold fShift at f3 ⊢
    rw [if_neg hneg] at f3 ⊢
    omega
  rw [decide_eq_false hneg] at f1
  have hix : fIndex e (fq e) = (-e).toNat - fq e := by unfold fIndex; rw [if_neg hneg]
  rw [hix] at f1
  rw [bitcount_eq, ← hsh, mulPow5divPow2_eq c f1, f_product c hn (den_pos _ _) f2 f3 f4 f5 f7]

theorem bitcount_size_eq (c : Config) (hf : c.floatTable = false) : float_pow5_bitcount_size c = 57 := by
  unfold float_pow5_bitcount_size small_pow5_bitcount; rw [hf]; simp

theorem f_products_negS (c : Config) (hf : c.floatTable = false) {e : Int} (h0 : -151 ≤ e) (h1 : e < 0) {n : Nat}
    (hn : n ≤ 2 ^ 26) :
    mulPow5divPow2_size c n ((-e).toNat - fq e)
      ((fq e : Int) - (((p5b ((-e).toNat - fq e) : Nat) : Int) - float_pow5_bitcount_size c)) =
      .ok (n * num e (fq e) / den e (fq e)) := by
  have hneg : ¬ 0 ≤ e := by omega
  obtain ⟨-, -, -, -, -, -, -, -, -, f7, -⟩ := fFacts c.floatTable h0 (by omega : e ≤ 102)
  obtain ⟨b, d, f1, f2, f3, f4, f5⟩ := fFactsS h0 (by omega : e ≤ 102)
  have hsh : ((fShiftS e (fq e) : Nat) : Int) =
      (fq e : Int) - (((p5b ((-e).toNat - fq e) : Nat) : Int) - 57) := by
    unfold fShiftS at f3 ⊢
    rw [if_neg hneg] at f3 ⊢
    omega
  have hix : fIndex e (fq e) = (-e).toNat - fq e := by unfold fIndex; rw [if_neg hneg]
  rw [decide_eq_false hneg, hix] at f1 f2 f5
  rw [bitcount_size_eq c hf, ← hsh, mulPow5divPow2_size_eq c hf f1, f_product c hn (den_pos _ _) f2 f3 f4 f5 f7]

theorem f_last_neg (c : Config) {m s : Nat} {e : Int} (hm0 : 0 < m) (hm : m < 2 ^ 24) (hs : s ≤ 1)
    (hmin : e = -151 → s = 1) (h0 : -151 ≤ e) (h1 : e < 0) (hq : fq e ≠ 0)
    (hc : ((4 * m + 2) * num e (fq e) / den e (fq e) - 1) / 10 ≤ (4 * m - 1 - s) * num e (fq e) / den e (fq e) / 10) :
    mulPow5divPow2 c (4 * m) ((-e).toNat - fq e + 1)
      ((fq e : Int) - 1 - (((p5b ((-e).toNat - fq e + 1) : Nat) : Int) - float_pow5_bitcount c)) =
      .ok (10 * (4 * m * num e (fq e)) / den e (fq e)) := by
  have hneg : ¬ 0 ≤ e := by omega
  obtain ⟨v', b', d', g⟩ := gFacts c.floatTable h0 (by omega : e ≤ 102)
  have hBp := den_pos e (fq e)
  have hnar := f_narrow hBp hm0 hs hc
  have hnar3 : 3 * num e (fq e) < 11 * den e (fq e) :=
    lt_of_le_of_lt (Nat.mul_le_mul_right _ (by omega)) hnar
  rcases g with g | g | ⟨g, g'⟩ | ⟨g1, g2, g3, g4, g5⟩
  · exact absurd g hq
  · omega
  · rw [hmin g] at hnar
    omega
  rw [decide_eq_false hneg] at g1
  have hgx : gIndex e (fq e) = (-e).toNat - fq e + 1 := by unfold gIndex; rw [if_neg hneg]
  rw [hgx] at g1
  have hgs : ((gShift c.floatTable e (fq e) : Nat) : Int) =
      (fq e : Int) - 1 - (((p5b ((-e).toNat - fq e + 1) : Nat) : Int) - 61) := by
    unfold gShift at g3 ⊢
    rw [if_neg hneg] at g3 ⊢
    omega
  rw [bitcount_eq, ← hgs, mulPow5divPow2_eq c g1, f_digit c hm hBp g2 g3 g4 g5 hnar3]

theorem f_last_negS (c : Config) (hf : c.floatTable = false) {m s : Nat} {e : Int} (hm0 : 0 < m) (hm : m < 2 ^ 24)
    (hs : s ≤ 1) (hmin : e = -151 → s = 1) (h0 : -151 ≤ e) (h1 : e < 0) (hx : ¬ gBad e m) (hq : fq e ≠ 0)
    (hc : ((4 * m + 2) * num e (fq e) / den e (fq e) - 1) / 10 ≤ (4 * m - 1 - s) * num e (fq e) / den e (fq e) / 10) :
    mulPow5divPow2_size c (4 * m) ((-e).toNat - fq e + 1)
      ((fq e : Int) - 1 - (((p5b ((-e).toNat - fq e + 1) : Nat) : Int) - float_pow5_bitcount_size c)) =
      .ok (10 * (4 * m * num e (fq e)) / den e (fq e)) := by
  have hneg : ¬ 0 ≤ e := by omega
  obtain ⟨b', d', g⟩ := gFactsS h0 (by omega : e ≤ 102)
  have hBp := den_pos e (fq e)
  have hnar := f_narrow hBp hm0 hs hc
  have hnar3 : 3 * num e (fq e) < 11 * den e (fq e) :=
    lt_of_le_of_lt (Nat.mul_le_mul_right _ (by omega)) hnar
  rcases g with g | g | ⟨g, g'⟩ | ⟨g1, g2, g3, g4, g5⟩
  · exact absurd g hq
  · omega
  · rw [hmin g] at hnar
    omega
  have fl := g_floorS hm hx g5
  have hgx : gIndex e (fq e) = (-e).toNat - fq e + 1 := by unfold gIndex; rw [if_neg hneg]
  rw [decide_eq_false hneg, hgx] at g1 g2 fl
  have hgs : ((gShiftS e (fq e) : Nat) : Int) =
      (fq e : Int) - 1 - (((p5b ((-e).toNat - fq e + 1) : Nat) : Int) - 57) := by
    unfold gShiftS at g3 ⊢
    rw [if_neg hneg] at g3 ⊢
    omega
  rw [bitcount_size_eq c hf, ← hgs, mulPow5divPow2_size_eq c hf g1, f_digit_of c hm hBp g2 g3 g4 fl hnar3]

theorem f_step3_neg_size_eq (c : Config) (hf : c.floatTable = false) {m s : Nat} {e : Int} {acc : Bool} (hm0 : 0 < m)
    (hm : m < 2 ^ 24) (hs : s ≤ 1) (hmin : e = -151 → s = 1) (h0 : -151 ≤ e) (h1 : e < 0) (hx : ¬ gBad e m) :
    f_step3_neg_size c m e s acc = f_step3_neg c m e s acc := by
  have hq := fq_of_neg h1
  have hBp := den_pos e (fq e)
  obtain ⟨-, -, -, -, -, -, -, -, f6, f7, -⟩ := fFacts c.floatTable h0 (by omega : e ≤ 102)
  have hi : -e - (fq e : Int) = (((-e).toNat - fq e : Nat) : Int) := by omega
  have hvp : (4 * m + 2) * num e (fq e) / den e (fq e) < 2 ^ 32 :=
    lt_of_le_of_lt (floor_lt hBp f7 (show 4 * m + 2 ≤ 2 ^ 26 by omega)) (by norm_num)
  have hvp1 : 1 ≤ (4 * m + 2) * num e (fq e) / den e (fq e) := by
    rw [Nat.le_div_iff_mul_le hBp, one_mul]
    exact le_trans f6 (Nat.le_mul_of_pos_left _ (by omega))
  have hi1 : (((-e).toNat - fq e : Nat) : Int) + 1 = (((-e).toNat - fq e + 1 : Nat) : Int) := by push_cast; rfl
  unfold f_step3_neg f_step3_neg_size
  dsimp only
  rw [wrap_of_lt (show 4 * m < 2 ^ 32 by omega), wrap_of_lt (show 4 * m + 2 < 2 ^ 32 by omega),
    subw_of_le (show 1 ≤ 4 * m by omega) (by omega), subw_of_le (show s ≤ 4 * m - 1 by omega) (by omega),
    log10Pow5_eq c (by omega) (by omega), Exec.ok_bind, Exec.ok_bind, ← hq, hi, pow5bits_eq c (by omega), Exec.ok_bind,
    Exec.ok_bind, hi1, u32_eq (by omega) (by omega), Int.toNat_natCast, u32_eq (by omega) (by omega), Int.toNat_natCast]
  have p1 := f_products_neg c h0 h1 (n := 4 * m) (by omega)
  have p2 := f_products_neg c h0 h1 (n := 4 * m + 2) (by omega)
  have p3 := f_products_neg c h0 h1 (n := 4 * m - 1 - s) (by omega)
  have s1 := f_products_negS c hf h0 h1 (n := 4 * m) (by omega)
  have s2 := f_products_negS c hf h0 h1 (n := 4 * m + 2) (by omega)
  have s3 := f_products_negS c hf h0 h1 (n := 4 * m - 1 - s) (by omega)
  rw [p1, p2, p3, s1, s2, s3]
  simp only [Exec.ok_bind]
  rw [subw_of_le hvp1 hvp]
  by_cases hc : fq e ≠ 0 ∧ ((4 * m + 2) * num e (fq e) / den e (fq e) - 1) / 10 ≤
      (4 * m - 1 - s) * num e (fq e) / den e (fq e) / 10
  · rw [if_pos hc, if_pos hc, pow5bits_eq c (by omega), Exec.ok_bind, Exec.ok_bind,
      f_last_neg c hm0 hm hs hmin h0 h1 hc.1 hc.2, f_last_negS c hf hm0 hm hs hmin h0 h1 hx hc.1 hc.2]
  · rw [if_neg hc, if_neg hc]

end Grisu.Ryu
