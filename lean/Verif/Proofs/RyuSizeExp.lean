import Verif.Model.RyuSize
import Verif.Proofs.RyuSmall
import Verif.Proofs.RyuFloat

/-! # Ryu with `RYU_OPTIMIZE_SIZE`: facts about one binary exponent -/

namespace Grisu.Ryu

/-- Two numbers on either side of the fraction `a / b`, both next to it: the integer parts of the multiples agree, except
for the multiples of `b`. -/
theorem floor_skip {P B Q R a1 b1 a b a2 b2 n : Nat} (hB : 0 < B) (hR : 0 < R) (hb1 : 0 < b1) (hb : 0 < b)
    (h1 : a1 * B ≤ P * b1) (h2 : P * b < a * B) (h3 : b1 * a = a1 * b + 1) (h4 : a * R ≤ Q * b) (h5 : Q * b2 < a2 * R)
    (h6 : b * a2 = a * b2 + 1) (hn1 : n < b1 + b) (hn2 : n < b + b2) (hd : ¬ b ∣ n) : n * P / B = n * Q / R := by
  rw [floor_eq_of_cert hB hb1 h1 h2 h3 hn1, floor_eq_of_cert hR hb h4 h5 h6 hn2]
  have hda : ¬ b ∣ n * a := by
    intro h
    refine hd (Nat.Coprime.dvd_of_dvd_mul_right ?_ h)
    rw [Nat.coprime_comm]
    refine Nat.coprime_of_dvd' ?_
    intro p _ hp hq
    have : p ∣ b1 * a - a1 * b := Nat.dvd_sub (dvd_mul_of_dvd_right hp _) (dvd_mul_of_dvd_right hq _)
    rwa [h3, Nat.add_sub_cancel_left] at this
  have hr : 0 < n * a % b := Nat.pos_of_ne_zero (fun h => hda (Nat.dvd_of_mod_eq_zero h))
  have hk := Nat.div_add_mod (n * a) b
  apply Nat.le_antisymm
  · rw [Nat.le_div_iff_mul_le hb]
    have ht : n * a1 / b1 * b1 ≤ n * a1 := Nat.div_mul_le_self _ _
    generalize n * a1 / b1 = t at ht
    refine Nat.le_of_mul_le_mul_right (c := b1) ?_ hb1
    calc t * b * b1 = t * b1 * b := by ring
      _ ≤ n * a1 * b := Nat.mul_le_mul_right _ ht
      _ ≤ n * (a1 * b + 1) := by rw [Nat.mul_assoc]; exact Nat.mul_le_mul_left _ (Nat.le_succ _)
      _ = n * a * b1 := by rw [← h3]; ring
  · rw [Nat.le_div_iff_mul_le hb1]
    generalize n * a / b = k at *
    generalize n * a % b = r at *
    by_contra hc
    have e1 : n * a1 * b + b ≤ k * b1 * b := by
      have : (n * a1 + 1) * b ≤ k * b1 * b := Nat.mul_le_mul_right _ (by omega)
      rw [Nat.add_mul, Nat.one_mul] at this
      exact this
    have e2 : n * a1 * b + n = n * a * b1 := by
      calc n * a1 * b + n = n * (a1 * b + 1) := by ring
        _ = n * a * b1 := by rw [← h3]; ring
    have e3 : n * a * b1 = k * b1 * b + r * b1 := by rw [← hk]; ring
    have e4 : b1 ≤ r * b1 := Nat.le_mul_of_pos_left _ hr
    omega

/-! ## Double precision -/

/-- The shift distance. -/
def dShiftS (e : Int) (q : Nat) : Nat :=
  if 0 ≤ e then 121 + p5b q + q - e.toNat else q + 121 - p5b ((-e).toNat - q)

/-- The factor. -/
def dEntryS (e : Int) (q : Nat) : Nat := if 0 ≤ e then inv_want q else pow_want ((-e).toNat - q)

/-- The bounds on one exponent. -/
def DBoundsS (e : Int) (q j c : Nat) : Prop :=
  (if 0 ≤ e then q < 292 else (-e).toNat - q < 326) ∧ c < 2 ^ 126 ∧ 66 ≤ j ∧ j < 128 ∧
  2 ^ 53 * c / 2 ^ 64 % 2 ^ 64 ≠ 2 ^ 64 - 1

instance (e : Int) (q j c : Nat) : Decidable (DBoundsS e q j c) := by unfold DBoundsS; infer_instance

/-- The precision is enough, except for two exponents. -/
def DFactsS (e : Int) (q A B j c b d : Nat) : Prop :=
  DBoundsS e q j c ∧ (e = -605 ∨ e = 720 ∨ CertCheck A B c (2 ^ j) b d (2 ^ 55))

instance (e : Int) (q A B j c b d : Nat) : Decidable (DFactsS e q A B j c b d) := by unfold DFactsS; infer_instance

def dCheckS (e : Int) (b d : Nat) : Bool :=
  force (dq e) fun q => force (num e q) fun A => force (den e q) fun B => force (dShiftS e q) fun j =>
  force (dEntryS e q) fun c => decide (DFactsS e q A B j c b d)

theorem dCheckS_sound {e : Int} {b d : Nat} (h : dCheckS e b d = true) :
    DFactsS e (dq e) (num e (dq e)) (den e (dq e)) (dShiftS e (dq e)) (dEntryS e (dq e)) b d := by
  simpa only [dCheckS, force_eq, decide_eq_true_iff] using h

set_option maxRecDepth 100000 in
theorem dCerts0_okS : checkFrom (-1076) dCheckS 0 dCerts0 = true := by decide +kernel

set_option maxRecDepth 100000 in
theorem dCerts1_okS : checkFrom (-1076) dCheckS 512 dCerts1 = true := by decide +kernel

set_option maxRecDepth 100000 in
theorem dCerts2_okS : checkFrom (-1076) dCheckS 1024 dCerts2 = true := by decide +kernel

set_option maxRecDepth 100000 in
theorem dCerts3_okS : checkFrom (-1076) dCheckS 1536 dCerts3 = true := by decide +kernel

theorem dFactsS {e : Int} (h0 : -1076 ≤ e) (h1 : e ≤ 970) :
    ∃ b d, DFactsS e (dq e) (num e (dq e)) (den e (dq e)) (dShiftS e (dq e)) (dEntryS e (dq e)) b d := by
  have l0 : dCerts0.length = 512 := by decide +kernel
  have l1 : dCerts1.length = 512 := by decide +kernel
  have l2 : dCerts2.length = 512 := by decide +kernel
  have l3 : dCerts3.length = 511 := by decide +kernel
  obtain ⟨j, hj⟩ : ∃ j : Nat, e = -1076 + (j : Int) := ⟨(e + 1076).toNat, by omega⟩
  have : ∃ b d, dCheckS (-1076 + (j : Int)) b d = true := by
    rcases (by omega : j < 512 ∨ (512 ≤ j ∧ j < 1024) ∨ (1024 ≤ j ∧ j < 1536) ∨ (1536 ≤ j ∧ j < 2047)) with h | h | h | h
    · exact checkFrom_sound _ _ _ _ dCerts0_okS j (by omega) (by omega)
    · exact checkFrom_sound _ _ _ _ dCerts1_okS j (by omega) (by omega)
    · exact checkFrom_sound _ _ _ _ dCerts2_okS j (by omega) (by omega)
    · exact checkFrom_sound _ _ _ _ dCerts3_okS j (by omega) (by omega)
  obtain ⟨b, d, h⟩ := this
  rw [hj]
  exact ⟨b, d, dCheckS_sound h⟩

/-- The integer parts are the exact ones, but for one multiple in each of two exponents. -/
theorem d_floorS {e : Int} (h0 : -1076 ≤ e) (h1 : e ≤ 970) {n : Nat} (hn : n ≤ 2 ^ 55)
    (x1 : e = -605 → ¬ 28933731341339864 ∣ n) (x2 : e = 720 → ¬ 33542060588139028 ∣ n) :
    n * dEntryS e (dq e) / 2 ^ dShiftS e (dq e) = n * num e (dq e) / den e (dq e) := by
  obtain ⟨b, d, -, h | h | h⟩ := dFactsS h0 h1
  · have y := x1 h
    have hn' : n ≤ 36028797018963968 := hn
    subst h
    exact floor_skip (a1 := 1775853080605607425) (b1 := 23580576019258371) (a := 2178999185345151731)
      (b := 28933731341339864) (a2 := 2582145290084696037) (b2 := 34286886663421357)
      (by decide +kernel) (by decide +kernel) (by norm_num) (by norm_num) (by decide +kernel) (by decide +kernel)
      (by norm_num) (by decide +kernel) (by decide +kernel) (by norm_num) (by omega) (by omega) y
  · have y := x2 h
    have hn' : n ≤ 36028797018963968 := hn
    subst h
    exact (floor_skip (a1 := 823108142747098370) (b1 := 14923133357290089) (a := 1850063423920730049)
      (b := 33542060588139028) (a2 := 1026955281173631679) (b2 := 18618927230848939)
      (by decide +kernel) (by decide +kernel) (by norm_num) (by norm_num) (by decide +kernel) (by decide +kernel)
      (by norm_num) (by decide +kernel) (by decide +kernel) (by norm_num) (by omega) (by omega) y).symm
  · exact h.floor_eq (den_pos _ _) (by positivity) hn

/-- The call that returns the factor. -/
def dReadS (c : Config) (e : Int) (q : Nat) : Exec (Nat × Nat) :=
  if 0 ≤ e then double_computeInvPow5 c q else double_computePow5 c ((-e).toNat - q)

theorem isShort_pow {i : Nat} (h : i < 326) : isShort shortPow i = 0 := by
  have : ∀ j ∈ shortPow, 326 ≤ j := by decide
  unfold isShort
  rw [if_neg (fun hm => by have := this i hm; omega)]

theorem isShort_inv {i : Nat} (h : i < 292) : isShort shortInv i = 0 := by
  have : ∀ j ∈ shortInv, 292 ≤ j := by decide
  unfold isShort
  rw [if_neg (fun hm => by have := this i hm; omega)]

theorem dReadS_eq (c : Config) {e : Int} {q j w : Nat} (h : DBoundsS e q j w) :
    ∃ t, dReadS c e q = .ok t ∧ t.1 < 2 ^ 64 ∧ t.2 < 2 ^ 64 ∧ full t = dEntryS e q := by
  obtain ⟨h, -⟩ := h
  unfold dReadS dEntryS
  by_cases he : 0 ≤ e
  · rw [if_pos he] at h
    rw [if_pos he, if_pos he]
    obtain ⟨t, t1, t2, t3, t4⟩ := inv_at c (show q < 313 by omega)
    rw [isShort_inv h] at t4
    exact ⟨t, t1, t2, t3, by rw [← t4]; unfold full words; ring⟩
  · rw [if_neg he] at h
    rw [if_neg he, if_neg he]
    obtain ⟨t, t1, t2, t3, t4⟩ := pow_at c (show (-e).toNat - q < 338 by omega)
    rw [isShort_pow h] at t4
    exact ⟨t, t1, t2, t3, by rw [← t4]; unfold full words; ring⟩

/-- The three products. -/
theorem d_productsS (c : Config) {m s : Nat} {e : Int} (hm0 : 0 < m) (hm : m < 2 ^ 53) (hs : s ≤ 1)
    (hedge : s = 0 → m = 2 ^ 52) (h0 : -1076 ≤ e) (h1 : e ≤ 970) (x1 : e = -605 → m ≠ 7233432835334966)
    (x2 : e = 720 → m ≠ 8385515147034757) :
    ∃ t, dReadS c e (dq e) = .ok t ∧
      mulShiftAll64 c m t (dShiftS e (dq e) : Nat) s = .ok (4 * m * num e (dq e) / den e (dq e),
        (4 * m + 2) * num e (dq e) / den e (dq e), (4 * m - 1 - s) * num e (dq e) / den e (dq e)) := by
  obtain ⟨b, d, hbd, -⟩ := dFactsS h0 h1
  obtain ⟨-, -, -, -, -, -, -, -, -, -, f9, -⟩ := dFacts h0 h1
  obtain ⟨t, t1, t2, t3, t4⟩ := dReadS_eq c hbd
  obtain ⟨-, g1, g2, g3, g4⟩ := hbd
  refine ⟨t, t1, ?_⟩
  have hB := den_pos e (dq e)
  have fl : ∀ n, n ≤ 2 ^ 55 → (e = -605 → ¬ 28933731341339864 ∣ n) → (e = 720 → ¬ 33542060588139028 ∣ n) →
      n * dEntryS e (dq e) / 2 ^ dShiftS e (dq e) % 2 ^ 64 = n * num e (dq e) / den e (dq e) := by
    intro n hn y1 y2
    rw [d_floorS h0 h1 hn y1 y2]
    exact Nat.mod_eq_of_lt (lt_of_le_of_lt (floor_lt hB f9 hn) (by norm_num))
  have ht2 : t.2 < 2 ^ 62 := by
    rw [← t4] at g1
    unfold full at g1
    omega
  rw [mulShiftAll64_eq c hm0 hm t2 ht2 (by exact_mod_cast g2) (by exact_mod_cast g3) hs
    (by intro h; rw [hedge h, t4]; exact g4), t4, Int.toNat_natCast,
    fl (4 * m) (by omega) (fun h => by have := x1 h; omega) (fun h => by have := x2 h; omega),
    fl (4 * m + 2) (by omega) (fun h => by omega) (fun h => by omega),
    fl (4 * m - 1 - s) (by omega) (fun h => by omega) (fun h => by omega)]

/-- Step 3 does the same with both kinds of tables. -/
theorem d_step3_pos_size_eq (c : Config) {m s : Nat} {e : Int} {acc : Bool} (hm0 : 0 < m) (hm : m < 2 ^ 53) (hs : s ≤ 1)
    (hedge : s = 0 → m = 2 ^ 52) (h0 : 0 ≤ e) (h1 : e ≤ 970) (x2 : e = 720 → m ≠ 8385515147034757) :
    d_step3_pos_size c m e s acc = d_step3_pos c m e s acc := by
  obtain ⟨b, d, f1, f2, f3, -⟩ := dFacts (by omega) h1
  obtain ⟨b', d', ⟨-, -, f3', -⟩, -⟩ := dFactsS (by omega) h1
  obtain ⟨t, t1, t2⟩ := d_products c hm0 hm hs hedge (by omega : -1076 ≤ e) h1
  obtain ⟨u, u1, u2⟩ := d_productsS c hm0 hm hs hedge (by omega : -1076 ≤ e) h1 (fun h => by omega) x2
  have hq := dq_zero_of_pos h0
  have hsh : ((dShift e (dq e) : Nat) : Int) = -e + (dq e : Int) + (125 + ((p5b (dq e) : Nat) : Int) - 1) := by
    unfold dShift at f3 ⊢
    rw [if_pos h0] at f3 ⊢
    omega
  have hsh' : ((dShiftS e (dq e) : Nat) : Int) =
      -e + (dq e : Int) + ((small_pow5_inv_bitcount : Int) + ((p5b (dq e) : Nat) : Int) - 1) := by
    unfold dShiftS at f3' ⊢
    unfold small_pow5_inv_bitcount
    rw [if_pos h0] at f3' ⊢
    omega
  have ht : dTable e = DOUBLE_POW5_INV_SPLIT := by unfold dTable; rw [if_pos h0]
  have hix : dIndex e (dq e) = dq e := by unfold dIndex; rw [if_pos h0]
  rw [ht, hix] at t1
  have hu : dReadS c e (dq e) = double_computeInvPow5 c (dq e) := by unfold dReadS; rw [if_pos h0]
  rw [hu] at u1
  have hsub : subw 32 (e.toNat * 78913 / 2 ^ 18) (if e > 3 then 1 else 0) = dq e := by
    rw [hq]
    apply subw_of_le
    · split <;> omega
    · omega
  have hdq : dq e ≤ 3528 := by rw [hq]; omega
  unfold d_step3_pos d_step3_pos_size
  dsimp only
  rw [log10Pow2_eq c h0 (by omega), Exec.ok_bind, Exec.ok_bind, hsub, pow5bits_eq c hdq, Exec.ok_bind, Exec.ok_bind, t1, u1,
    Exec.ok_bind, Exec.ok_bind, ← hsh, ← hsh', t2, u2]

theorem d_step3_neg_size_eq (c : Config) {m s : Nat} {e : Int} {acc : Bool} (hm0 : 0 < m) (hm : m < 2 ^ 53) (hs : s ≤ 1)
    (hedge : s = 0 → m = 2 ^ 52) (h0 : -1076 ≤ e) (h1 : e < 0) (x1 : e = -605 → m ≠ 7233432835334966) :
    d_step3_neg_size c m e s acc = d_step3_neg c m e s acc := by
  obtain ⟨b, d, f1, f2, f3, -⟩ := dFacts h0 (by omega)
  obtain ⟨b', d', ⟨-, -, f3', -⟩, -⟩ := dFactsS h0 (by omega)
  obtain ⟨t, t1, t2⟩ := d_products c hm0 hm hs hedge h0 (by omega : e ≤ 970)
  obtain ⟨u, u1, u2⟩ := d_productsS c hm0 hm hs hedge h0 (by omega : e ≤ 970) x1 (fun h => by omega)
  have hq := dq_of_neg h1
  have hn : ¬ 0 ≤ e := by omega
  have hsub : subw 32 ((-e).toNat * 732923 / 2 ^ 20) (if -e > 1 then 1 else 0) = dq e := by
    rw [hq]
    apply subw_of_le
    · split <;> omega
    · omega
  have hi : -e - (dq e : Int) = (((-e).toNat - dq e : Nat) : Int) := by omega
  have hsh : ((dShift e (dq e) : Nat) : Int) =
      (dq e : Int) - (((p5b ((-e).toNat - dq e) : Nat) : Int) - 125) := by
    unfold dShift at f3 ⊢
    rw [if_neg hn] at f3 ⊢
    omega
  have hsh' : ((dShiftS e (dq e) : Nat) : Int) =
      (dq e : Int) - (((p5b ((-e).toNat - dq e) : Nat) : Int) - (small_pow5_bitcount : Int)) := by
    unfold dShiftS at f3' ⊢
    unfold small_pow5_bitcount
    rw [if_neg hn] at f3' ⊢
    omega
  have ht : dTable e = DOUBLE_POW5_SPLIT := by unfold dTable; rw [if_neg hn]
  have hix : dIndex e (dq e) = (-e).toNat - dq e := by unfold dIndex; rw [if_neg hn]
  rw [ht, hix] at t1
  have hu : dReadS c e (dq e) = double_computePow5 c ((-e).toNat - dq e) := by unfold dReadS; rw [if_neg hn]
  rw [hu] at u1
  unfold d_step3_neg d_step3_neg_size
  dsimp only
  rw [log10Pow5_eq c (by omega) (by omega), Exec.ok_bind, Exec.ok_bind, hsub, hi, pow5bits_eq c (by omega), Exec.ok_bind,
    Exec.ok_bind, u32_eq (by omega) (by omega), Int.toNat_natCast, t1, u1, Exec.ok_bind, Exec.ok_bind, ← hsh, ← hsh', t2, u2]

end Grisu.Ryu
