import Verif.Proofs.Certs32
import Verif.Proofs.Certs64_0
import Verif.Proofs.Certs64_1
import Verif.Proofs.Certs64_2
import Verif.Proofs.Certs64_3

/-! # What the pieces of Step 1 compute, for every binary exponent -/

namespace Grisu

/-- Everything used about one binary exponent. -/
structure ExpOK (F : Fmt) (e : Int) : Prop where
  range : RangeCheck F e (mkOf e) (mbOf e) (phiNum e) (phiDen e) (cacheOf F e)
  i1 : IntegerFacts1 F e (mkOf e)
  i2 : IntegerFacts2 F e (mkOf e)
  i3 : IntegerFacts3 F e (mkOf e) (phiDen e)
  edge : EdgeFacts F e (mbOf e) (phiNum e) (phiDen e) (cacheOf F e)
  mul : ∀ g ≤ 2 ^ (F.p + 3), g * (unit F * cacheOf F e) / 2 ^ (2 * F.q + (mbOf e).toNat) =
    g * (unit F * phiNum e) / phiDen e
  two : F = .b32 → ∀ g ≤ 2 ^ (F.p + 1),
    g * (8 * unit F * cacheOf F e) / 2 ^ (2 * F.q + (mbOf e).toNat) =
    g * (8 * unit F * phiNum e) / phiDen e

theorem phiDen_pos (e : Int) : 0 < phiDen e := by unfold phiDen; positivity

theorem phiNum_pos (e : Int) : 0 < phiNum e := by unfold phiNum; positivity

theorem exists_mainCheck (F : Fmt) (e : Int) (h1 : F.min_exponent ≤ e) (h2 : e ≤ F.max_exponent) :
    ∃ b d, mainCheck F e b d = true := by
  obtain ⟨j, rfl⟩ : ∃ j : Nat, e = F.min_exponent + j := ⟨(e - F.min_exponent).toNat, by omega⟩
  cases F with
  | b32 =>
    have hj : j < 0 + certs32.length := by
      have : certs32.length = 254 := by decide +kernel
      rw [this]
      have e1 : Fmt.b32.min_exponent = -157 := by decide
      have e2 : Fmt.b32.max_exponent = 96 := by decide
      omega
    exact checkAll_sound _ _ _ _ certs32_ok j (by omega) hj
  | b64 =>
    have hj : j < 2046 := by
      have e1 : Fmt.b64.min_exponent = -1085 := by decide
      have e2 : Fmt.b64.max_exponent = 960 := by decide
      omega
    have l0 : certs64_0.length = 512 := by decide +kernel
    have l1 : certs64_1.length = 512 := by decide +kernel
    have l2 : certs64_2.length = 512 := by decide +kernel
    have l3 : certs64_3.length = 510 := by decide +kernel
    rcases (show j < 512 ∨ (512 ≤ j ∧ j < 1024) ∨ (1024 ≤ j ∧ j < 1536) ∨ (1536 ≤ j ∧ j < 2046) by
      omega) with h | h | h | h
    · exact checkAll_sound _ _ _ _ certs64_0_ok j (by omega) (by omega)
    · exact checkAll_sound _ _ _ _ certs64_1_ok j (by omega) (by omega)
    · exact checkAll_sound _ _ _ _ certs64_2_ok j (by omega) (by omega)
    · exact checkAll_sound _ _ _ _ certs64_3_ok j (by omega) (by omega)

theorem exists_twoCheck (e : Int) (h1 : Fmt.b32.min_exponent ≤ e) (h2 : e ≤ Fmt.b32.max_exponent) :
    ∃ b d, twoCheck .b32 e b d = true := by
  obtain ⟨j, rfl⟩ : ∃ j : Nat, e = Fmt.b32.min_exponent + j :=
    ⟨(e - Fmt.b32.min_exponent).toNat, by omega⟩
  have hj : j < 0 + certs32two.length := by
    have : certs32two.length = 254 := by decide +kernel
    rw [this]
    have e1 : Fmt.b32.min_exponent = -157 := by decide
    have e2 : Fmt.b32.max_exponent = 96 := by decide
    omega
  exact checkAll_sound _ _ _ _ certs32two_ok j (by omega) hj

theorem expOK (F : Fmt) (e : Int) (h1 : F.min_exponent ≤ e) (h2 : e ≤ F.max_exponent) :
    ExpOK F e := by
  obtain ⟨b, d, h⟩ := exists_mainCheck F e h1 h2
  simp only [mainCheck, withExp_eq, decide_eq_true_eq] at h
  obtain ⟨hr, hi1, hi2, hi3, he, hm⟩ := h
  refine ⟨hr, hi1, hi2, hi3, he, ?_, ?_⟩
  · intro g hg
    exact hm.floor_eq (phiDen_pos e) (by positivity) hg
  · rintro rfl g hg
    obtain ⟨b, d, h⟩ := exists_twoCheck e h1 h2
    simp only [twoCheck, withExp_eq, decide_eq_true_eq] at h
    exact h.floor_eq (phiDen_pos e) (by positivity) hg

/-! ## Multiplication -/

theorem compute_mul_spec (cfg : Cfg) (F : Fmt) {f c : Nat} {mb : Int} (hf : f < 2 ^ F.q)
    (hc : c < 2 ^ (2 * F.q)) (h0 : 0 ≤ mb) (h1 : mb < 32) :
    compute_mul cfg F f c mb = .ok (f * c / 2 ^ (2 * F.q + mb.toNat)) := by
  cases F with
  | b32 =>
    simp only [compute_mul, Fmt.q] at *
    rw [umul96_upper32_spec cfg hf hc, shr_ok h0 (by omega), Nat.div_div_eq_div_mul, ← pow_add]
  | b64 =>
    simp only [compute_mul, Fmt.q, cache_high] at *
    have hl : wrap 64 c = c % 2 ^ 64 := rfl
    rw [umul192_upper64_spec cfg hf (by show c / 2 ^ 64 < 2 ^ 64; omega)
      (by show wrap 64 c < 2 ^ 64; rw [hl]; omega), shr_ok h0 (by omega)]
    simp only [hl]
    rw [show c / 2 ^ 64 * 2 ^ 64 + c % 2 ^ 64 = c by omega, Nat.div_div_eq_div_mul, ← pow_add]

variable {F : Fmt} {e : Int}

theorem ExpOK.den_le (h : ExpOK F e) : phiDen e ≤ 64 * phiNum e := h.range.2.2.2.2.2.2.2.2.2.2.2.2.1
theorem ExpOK.lt_den (h : ExpOK F e) : 64 * phiNum e < 10 * phiDen e :=
  h.range.2.2.2.2.2.2.2.2.2.2.2.2.2
theorem ExpOK.mb_ge (h : ExpOK F e) : 2 ≤ mbOf e := h.range.2.2.2.2.2.2.1
theorem ExpOK.mb_le (h : ExpOK F e) : mbOf e ≤ 5 := h.range.2.2.2.2.2.2.2.1
theorem ExpOK.cache_lt (h : ExpOK F e) : cacheOf F e < 2 ^ (2 * F.q) :=
  h.range.2.2.2.2.2.2.2.2.2.2.2.1

theorem unit_mul_lt {g : Nat} (hg : g < 2 ^ (F.p + 3)) : g * unit F < 2 ^ F.q := by
  have : 2 ^ F.q = 2 ^ (F.p + 3) * unit F := by cases F <;> decide
  rw [this]
  exact Nat.mul_lt_mul_of_pos_right hg (by unfold unit; positivity)

/-- `compute_mul` returns the exact integer part for every significand that occurs. -/
theorem ExpOK.compute_mul (h : ExpOK F e) (cfg : Cfg) {g : Nat} (hg : g < 2 ^ (F.p + 3)) :
    Grisu.compute_mul cfg F (g * unit F) (cacheOf F e) (mbOf e) =
      .ok (g * unit F * phiNum e / phiDen e) := by
  rw [compute_mul_spec cfg F (unit_mul_lt hg) h.cache_lt (by have := h.mb_ge; omega)
    (by have := h.mb_le; omega)]
  congr 1
  rw [mul_assoc, h.mul g hg.le, mul_assoc]

/-- The same for twice the value (binary32). -/
theorem ExpOK.compute_mul_two (h : ExpOK .b32 e) (cfg : Cfg) {g : Nat} (hg : g < 2 ^ 24) :
    Grisu.compute_mul cfg .b32 (g * (4 * unit .b32)) (cacheOf .b32 e) (mbOf e - 1) =
      .ok (2 * (g * (4 * unit .b32) * phiNum e) / phiDen e) := by
  have h2 := h.mb_ge
  rw [compute_mul_spec cfg .b32 (by simp only [unit, Fmt.q, Fmt.p]; omega) h.cache_lt (by omega)
    (by have := h.mb_le; omega)]
  congr 1
  have := h.two rfl g (le_of_lt hg)
  rw [show 2 * (g * (4 * unit .b32) * phiNum e) = g * (8 * unit .b32 * phiNum e) by ring, ← this]
  have hm : (mbOf e).toNat = (mbOf e - 1).toNat + 1 := by omega
  rw [hm, ← add_assoc, pow_succ,
    show g * (8 * unit .b32 * cacheOf .b32 e) = g * (4 * unit .b32) * cacheOf .b32 e * 2 by ring,
    Nat.mul_div_mul_right _ _ (by norm_num)]

/-! ## `compute_delta` -/

theorem pow_mul_div_pow {k n c : Nat} (h : k ≤ n) : 2 ^ k * c / 2 ^ n = c / 2 ^ (n - k) := by
  have : 2 ^ n = 2 ^ k * 2 ^ (n - k) := by rw [← pow_add]; congr 1; omega
  rw [this, Nat.mul_div_mul_left _ _ (by positivity)]

/-- `2^j` units, in terms of the cache. -/
theorem ExpOK.shift (h : ExpOK F e) {j : Nat} (hj : j ≤ 3) :
    cacheOf F e / 2 ^ (2 * F.q + (mbOf e).toNat - (F.q - F.p - 3 + j)) =
      2 ^ j * unit F * phiNum e / phiDen e := by
  have h1 := h.mul (2 ^ j) (Nat.pow_le_pow_right (by norm_num) (by omega))
  rw [mul_assoc, ← h1, ← mul_assoc]
  have h2 : 2 ^ j * unit F = 2 ^ (F.q - F.p - 3 + j) := by unfold unit; rw [← pow_add, add_comm]
  rw [h2, pow_mul_div_pow (by cases F <;> simp only [Fmt.q, Fmt.p] <;> omega)]

theorem ExpOK.small (h : ExpOK F e) {g : Nat} (hg : g ≤ 8) :
    g * unit F * phiNum e / phiDen e < 2 ^ 32 := by
  rw [Nat.div_lt_iff_lt_mul (phiDen_pos e)]
  have h1 := h.lt_den
  have h2 : unit F ≤ 512 := by cases F <;> decide
  have h3 : g * unit F ≤ 8 * 512 := Nat.mul_le_mul hg h2
  have h4 : g * unit F * phiNum e ≤ 8 * 512 * phiNum e := Nat.mul_le_mul_right _ h3
  omega

/-- `2q - (q-p-1)`. -/
def deltaShift : Fmt → Nat
  | .b32 => 56
  | .b64 => 117

theorem compute_delta_false (F : Fmt) (tag : Tag) {c : Nat} {mb : Int} (h0 : 0 ≤ mb) (h1 : mb ≤ 7) :
    Grisu.compute_delta F tag false c mb = .ok (wrap 32 (c / 2 ^ (deltaShift F + mb.toNat))) := by
  cases F with
  | b32 =>
    have hk : (56 + mb).toNat = 56 + mb.toNat := by omega
    cases tag <;>
    · simp only [Grisu.compute_delta, Fmt.cache_precision, Fmt.q, Fmt.p, deltaShift]
      norm_num
      rw [shr_ok (by omega) (by omega)]
      simp only [Exec.ok_bind]
      rw [hk]
  | b64 =>
    have hk : 64 + (53 + mb).toNat = 117 + mb.toNat := by omega
    cases tag <;>
    · simp only [Grisu.compute_delta, Fmt.q, Fmt.p, cache_high, deltaShift]
      norm_num
      rw [shr_ok (by omega) (by omega)]
      simp only [Exec.ok_bind]
      rw [Nat.div_div_eq_div_mul, show (18446744073709551616 : Nat) = 2 ^ 64 by norm_num, ← pow_add, hk]

theorem compute_delta_right_true (F : Fmt) {c : Nat} {mb : Int} (h0 : 0 ≤ mb) (h1 : mb ≤ 6) :
    Grisu.compute_delta F .right_closed_directed true c mb =
      .ok (wrap 32 (c / 2 ^ (deltaShift F + (mb + 1).toNat))) := by
  cases F with
  | b32 =>
    have hk : (57 + mb).toNat = 56 + (mb + 1).toNat := by omega
    simp only [Grisu.compute_delta, Fmt.cache_precision, Fmt.q, Fmt.p, deltaShift]
    norm_num
    rw [shr_ok (by omega) (by omega)]
    simp only [Exec.ok_bind]
    rw [hk]
  | b64 =>
    have hk : 64 + (54 + mb).toNat = 117 + (mb + 1).toNat := by omega
    simp only [Grisu.compute_delta, Fmt.q, Fmt.p, cache_high, deltaShift]
    norm_num
    rw [shr_ok (by omega) (by omega)]
    simp only [Exec.ok_bind]
    rw [Nat.div_div_eq_div_mul, show (18446744073709551616 : Nat) = 2 ^ 64 by norm_num, ← pow_add, hk]

/-- `delta` for a full interval. -/
theorem ExpOK.compute_delta_full (h : ExpOK F e) (tag : Tag) :
    Grisu.compute_delta F tag false (cacheOf F e) (mbOf e) =
      .ok (4 * unit F * phiNum e / phiDen e) := by
  have hge := h.mb_ge
  have hle := h.mb_le
  rw [compute_delta_false F tag (by omega) (by omega)]
  have h1 := h.shift (j := 2) (by omega)
  have h2 := h.small (g := 4) (by omega)
  rw [show (2 : Nat) ^ 2 = 4 by norm_num] at h1
  have hs : 2 * F.q + (mbOf e).toNat - (F.q - F.p - 3 + 2) = deltaShift F + (mbOf e).toNat := by
    cases F <;> simp only [Fmt.q, Fmt.p, deltaShift] <;> omega
  rw [← hs, h1, wrap_of_lt h2]

/-- Half of it: `epsilon`. -/
theorem ExpOK.compute_delta_half (h : ExpOK F e) (tag : Tag) :
    Grisu.compute_delta F tag false (cacheOf F e) (mbOf e + 1) =
      .ok (2 * unit F * phiNum e / phiDen e) := by
  have hge := h.mb_ge
  have hle := h.mb_le
  rw [compute_delta_false F tag (by omega) (by omega)]
  have h1 := h.shift (j := 1) (by omega)
  have h2 := h.small (g := 2) (by omega)
  rw [show (2 : Nat) ^ 1 = 2 by norm_num] at h1
  have hs : 2 * F.q + (mbOf e).toNat - (F.q - F.p - 3 + 1) = deltaShift F + (mbOf e + 1).toNat := by
    cases F <;> simp only [Fmt.q, Fmt.p, deltaShift] <;> omega
  rw [← hs, h1, wrap_of_lt h2]

/-- `delta` of the shorter interval for right-closed directed rounding. -/
theorem ExpOK.compute_delta_right (h : ExpOK F e) :
    Grisu.compute_delta F .right_closed_directed true (cacheOf F e) (mbOf e) =
      .ok (2 * unit F * phiNum e / phiDen e) := by
  have hge := h.mb_ge
  have hle := h.mb_le
  rw [compute_delta_right_true F (by omega) (by omega)]
  have h1 := h.shift (j := 1) (by omega)
  have h2 := h.small (g := 2) (by omega)
  rw [show (2 : Nat) ^ 1 = 2 by norm_num] at h1
  have hs : 2 * F.q + (mbOf e).toNat - (F.q - F.p - 3 + 1) = deltaShift F + (mbOf e + 1).toNat := by
    cases F <;> simp only [Fmt.q, Fmt.p, deltaShift] <;> omega
  rw [← hs, h1, wrap_of_lt h2]

/-- `delta` of the shorter interval for the nearest modes. -/
theorem ExpOK.compute_delta_edge (h : ExpOK F e) :
    Grisu.compute_delta F .to_nearest true (cacheOf F e) (mbOf e) =
      .ok (3 * unit F * phiNum e / phiDen e) := by
  have hge := h.mb_ge
  have hle := h.mb_le
  have hc := h.cache_lt
  have h1 := h.edge.1
  have h2 := h.small (g := 3) (by omega)
  rw [← h1] at h2 ⊢
  cases F with
  | b32 =>
    simp only [edgeDelta, Fmt.q] at h2 hc ⊢
    simp only [Grisu.compute_delta, Fmt.cache_precision, Fmt.q, Fmt.p]
    norm_num
    rw [shr_ok (by omega) (by omega)]
    simp only [Exec.ok_bind]
    rw [wrap_of_lt (w := 64) (by omega), wrap_of_lt h2]
  | b64 =>
    simp only [edgeDelta, Fmt.q] at h2 hc ⊢
    simp only [Grisu.compute_delta, Fmt.q, Fmt.p, cache_high]
    norm_num
    rw [shr_ok (by omega) (by omega)]
    simp only [Exec.ok_bind]
    rw [show (18446744073709551616 : Nat) = 2 ^ 64 by norm_num, wrap_of_lt (w := 64) (by omega),
      wrap_of_lt h2]

/-! ## Integer tests -/

theorem two_pow_mul_dvd {a b f : Nat} : 2 ^ a * 5 ^ b ∣ f ↔ 2 ^ a ∣ f ∧ 5 ^ b ∣ f := by
  constructor
  · intro h
    exact ⟨Dvd.dvd.trans (Dvd.intro _ rfl) h, Dvd.dvd.trans (Dvd.intro_left _ rfl) h⟩
  · rintro ⟨h1, h2⟩
    exact Nat.Coprime.mul_dvd_of_dvd_of_dvd (Nat.Coprime.pow a b (by decide)) h1 h2

theorem pow5_not_dvd {k b g : Nat} (hg : 0 < g) (h : g < 5 ^ b) : ¬ 5 ^ b ∣ 2 ^ k * g := by
  intro hd
  have : 5 ^ b ∣ g := (Nat.Coprime.pow b k (by decide)).dvd_of_dvd_mul_left hd
  exact absurd (Nat.le_of_dvd hg this) (by omega)

/-- `phiDen` and the two prime powers. -/
theorem phiDen_dvd (e : Int) (f : Nat) :
    phiDen e ∣ f ↔ 2 ^ (mkOf e - e).toNat ∣ f ∧ 5 ^ (mkOf e).toNat ∣ f := two_pow_mul_dvd

/-- The test for `f = fc` or `fc + 2^(q-p-1)`, below `2^q`. -/
theorem ExpOK.is_product_integer_other (h : ExpOK F e) (cfg : Cfg) {g : Nat} (hg0 : 0 < g)
    (hg : g < 2 ^ (F.p + 1)) :
    is_product_integer cfg F .other (2 ^ (F.q - F.p - 1) * g) e (mkOf e) =
      .ok (decide (phiDen e ∣ 2 ^ (F.q - F.p - 1) * g)) := by
  obtain ⟨f1, f2, f3, f4⟩ := h.i1
  have hlt : 2 ^ (F.q - F.p - 1) * g < 2 ^ F.q := by
    have : 2 ^ F.q = 2 ^ (F.q - F.p - 1) * 2 ^ (F.p + 1) := by cases F <;> decide
    rw [this]
    exact Nat.mul_lt_mul_of_pos_left hg (by positivity)
  have hpos : 2 ^ (F.q - F.p - 1) * g ≠ 0 := by positivity
  have hd2 : ∀ n : Int, n ≤ (F.q - F.p - 1 : Nat) → 2 ^ n.toNat ∣ 2 ^ (F.q - F.p - 1) * g := by
    intro n hn
    exact Dvd.dvd.mul_right (pow_dvd_pow 2 (by omega)) _
  unfold is_product_integer
  by_cases c1 : e < F.lower_bound_q_mp_m1
  · obtain ⟨hk, hm⟩ := f1 c1
    simp only [c1, if_true]
    rw [divisible_by_power_of_2_spec cfg hpos hlt (by omega)]
    congr 1
    rw [decide_eq_decide, phiDen_dvd]
    rw [show (mkOf e).toNat = 0 by omega]
    simp
  · simp only [c1, if_false]
    by_cases c2 : e ≤ F.max_exponent_for_k_geq_0
    · obtain ⟨hk, hm⟩ := f2 (by omega) c2
      simp only [c2, if_true]
      congr 1
      symm
      rw [decide_eq_true_eq, phiDen_dvd]
      rw [show (mkOf e).toNat = 0 by omega]
      exact ⟨hd2 _ hm, by simp⟩
    · simp only [c2, if_false]
      by_cases c3 : e ≤ F.upper_bound_p_p1
      · obtain ⟨hk, hk', hm⟩ := f3 (by omega) c3
        simp only [c3, if_true]
        rw [cassert_true (by cases F <;> simp only [maxMk1] at hk' <;> simp [hk, hk'])]
        simp only [Exec.ok_bind]
        rw [divisible_by_power_of_5_spec cfg (by cases F <;> simp [Fmt.q]) hlt (by omega)
          (by cases F <;> simp only [maxMk1] at hk' <;> simp [divisibility_table_size, Fmt.q] <;> omega)]
        congr 1
        rw [decide_eq_decide, phiDen_dvd]
        have hm' : mkOf e - e ≤ (F.q - F.p - 1 : Nat) := by
          refine hm.trans ?_
          cases F <;> decide
        exact ⟨fun hh => ⟨hd2 _ hm', hh⟩, fun hh => hh.2⟩
      · obtain ⟨hk, h5⟩ := f4 (by omega) (by omega)
        simp only [c3, if_false]
        congr 1
        symm
        rw [decide_eq_false_iff_not, phiDen_dvd]
        exact fun hh => pow5_not_dvd hg0 (by omega) hh.2

/-- The test for `2 * fc`. -/
theorem ExpOK.is_product_integer_two (h : ExpOK F e) (cfg : Cfg) {g : Nat} (hg0 : 0 < g)
    (hg : g < 2 ^ (F.p + 1)) :
    is_product_integer cfg F .two_times_fc (2 ^ (F.q - F.p - 1) * g) e (mkOf e) =
      .ok (decide (phiDen e ∣ 2 * (2 ^ (F.q - F.p - 1) * g))) := by
  obtain ⟨-, -, f3, f4⟩ := h.i1
  obtain ⟨f1, f2, -⟩ := h.i3
  have hlt : 2 ^ (F.q - F.p - 1) * g < 2 ^ F.q := by
    have : 2 ^ F.q = 2 ^ (F.q - F.p - 1) * 2 ^ (F.p + 1) := by cases F <;> decide
    rw [this]
    exact Nat.mul_lt_mul_of_pos_left hg (by positivity)
  have hpos : 2 ^ (F.q - F.p - 1) * g ≠ 0 := by positivity
  have he2 : 2 * (2 ^ (F.q - F.p - 1) * g) = 2 ^ (F.q - F.p) * g := by
    have : F.q - F.p = F.q - F.p - 1 + 1 := by cases F <;> decide
    conv_rhs => rw [this, pow_succ]
    ring
  have hd2 : ∀ n : Int, n ≤ (F.q - F.p : Nat) → 2 ^ n.toNat ∣ 2 * (2 ^ (F.q - F.p - 1) * g) := by
    intro n hn
    rw [he2]
    exact Dvd.dvd.mul_right (pow_dvd_pow 2 (by omega)) _
  unfold is_product_integer
  by_cases c1 : e < F.lower_bound_q_mp
  · obtain ⟨hk, hm⟩ := f1 c1
    simp only [c1, if_true]
    rw [divisible_by_power_of_2_spec cfg hpos hlt (by omega)]
    congr 1
    rw [decide_eq_decide, phiDen_dvd]
    rw [show (mkOf e).toNat = 0 by omega,
      show (mkOf e - e).toNat = (mkOf e - e - 1).toNat + 1 by omega, pow_succ,
      mul_comm (2 ^ (mkOf e - e - 1).toNat) 2, Nat.mul_dvd_mul_iff_left (by norm_num)]
    simp
  · simp only [c1, if_false]
    by_cases c2 : e ≤ F.max_exponent_for_k_geq_0
    · obtain ⟨hk, hm⟩ := f2 (by omega) c2
      simp only [c2, if_true]
      congr 1
      symm
      rw [decide_eq_true_eq, phiDen_dvd]
      rw [show (mkOf e).toNat = 0 by omega]
      exact ⟨hd2 _ hm, by simp⟩
    · simp only [c2, if_false]
      by_cases c3 : e ≤ F.upper_bound_p_p1
      · obtain ⟨hk, hk', hm⟩ := f3 (by omega) c3
        simp only [c3, if_true]
        rw [cassert_true (by cases F <;> simp only [maxMk1] at hk' <;> simp [hk, hk'])]
        simp only [Exec.ok_bind]
        rw [divisible_by_power_of_5_spec cfg (by cases F <;> simp [Fmt.q]) hlt (by omega)
          (by cases F <;> simp only [maxMk1] at hk' <;> simp [divisibility_table_size, Fmt.q] <;> omega)]
        congr 1
        rw [decide_eq_decide, phiDen_dvd]
        have hm' : mkOf e - e ≤ (F.q - F.p : Nat) := by
          refine hm.trans ?_
          cases F <;> decide
        exact ⟨fun hh => ⟨hd2 _ hm', Dvd.dvd.mul_left hh 2⟩, fun hh =>
          (Nat.Coprime.pow_left _ (by decide : Nat.Coprime 5 2)).dvd_of_dvd_mul_left hh.2⟩
      · obtain ⟨hk, h5⟩ := f4 (by omega) (by omega)
        simp only [c3, if_false]
        congr 1
        symm
        rw [decide_eq_false_iff_not, phiDen_dvd]
        intro hh
        rw [he2] at hh
        exact pow5_not_dvd hg0 (by omega) hh.2

/-- The test for an odd multiple of `2^(q-p-2)`: the boundaries of the nearest modes. -/
theorem ExpOK.is_product_integer_generic (h : ExpOK F e) (cfg : Cfg) {g : Nat} (hodd : g % 2 = 1)
    (hg : g < 2 ^ (F.p + 2)) :
    is_product_integer cfg F .fc_pm_2_to_the_q_mp_m2_generic (2 ^ (F.q - F.p - 2) * g) e (mkOf e) =
      .ok (decide (phiDen e ∣ 2 ^ (F.q - F.p - 2) * g)) := by
  obtain ⟨f1, f2, f3, f4⟩ := h.i2
  have hlt : 2 ^ (F.q - F.p - 2) * g < 2 ^ F.q := by
    have : 2 ^ F.q = 2 ^ (F.q - F.p - 2) * 2 ^ (F.p + 2) := by cases F <;> decide
    rw [this]
    exact Nat.mul_lt_mul_of_pos_left hg (by positivity)
  have hd2 : ∀ n : Int, n ≤ (F.q - F.p - 2 : Nat) → 2 ^ n.toNat ∣ 2 ^ (F.q - F.p - 2) * g := by
    intro n hn
    exact Dvd.dvd.mul_right (pow_dvd_pow 2 (by omega)) _
  unfold is_product_integer
  by_cases c1 : e < F.lower_bound_q_mp_m2
  · obtain ⟨hk, hm⟩ := f1 c1
    simp only [c1, if_true]
    congr 1
    symm
    rw [decide_eq_false_iff_not, phiDen_dvd]
    rintro ⟨hh, -⟩
    have h1 : 2 ^ (F.q - F.p - 2 + 1) ∣ 2 ^ (F.q - F.p - 2) * g := by
      refine Dvd.dvd.trans (pow_dvd_pow 2 ?_) hh
      have : F.q - F.p - 2 + 1 = F.q - F.p - 1 := by cases F <;> decide
      omega
    rw [pow_succ, Nat.mul_dvd_mul_iff_left (by positivity)] at h1
    omega
  · simp only [c1, if_false]
    by_cases c2 : e ≤ F.max_exponent_for_k_geq_0
    · obtain ⟨hk, hm⟩ := f2 (by omega) c2
      simp only [c2, if_true]
      congr 1
      symm
      rw [decide_eq_true_eq, phiDen_dvd]
      rw [show (mkOf e).toNat = 0 by omega]
      exact ⟨hd2 _ hm, by simp⟩
    · simp only [c2, if_false]
      by_cases c3 : e ≤ F.upper_bound_p_p2
      · obtain ⟨hk, hk', hm⟩ := f3 (by omega) c3
        simp only [c3, if_true]
        rw [cassert_true (by cases F <;> simp only [maxMk2] at hk' <;> simp [hk, hk'])]
        simp only [Exec.ok_bind]
        rw [divisible_by_power_of_5_spec cfg (by cases F <;> simp [Fmt.q]) hlt (by omega)
          (by cases F <;> simp only [maxMk2] at hk' <;> simp [divisibility_table_size, Fmt.q] <;> omega)]
        congr 1
        rw [decide_eq_decide, phiDen_dvd]
        exact ⟨fun hh => ⟨hd2 _ hm, hh⟩, fun hh => hh.2⟩
      · obtain ⟨hk, h5⟩ := f4 (by omega) (by omega)
        simp only [c3, if_false]
        congr 1
        symm
        rw [decide_eq_false_iff_not, phiDen_dvd]
        exact fun hh => pow5_not_dvd (by omega) (by omega) hh.2

/-- The test for the closer left boundary. -/
theorem ExpOK.is_product_integer_edge (h : ExpOK F e) (cfg : Cfg) (f : Nat) :
    is_product_integer cfg F .fc_minus_2_to_the_q_mp_m3_edge f e (mkOf e) =
      .ok (decide (phiDen e ∣ (2 ^ (F.p + 2) - 1) * unit F)) := by
  show Exec.ok _ = Exec.ok _
  congr 1
  rw [decide_eq_decide]
  exact h.i3.2.2.symm

end Grisu
