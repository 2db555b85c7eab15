import Verif.Model.CacheLength
import Verif.Proofs.BigIntLong
import Verif.Proofs.BigIntProduct
import Verif.Proofs.MinMaxEuclid

/-! # The verification of the cache length: from element arrays to numbers

`residues` runs `minmax_euclid` on natural numbers and checks on the way that no operation of tests/bigint.h is used
outside of the range where it is right.  `residues_sound` says that then the element arrays give the same result. -/

namespace Grisu
open Big

namespace CacheLength

/-- Evaluate the argument before passing it on. -/
def forced (n : Nat) (k : Nat → Bool) : Bool :=
  match n with
  | 0 => k 0
  | m + 1 => k (m + 1)

theorem forced_eq (n : Nat) (k : Nat → Bool) : forced n k = k n := by cases n <;> rfl

/-- No carry is lost in the product of `k` and `y`: elements `i`, ..., `i + count - 1` of `y`. -/
def keeps (k y : Nat) : Nat → Nat → Bool
  | 0, _ => true
  | count + 1, i =>
    (Nat.ble (2 ^ 64) (k * (y / 2 ^ (64 * i) % 2 ^ 64)) ||
      Nat.blt (k * (y % 2 ^ (64 * (i + 1)))) (2 ^ (64 * (i + 1)))) && keeps k y count (i + 1)

theorem keeps_spec {k y : Nat} : ∀ {count i : Nat}, keeps k y count i = true → ∀ m, i ≤ m → m < i + count →
    k * (y / 2 ^ (64 * m) % 2 ^ 64) < 2 ^ 64 → k * (y % 2 ^ (64 * (m + 1))) < 2 ^ (64 * (m + 1))
  | 0, _, _, m, h1, h2, _ => by omega
  | count + 1, i, h, m, h1, h2, h3 => by
    simp only [keeps, Bool.and_eq_true, Bool.or_eq_true, Nat.ble_eq, Nat.blt_eq] at h
    by_cases hm : m = i
    · subst hm
      rcases h.1 with g | g
      · omega
      · exact g
    · exact keeps_spec h.2 m (by omega) (by omega) h3

/-- `minmax_euclid` on numbers, with the checks; the continuation gets the minimum and the maximum. -/
def residues (size b N : Nat) (k : Nat → Nat → Bool) : Nat → (ai bi si ui : Nat) → Bool
  | 0, _, _, _, _ => false
  | fuel + 1, ai, bi, si, ui =>
    Nat.blt bi (2 ^ 63 * ai) &&
    forced (bi / ai) fun q0 => forced (bi % ai) fun r0 =>
    forced (bif Nat.beq r0 0 then q0 - 1 else q0) fun qi => forced (bif Nat.beq r0 0 then ai else r0) fun nb =>
    forced (qi * si + ui) fun nu =>
    bif Nat.blt N nu then
      forced ((N - ui) / si) fun m => forced (b - bi + m * ai) fun mx =>
      keeps m ai size 1 && (Nat.ble mx b && ((!Nat.beq m 0 || Nat.ble ai b) && k ai mx))
    else
      Nat.blt ai (2 ^ 63 * nb) &&
      forced (ai / nb) fun p0 => forced (ai % nb) fun s0 =>
      forced (bif Nat.beq s0 0 then p0 - 1 else p0) fun pi => forced (bif Nat.beq s0 0 then nb else s0) fun na =>
      forced (pi * nu + si) fun ns =>
      bif Nat.blt N ns then
        forced ((N - si) / nu) fun m =>
        keeps m nb size 1 && (Nat.ble (m * nb) ai && forced (ai - m * nb) fun mn => forced (b - nb) fun mx => k mn mx)
      else
        bif Nat.beq nb bi && Nat.beq na ai then
          forced (b - nb) fun mx => bif Nat.blt N (ns + nu) then k na mx else k 0 mx
        else residues size b N k fuel na nb ns nu

theorem lt_two {size v : Nat} (hs : 2 ≤ size) (h : v < 2 ^ 128) : v < 2 ^ (64 * size) :=
  lt_of_lt_of_le h (Nat.pow_le_pow_right (by norm_num) (by omega))

theorem small_topDigit {v : Nat} (h : v < 2 ^ 64) : topDigit v = 0 := topDigit_eq (by simpa using h) (Or.inl rfl)

/-- Division with a quotient of one element, on both levels. -/
theorem division {size a b df : Nat} (cfg : Cfg) (hs : 0 < size) (hsz : size < 2 ^ 57) (ha : a < 2 ^ (64 * size))
    (hb : b < 2 ^ (64 * size)) (hq : a < 2 ^ 63 * b) (hdf : 64 ≤ df) :
    long_division cfg df (bigOf size a) (bigOf size b) = .ok (bigOf size (a / b), bigOf size (a % b)) := by
  have hb0 : b ≠ 0 := by rintro rfl; simp at hq
  refine long_division_spec cfg (rep_bigOf hs ha) (rep_bigOf hs hb) hsz hb0 ?_ hdf
  have h2 := bitLength_mono (le_of_lt hq)
  rw [Nat.mul_comm, bitLength_mul_pow hb0] at h2
  omega

theorem division_positive {size a b df : Nat} (cfg : Cfg) (hs : 2 ≤ size) (hsz : size < 2 ^ 57)
    (ha : a < 2 ^ (64 * size)) (hb : b < 2 ^ (64 * size)) (ha0 : 0 < a) (hq : a < 2 ^ 63 * b) (hdf : 64 ≤ df) :
    big_div_positive cfg df (bigOf size a) (bigOf size b) =
      .ok (bigOf size (bif Nat.beq (a % b) 0 then a / b - 1 else a / b),
        bigOf size (bif Nat.beq (a % b) 0 then b else a % b)) ∧
    div_positive cfg a b = .ok ((bif Nat.beq (a % b) 0 then a / b - 1 else a / b),
        (bif Nat.beq (a % b) 0 then b else a % b)) ∧
    (bif Nat.beq (a % b) 0 then a / b - 1 else a / b) < 2 ^ 63 ∧
    0 < (bif Nat.beq (a % b) 0 then b else a % b) ∧ (bif Nat.beq (a % b) 0 then b else a % b) ≤ b ∧
    (bif Nat.beq (a % b) 0 then b else a % b) ≤ a ∧
    a = (bif Nat.beq (a % b) 0 then a / b - 1 else a / b) * b + (bif Nat.beq (a % b) 0 then b else a % b) := by
  have hs0 : 0 < size := by omega
  have hb0 : 0 < b := by rcases Nat.eq_zero_or_pos b with rfl | h; · simp at hq
                         exact h
  have hql : a / b < 2 ^ 63 := (Nat.div_lt_iff_lt_mul hb0).mpr hq
  have hr : a % b < b := Nat.mod_lt _ hb0
  have hdm := Nat.div_add_mod a b
  unfold big_div_positive div_positive big_div
  rw [division cfg hs0 hsz ha hb hq hdf, if_neg hb0.ne']
  simp only [Exec.ok_bind]
  have hrr := rep_bigOf (v := a % b) hs0 (by omega)
  have hqq := rep_bigOf (v := a / b) hs0 (by have : 2 ^ 64 ≤ 2 ^ (64 * size) := Nat.pow_le_pow_right (by norm_num) (by omega)
                                             omega)
  rw [show eqE (bigOf size (a % b)) 0 = .ok (decide (a % b = 0)) from
    compare_element_spec hrr (by norm_num) (fun h => by simp; omega) rfl]
  simp only [Exec.ok_bind]
  by_cases h0 : a % b = 0
  · have hq0 : a / b ≠ 0 := by
      intro h; rw [h, h0] at hdm; simp at hdm; omega
    have hba : b ≤ a := by
      have : b * 1 ≤ b * (a / b) := Nat.mul_le_mul_left _ (Nat.pos_of_ne_zero hq0)
      omega
    rw [show gtE (bigOf size (a / b)) 0 = .ok (decide (a / b > 0)) from
      compare_element_spec hqq (by norm_num) (fun h => by simp; omega) rfl]
    obtain ⟨p, bt, d1, d2⟩ := decrement_spec cfg (by omega) hqq hq0
    rw [d2 (by rw [small_topDigit (by omega)]; simp)] at d1
    simp only [h0, Nat.beq_refl, cond_true, decide_true, if_true, Exec.ok_bind,
      cassert_true (cfg := cfg) (b := decide (a / b > 0)) (by simp; omega), d1]
    refine ⟨trivial, trivial, by omega, hb0, le_rfl, hba, ?_⟩
    obtain ⟨m, hm⟩ := Nat.exists_eq_succ_of_ne_zero hq0
    rw [h0, hm, Nat.add_zero] at hdm
    rw [hm, Nat.succ_sub_one, ← hdm, Nat.mul_comm, Nat.succ_mul]
  · have hbq : Nat.beq (a % b) 0 = false := by
      rw [Bool.eq_false_iff]; intro h; exact h0 (Nat.eq_of_beq_eq_true h)
    simp only [h0, hbq, cond_false, decide_false, Bool.false_eq_true, if_false]
    exact ⟨trivial, trivial, hql, Nat.pos_of_ne_zero h0, by omega, Nat.mod_le _ _, by rw [Nat.mul_comm]; exact hdm.symm⟩

theorem mul_add_spec {size q s u : Nat} (cfg : Cfg) (hs : 2 ≤ size) (hq : q < 2 ^ 63) (hss : s < 2 ^ 64)
    (hu : u < 2 ^ 64) :
    ∃ p, big_mul_add cfg (bigOf size q) s u =
      .ok ⟨(bigOf size (q * s + u)).elements, (bigOf size (q * s + u)).element_pos, p⟩ := by
  have hs0 : 0 < size := by omega
  have hqs : q * s < 2 ^ 127 := by
    have : q * s < 2 ^ 63 * 2 ^ 64 := Nat.mul_lt_mul'' hq hss
    simpa using this
  have hrq := rep_bigOf (v := q) hs0 (lt_two hs (by omega))
  have hrs := rep_bigOf (v := s) hs0 (lt_two hs (by omega))
  unfold big_mul_add
  rw [hrq.len, ofElement_spec hs0 hss]
  simp only [Exec.ok_bind]
  rw [mul_small cfg hs hrq hrs.weak (by omega) (small_topDigit hss)]
  simp only [Exec.ok_bind]
  obtain ⟨p, h, _⟩ := addE_spec cfg (rep_bigOf (v := q * s) hs0 (lt_two hs (by omega))) hu (lt_two hs (by omega))
  exact ⟨p, h⟩

/-- The same with the second factor given as a multi-word integer whose length of the leading element is wrong. -/
theorem mul_stale_spec {size q s u p : Nat} (cfg : Cfg) (hs : 2 ≤ size) (hq : q < 2 ^ 63) (hss : s < 2 ^ 64)
    (hu : u < 2 ^ 64) :
    ∃ z p', mul cfg (bigOf size q) ⟨(bigOf size s).elements, (bigOf size s).element_pos, p⟩ = .ok z ∧ addE cfg z u =
      .ok ⟨(bigOf size (q * s + u)).elements, (bigOf size (q * s + u)).element_pos, p'⟩ := by
  have hs0 : 0 < size := by omega
  have hqs : q * s < 2 ^ 127 := by
    have : q * s < 2 ^ 63 * 2 ^ 64 := Nat.mul_lt_mul'' hq hss
    simpa using this
  have hrq := rep_bigOf (v := q) hs0 (lt_two hs (by omega))
  have hrs := rep_bigOf (v := s) hs0 (lt_two hs (by omega))
  have hw : Weak size s ⟨(bigOf size s).elements, (bigOf size s).element_pos, p⟩ :=
    ⟨hrs.len, hrs.lim, hrs.val, hrs.pos, hrs.above⟩
  obtain ⟨p', h, _⟩ := addE_spec cfg (rep_bigOf (v := q * s) hs0 (lt_two hs (by omega))) hu (lt_two hs (by omega))
  exact ⟨_, p', mul_small cfg hs hrq hw (by omega) (small_topDigit hss), h⟩

theorem gt_stale {size v n p : Nat} (hs : 0 < size) (hv : v < 2 ^ (64 * size)) (hn : n < 2 ^ 64) :
    gtE ⟨(bigOf size v).elements, (bigOf size v).element_pos, p⟩ n = .ok (decide (v > n)) :=
  show gtE (bigOf size v) n = _ from
    compare_element_spec (rep_bigOf hs hv) hn (fun h => by simp; omega) rfl

theorem first_element {size v : Nat} (hs : 0 < size) (hv : v < 2 ^ 64) :
    rd (bigOf size v).elements 0 = .ok v ∧ (bigOf size v).element_pos = 0 := by
  refine ⟨?_, small_topDigit hv⟩
  have h : v < 2 ^ (64 * size) := lt_of_lt_of_le hv (Nat.pow_le_pow_right (by norm_num) (by omega))
  have r := rep_bigOf hs h
  rw [rd_eq (by rw [r.len]; exact hs), el_bigOf h]
  simpa using hv

theorem times_spec {size k y : Nat} (cfg : Cfg) (hs : 0 < size) (hk : k < 2 ^ 64) (hy : y < 2 ^ (64 * size))
    (hy0 : 0 < y) (h : k * y < 2 ^ (64 * size)) (hkeep : keeps k y size 1 = true) :
    ∃ z, big_times cfg k (bigOf size y) = .ok z ∧ Weak size (k * y) z ∧
      (k ≠ 0 → z = bigOf size (k * y)) ∧ (k = 0 → z.element_pos = topDigit y) := by
  have hry := rep_bigOf hs hy
  have hk' : k < 2 ^ (64 * size) := lt_of_lt_of_le hk (Nat.pow_le_pow_right (by norm_num) (by omega))
  have hrk := rep_bigOf hs hk'
  unfold big_times
  rw [hry.len, ofElement_spec hs hk]
  simp only [Exec.ok_bind]
  by_cases h0 : k = 0
  · subst h0
    obtain ⟨z, e1, e2, e3⟩ := mul_zero_weak cfg hrk hry.weak
    exact ⟨z, e1, by simpa using e2, fun h => absurd rfl h, fun _ => e3⟩
  · have ht : topDigit k = 0 := small_topDigit hk
    have := mul_spec cfg hrk hry h0 hy0.ne' h (fun m h1 h2 h3 => by
      rw [ht] at h3 ⊢
      have hm : m < size := lt_of_le_of_lt h2 (topDigit_lt hs hy)
      have := keeps_spec hkeep m h1 (by omega) (by simpa using h3)
      simpa using this)
    exact ⟨_, this, (rep_bigOf hs h).weak, fun _ => rfl, fun h => absurd h h0⟩

theorem topDigit_mono {a b : Nat} (h : a ≤ b) : topDigit a ≤ topDigit b := by
  unfold topDigit
  have := bitLength_mono h
  exact Nat.div_le_div_right (by omega)

/-- What the result on arrays is, given the result on numbers. -/
structure Same (size b : Nat) (r : MinMax) (z : BigMinMax) : Prop where
  min : z.min = bigOf size r.min
  max : Weak size r.max z.max
  pos : z.max.element_pos ≤ topDigit b
  argmin : z.argmin = r.argmin
  argmax : z.argmax = r.argmax

theorem residues_sound (cfg : Cfg) {size b N df : Nat} {k : Nat → Nat → Bool} (hs : 2 ≤ size) (hsz : size < 2 ^ 57)
    (hb : b < 2 ^ (64 * size)) (hN : N < 2 ^ 64) (hdf : 64 ≤ df) :
    ∀ fuel ai bi si ui, residues size b N k fuel ai bi si ui = true → ai < 2 ^ (64 * size) → 0 < bi → bi ≤ b →
      1 ≤ si → si ≤ N → ui ≤ N →
      ∃ r z, (∀ c, minmax_loop cfg b N (fuel + c) ai bi si ui = .ok r) ∧
        (∀ c, big_minmax_loop cfg df (bigOf size b) N (fuel + c) (bigOf size ai) (bigOf size bi) si ui = .ok z) ∧
        Same size b r z ∧ k r.min r.max = true
  | 0, _, _, _, _, h, _, _, _, _, _, _ => by simp [residues] at h
  | fuel + 1, ai, bi, si, ui, h, hai, hbi, hbb, hsi, hsN, huN => by
    have hs0 : 0 < size := by omega
    simp only [residues, forced_eq, Bool.and_eq_true, Nat.blt_eq] at h
    obtain ⟨hq, h⟩ := h
    have ha0 : 0 < ai := by rcases Nat.eq_zero_or_pos ai with rfl | h; · simp at hq
                            exact h
    obtain ⟨d1, d2, d3, d4, d5, d6, d7⟩ := division_positive (df := df) cfg hs hsz (lt_of_le_of_lt hbb hb) hai hbi hq hdf
    generalize (bif Nat.beq (bi % ai) 0 then bi / ai - 1 else bi / ai) = qi at *
    generalize (bif Nat.beq (bi % ai) 0 then ai else bi % ai) = nb at *
    obtain ⟨p, hu⟩ := mul_add_spec (size := size) (q := qi) (s := si) (u := ui) cfg hs d3 (by omega) (by omega)
    have hnul : qi * si + ui < 2 ^ 128 := by
      have : qi * si < 2 ^ 63 * 2 ^ 64 := Nat.mul_lt_mul'' d3 (by omega)
      omega
    have hfc : ∀ c, fuel + 1 + c = (fuel + c) + 1 := fun c => by ring
    have hgu := gt_stale (p := p) hs0 (lt_two hs hnul) hN
    generalize hnu : qi * si + ui = nu at *
    have hrb := rep_bigOf hs0 hb
    have hrai := rep_bigOf hs0 hai
    have hrbi := rep_bigOf (v := bi) hs0 (lt_of_le_of_lt hbb hb)
    by_cases hgt : N < nu
    · have hbl : Nat.blt N nu = true := by simpa using hgt
      simp only [hbl, cond_true, Bool.and_eq_true, Nat.ble_eq, Bool.or_eq_true, Bool.not_eq_true'] at h
      obtain ⟨k1, k2, k3, k4⟩ := h
      have hsw : subw 64 N ui = N - ui := subw_of_le huN hN
      have hm64 : (N - ui) / si < 2 ^ 64 := lt_of_le_of_lt (Nat.div_le_self _ _) (lt_of_le_of_lt (Nat.sub_le _ _) hN)
      obtain ⟨t, t1, t2, t3, t4⟩ := times_spec cfg hs0 hm64 hai ha0
        (lt_of_le_of_lt (le_trans (Nat.le_add_left _ _) k2) hb) k1
      have hbs := sub_spec cfg hrb hrbi hbb
      obtain ⟨z, z1, z2, z3⟩ := add_weak cfg (rep_bigOf (v := b - bi) hs0 (lt_of_le_of_lt (Nat.sub_le _ _) hb)).weak t2
        (lt_of_le_of_lt k2 hb)
      refine ⟨⟨ai, b - bi + (N - ui) / si * ai, si, wrap 64 (ui + wrap 64 ((N - ui) / si * si))⟩,
        ⟨bigOf size ai, z, si, wrap 64 (ui + wrap 64 ((N - ui) / si * si))⟩, ?_, ?_, ⟨rfl, z2, ?_, rfl, rfl⟩, k4⟩
      · intro c; simp only [hfc c, minmax_loop, d2, Exec.ok_bind, hnu, gt_iff_lt, hgt, if_true, big_sub, hbb, hsw]
      · intro c; simp only [hfc c, big_minmax_loop, d1, Exec.ok_bind, hu, hgu, gt_iff_lt, hgt, decide_true, if_true, hsw, hbs, t1, z1]
      · generalize (N - ui) / si = m at *
        show z.element_pos ≤ topDigit b
        rcases z3 with g | g
        · rw [g]
          apply max_le (topDigit_mono (Nat.sub_le _ _))
          by_cases hm : m = 0
          · rw [t4 hm]
            rcases k3 with g | g
            · subst hm; simp at g
            · exact topDigit_mono g
          · rw [t3 hm]
            exact topDigit_mono (le_trans (Nat.le_add_left _ _) k2)
        · by_contra hc
          have h1 := lt_topDigit b
          have h2 : 2 ^ (64 * (topDigit b + 1)) ≤ 2 ^ (64 * z.element_pos) :=
            Nat.pow_le_pow_right (by norm_num) (by omega)
          exact absurd (lt_of_lt_of_le h1 (le_trans h2 (le_trans g k2))) (lt_irrefl _)
    · have hbl : Nat.blt N nu = false := by rw [Bool.eq_false_iff]; simpa using hgt
      have hnu64 : nu < 2 ^ 64 := lt_of_le_of_lt (Nat.not_lt.mp hgt) hN
      simp only [hbl, cond_false, Bool.and_eq_true, Nat.blt_eq] at h
      obtain ⟨hq2, h⟩ := h
      have hnbl : nb < 2 ^ (64 * size) := lt_of_le_of_lt d5 hai
      obtain ⟨c1, c2, c3, c4, c5, c6, c7⟩ := division_positive (df := df) cfg hs hsz hai hnbl ha0 hq2 hdf
      generalize (bif Nat.beq (ai % nb) 0 then ai / nb - 1 else ai / nb) = pi at *
      generalize (bif Nat.beq (ai % nb) 0 then nb else ai % nb) = na at *
      obtain ⟨w, p', s1, s2⟩ := mul_stale_spec (size := size) (q := pi) (s := nu) (u := si) (p := p) cfg hs c3 hnu64
        (lt_of_le_of_lt hsN hN)
      obtain ⟨u1, u2⟩ := first_element hs0 hnu64
      have hnsl : pi * nu + si < 2 ^ 128 := by
        have : pi * nu < 2 ^ 63 * 2 ^ 64 := Nat.mul_lt_mul'' c3 hnu64
        omega
      have hgs := gt_stale (p := p') hs0 (lt_two hs hnsl) hN
      rw [u2] at s1 hu hgu
      have hwu : wrap 64 nu = nu := wrap_of_lt hnu64
      generalize hns : pi * nu + si = ns at *
      have hbnb : nb ≤ b := le_trans d6 hbb
      have hrnb := rep_bigOf hs0 hnbl
      have hbs := sub_spec cfg hrb hrnb hbnb
      have hct : cassert cfg true = .ok () := cassert_true rfl
      by_cases hgt2 : N < ns
      · have hbl : Nat.blt N ns = true := by simpa using hgt2
        simp only [hbl, cond_true, Bool.and_eq_true, Nat.ble_eq] at h
        obtain ⟨k1, k2, k3⟩ := h
        have hsw : subw 64 N si = N - si := subw_of_le hsN hN
        have hm64 : (N - si) / nu < 2 ^ 64 := lt_of_le_of_lt (Nat.div_le_self _ _) (lt_of_le_of_lt (Nat.sub_le _ _) hN)
        obtain ⟨t, t1, t2, t3, t4⟩ := times_spec cfg hs0 hm64 hnbl d4 (lt_of_le_of_lt k2 hai) k1
        have hts : sub cfg (bigOf size ai) t = .ok (bigOf size (ai - (N - si) / nu * nb)) := by
          refine sub_weak cfg hrai t2 ?_ k2
          show t.element_pos ≤ topDigit ai
          by_cases hm : (N - si) / nu = 0
          · rw [t4 hm]; exact topDigit_mono d5
          · rw [t3 hm]; exact topDigit_mono k2
        refine ⟨⟨ai - (N - si) / nu * nb, b - nb, wrap 64 (si + wrap 64 ((N - si) / nu * nu)), nu⟩,
          ⟨bigOf size (ai - (N - si) / nu * nb), bigOf size (b - nb), wrap 64 (si + wrap 64 ((N - si) / nu * nu)), nu⟩,
          ?_, ?_, ⟨rfl, (rep_bigOf hs0 (lt_of_le_of_lt (Nat.sub_le _ _) hb)).weak, topDigit_mono (Nat.sub_le _ _), rfl, rfl⟩, k3⟩
        · intro c; simp only [hfc c, minmax_loop, d2, Exec.ok_bind, hnu, gt_iff_lt, hgt, if_false, hnu64, decide_true, hct, c2, hwu, hns,
            hgt2, if_true, hsw, big_sub, k2, hbnb]
        · intro c; simp only [hfc c, big_minmax_loop, d1, Exec.ok_bind, hu, hgu, gt_iff_lt, hgt, decide_false, Bool.false_eq_true, if_false,
            u1, decide_true, hct, c1, s1, s2, hgs, hgt2, if_true, hsw, t1, hts, hbs]
      · have hbl : Nat.blt N ns = false := by rw [Bool.eq_false_iff]; simpa using hgt2
        have hns64 : ns < 2 ^ 64 := lt_of_le_of_lt (Nat.not_lt.mp hgt2) hN
        obtain ⟨v1, v2⟩ := first_element hs0 hns64
        have hws : wrap 64 ns = ns := wrap_of_lt hns64
        rw [v2] at s2 hgs
        have hnal : na < 2 ^ (64 * size) := lt_of_le_of_lt c5 hnbl
        have eqb : Big.eq (bigOf size nb) (bigOf size bi) = .ok (decide (nb = bi)) :=
          compare_with_spec hrnb hrbi (fun h => by simp; omega) (fun h => by simp; omega) (fun u v h => by
            by_cases g : nb = bi
            · have : u = v := by omega
              simp [g, this]
            · have : u ≠ v := by omega
              simp [g, this])
        have eqa : Big.eq (bigOf size na) (bigOf size ai) = .ok (decide (na = ai)) :=
          compare_with_spec (rep_bigOf hs0 hnal) hrai (fun h => by simp; omega) (fun h => by simp; omega) (fun u v h => by
            by_cases g : na = ai
            · have : u = v := by omega
              simp [g, this]
            · have : u ≠ v := by omega
              simp [g, this])
        simp only [hbl, cond_false] at h
        by_cases hsame : nb = bi ∧ na = ai
        · obtain ⟨g1, g2⟩ := hsame
          have hbe : (Nat.beq nb bi && Nat.beq na ai) = true := by simp [g1, g2]
          simp only [hbe, cond_true] at h
          -- the quotients are zero, so that the indices have not changed
          have hq0 : qi = 0 := by
            rw [g1] at d7
            have : qi * ai = 0 := by omega
            rcases Nat.mul_eq_zero.mp this with g | g
            · exact g
            · omega
          have hp0 : pi = 0 := by
            rw [g2] at c7
            have : pi * nb = 0 := by omega
            rcases Nat.mul_eq_zero.mp this with g | g
            · exact g
            · omega
          have hnu' : ui = nu := by rw [hq0] at hnu; omega
          have hns' : si = ns := by rw [hp0] at hns; omega
          have hsl : ns + nu < 2 ^ (64 * size) := lt_two hs (by omega)
          have hsum : add cfg ⟨(bigOf size ns).elements, (bigOf size ns).element_pos, p'⟩
              ⟨(bigOf size nu).elements, (bigOf size nu).element_pos, p⟩ = .ok (bigOf size (ns + nu)) :=
            show add cfg (bigOf size ns) (bigOf size nu) = _ from add_spec cfg (rep_bigOf (v := ns) hs0 (lt_two hs hnsl)) (rep_bigOf (v := nu) hs0 (lt_two hs hnul)) hsl
          rw [v2, u2] at hsum
          have hgsum : gtE (bigOf size (ns + nu)) N = .ok (decide (ns + nu > N)) :=
            compare_element_spec (rep_bigOf hs0 hsl) hN (fun h => by simp; omega) rfl
          have hw : Weak size (b - nb) (bigOf size (b - nb)) := (rep_bigOf hs0 (lt_of_le_of_lt (Nat.sub_le _ _) hb)).weak
          subst hq0 hp0 g1 g2 hnu' hns'
          by_cases hg3 : N < si + ui
          · have hbl3 : Nat.blt N (si + ui) = true := by simpa using hg3
            simp only [hbl3, cond_true] at h
            refine ⟨⟨na, b - nb, si, ui⟩, ⟨bigOf size na, bigOf size (b - nb), si, ui⟩, ?_, ?_,
              ⟨rfl, hw, topDigit_mono (Nat.sub_le _ _), rfl, rfl⟩, h⟩
            · intro c; simp only [hfc c, minmax_loop, d2, Exec.ok_bind, hnu, gt_iff_lt, hgt, if_false, hnu64, decide_true, hct, c2, hwu, hns,
                hgt2, hns64, hws, and_self, if_true, big_sub, hbnb, hg3]
            · intro c; simp only [hfc c, big_minmax_loop, d1, Exec.ok_bind, hu, hgu, gt_iff_lt, hgt, decide_false, Bool.false_eq_true, if_false,
                u1, decide_true, hct, c1, s1, s2, hgs, hgt2, v1, eqb, eqa, if_true, hbs, hsum, hgsum, hg3]
          · have hbl3 : Nat.blt N (si + ui) = false := by rw [Bool.eq_false_iff]; simpa using hg3
            simp only [hbl3, cond_false] at h
            have hs64 : si + ui < 2 ^ 64 := lt_of_le_of_lt (Nat.not_lt.mp hg3) hN
            have hws3 : wrap 64 (si + ui) = si + ui := wrap_of_lt hs64
            obtain ⟨w1, w2⟩ := first_element hs0 hs64
            refine ⟨⟨0, b - nb, si + ui, ui⟩, ⟨bigOf size 0, bigOf size (b - nb), si + ui, ui⟩, ?_, ?_,
              ⟨rfl, hw, topDigit_mono (Nat.sub_le _ _), rfl, rfl⟩, h⟩
            · intro c; simp only [hfc c, minmax_loop, d2, Exec.ok_bind, hnu, gt_iff_lt, hgt, if_false, hnu64, decide_true, hct, c2, hwu, hns,
                hgt2, hns64, hws, and_self, if_true, big_sub, hbnb, hg3, hs64, hws3]
            · intro c; simp only [hfc c, big_minmax_loop, d1, Exec.ok_bind, hu, hgu, gt_iff_lt, hgt, decide_false, Bool.false_eq_true, if_false,
                u1, decide_true, hct, c1, s1, s2, hgs, hgt2, v1, eqb, eqa, if_true, hbs, hsum, hgsum, hg3,
                w1, w2, hrb.len, ofElement_spec hs0 (show 0 < 2 ^ 64 by norm_num)]
        · have hbe : (Nat.beq nb bi && Nat.beq na ai) = false := by
            rw [Bool.eq_false_iff]; intro g
            simp only [Bool.and_eq_true] at g
            exact hsame ⟨Nat.eq_of_beq_eq_true g.1, Nat.eq_of_beq_eq_true g.2⟩
          simp only [hbe, cond_false] at h
          obtain ⟨r, z, r1, r2, r3, r4⟩ := residues_sound cfg hs hsz hb hN hdf fuel na nb ns nu h hnal d4 hbnb
            (by omega) (by omega) (by omega)
          refine ⟨r, z, ?_, ?_, r3, r4⟩
          · intro c; simp only [hfc c, minmax_loop, d2, Exec.ok_bind, hnu, gt_iff_lt, hgt, if_false, hnu64, decide_true, hct, c2, hwu, hns,
              hgt2, hns64, hws, hsame, r1 c]
          · intro c; simp only [hfc c, big_minmax_loop, d1, Exec.ok_bind, hu, hgu, gt_iff_lt, hgt, decide_false, Bool.false_eq_true, if_false,
              u1, decide_true, hct, c1, s1, s2, hgs, hgt2, v1, eqb, eqa]
            by_cases g : nb = bi
            · have g2 : na ≠ ai := fun h => hsame ⟨g, h⟩
              simp only [g, g2, decide_true, if_true, decide_false, Exec.ok_bind, Bool.false_eq_true, if_false]
              rw [← g]; exact r2 c
            · simp only [g, decide_false, Bool.false_eq_true, if_false, Exec.ok_bind]
              exact r2 c

theorem residues_good (cfg : Cfg) {size a b N fuel f : Nat} {k : Nat → Nat → Bool} (hs : 2 ≤ size)
    (hsz : size < 2 ^ 57) (ha0 : 0 < a) (ha : a < 2 ^ (64 * size)) (hb0 : 0 < b) (hb : b < 2 ^ (64 * size)) (hN0 : 0 < N)
    (hN : N < 2 ^ 64) (hf : 64 ≤ f) (hff : fuel ≤ f) (h : residues size b N k fuel a b 1 0 = true) :
    ∃ r z, big_minmax_euclid cfg f (bigOf size a) (bigOf size b) N = .ok z ∧ Same size b r z ∧
      MinMaxProof.Good a b N r ∧ k r.min r.max = true := by
  obtain ⟨r, z, h1, h2, h3, h4⟩ := residues_sound cfg hs hsz hb hN hf fuel a b 1 0 h ha hb0 le_rfl le_rfl hN0 (Nat.zero_le _)
  refine ⟨r, z, ?_, h3, ?_, h4⟩
  · have := h2 (f - fuel)
    rwa [show fuel + (f - fuel) = f by omega] at this
  · obtain ⟨r', g1, g2⟩ := MinMaxProof.loop_good cfg (a := a) hb0 hN (fuel + (a + b + 1)) a b 1 0
      ⟨⟨0, by simp⟩, ⟨1, by simp⟩, by simp, ha0, hb0, le_rfl, le_rfl, hN0, Nat.zero_le _⟩ (by omega)
    rw [h1] at g1
    cases g1
    exact g2

end CacheLength
end Grisu
