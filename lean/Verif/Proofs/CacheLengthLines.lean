import Verif.Proofs.CacheLength
import Verif.SpecLength

/-! # The verification of the cache length: the number of bits for one exponent -/

namespace Grisu
open Big Spec

namespace CacheLength

theorem greatest_of_good {a b N : Nat} {r : MinMax} (hN : 0 < N) (g : MinMaxProof.Good a b N r) :
    IsGreatest (multiples a b N) r.max := by
  refine ⟨?_, ?_⟩
  · by_cases h : b ∣ a
    · have h0 : ∀ n, a * n % b = 0 := fun n => Nat.mod_eq_zero_of_dvd (Dvd.dvd.mul_right h n)
      exact ⟨1, le_rfl, hN, by rw [h0, ← g.hmax, h0]⟩
    · exact ⟨r.argmax, g.argmax1 h, g.argmaxN, g.hmax⟩
  · rintro _ ⟨n, h1, h2, rfl⟩
    exact g.le_max n h1 h2

theorem least_of_good {a b N : Nat} {r : MinMax} (g : MinMaxProof.Good a b N r) :
    IsLeast (multiples a b N) r.min := by
  refine ⟨⟨r.argmin, g.argmin1, g.argminN, g.hmin⟩, ?_⟩
  rintro _ ⟨n, h1, h2, rfl⟩
  exact g.min_le n h1 h2

theorem log2p1_bigOf {size v : Nat} (hs : 0 < size) (hv : v < 2 ^ (64 * size)) :
    big_log2p1 (bigOf size v) = bitLength v ∧ ((bigOf size v).bit_pos ≠ 0 ↔ v ≠ 0) := by
  by_cases h0 : v = 0
  · subst h0
    refine ⟨?_, ?_⟩
    · simp [big_log2p1, bigOf, topDigit, bitLength]
    · simp [bigOf, topDigit, bitLength]
  · obtain ⟨h1, h2, _⟩ := bitLength_rep (rep_bigOf hs hv) h0
    refine ⟨by unfold big_log2p1; omega, by omega⟩

theorem length_le {size v : Nat} (hs : 0 < size) (hv : v < 2 ^ (64 * size)) : bitLength v ≤ 64 * size := by
  by_cases h0 : v = 0
  · simp [h0, bitLength]
  · have := lt_of_le_of_lt (le_bitLength h0) hv
    have := (Nat.pow_lt_pow_iff_right (a := 2) (by norm_num)).mp this
    omega

/-- The length of a number, found in steps of 64 binary digits. -/
def width (k : Nat → Bool) : Nat → (v acc : Nat) → Bool
  | 0, _, _ => false
  | n + 1, v, acc =>
    bif Nat.blt v (2 ^ 64) then forced (log2p1 v + acc) k
    else forced (v / 2 ^ 64) fun v => forced (acc + 64) fun acc => width k n v acc

theorem width_spec {k : Nat → Bool} : ∀ {n v acc : Nat}, width k n v acc = true → (acc ≠ 0 → v ≠ 0) →
    k (bitLength v + acc) = true
  | 0, _, _, h, _ => by simp [width] at h
  | n + 1, v, acc, h, h0 => by
    simp only [width, forced_eq] at h
    by_cases hv : v < 2 ^ 64
    · rw [Nat.blt_eq.mpr hv, cond_true, log2p1_eq hv] at h
      exact h
    · rw [show Nat.blt v (2 ^ 64) = false from Bool.eq_false_iff.mpr fun h => hv (Nat.blt_eq.mp h), cond_false] at h
      have h1 : v / 2 ^ 64 ≠ 0 := (Nat.div_pos (by omega) (by norm_num)).ne'
      have := width_spec h fun _ => h1
      have hb : bitLength (v / 2 ^ 64) ≠ 0 := by unfold bitLength; rw [if_neg h1]; omega
      rw [bitLength_div] at this hb
      rwa [show bitLength v - 64 + (acc + 64) = bitLength v + acc by omega] at this

/-- The length of `P / (P - M)`. -/
def reciprocal (P M : Nat) (k : Nat → Bool) : Bool :=
  Nat.blt M P && forced (P - M) fun d => Nat.blt P (2 ^ 63 * d) && forced (P / d) fun q => forced (log2p1 q) k

theorem reciprocal_sound (cfg : Cfg) {size P M f : Nat} {z : Big} {k : Nat → Bool} (hs : 0 < size)
    (hsz : size < 2 ^ 57) (hP : P < 2 ^ (64 * size)) (hf : 64 ≤ f) (hz : Weak size M z)
    (hpos : z.element_pos ≤ topDigit P) (h : reciprocal P M k = true) :
    reciprocal_length cfg f (bigOf size P) z = .ok (bitLength (P / (P - M))) ∧
      k (bitLength (P / (P - M))) = true := by
  simp only [reciprocal, forced_eq, Bool.and_eq_true, Nat.blt_eq] at h
  obtain ⟨h1, h2, h3⟩ := h
  have hd : 0 < P - M := by omega
  have hq : P / (P - M) < 2 ^ 63 := (Nat.div_lt_iff_lt_mul hd).mpr h2
  have hql : P / (P - M) < 2 ^ (64 * size) := lt_of_le_of_lt (Nat.div_le_self _ _) hP
  rw [log2p1_eq (by omega)] at h3
  refine ⟨?_, h3⟩
  unfold reciprocal_length
  rw [sub_weak cfg (rep_bigOf hs hP) hz hpos h1.le]
  simp only [Exec.ok_bind]
  rw [division cfg hs hsz hP (by omega) h2 hf]
  simp only [Exec.ok_bind]
  rw [(log2p1_bigOf hs hql).1]

/-- The number of bits for a negative decimal exponent: `P` is the power of five, `x` and `w` are as in
`NegativeLength`. -/
def negative_line (size range P x w bits fuel : Nat) : Bool :=
  Nat.ble 1 x && Nat.ble 1 w && Nat.blt (x + 2) (64 * size) && Nat.blt P (2 ^ (64 * size)) &&
  residues size P range (fun _ m1 => reciprocal P m1 fun l1 =>
    residues size P (range / 2) (fun _ m2 => reciprocal P m2 fun l2 =>
      forced (2 ^ (x - 1) * (range - 1)) fun a =>
      Nat.blt a (2 ^ 63 * P) && (Nat.blt a (2 ^ (64 * size)) && forced (a % P) fun m3 =>
      reciprocal P m3 fun l3 =>
        Nat.beq bits (max (max (w + l1) (w + l2)) (w - 1 + l3)))) fuel (2 ^ (x + 2)) P 1 0) fuel (2 ^ x) P 1 0

theorem size_sum_eq {n : Int} {v : Nat} (h : n = v) (hv : v < 2 ^ 64) : size_sum n = v := by
  unfold size_sum; omega

theorem negative_line_sound (cfg : Cfg) {F : Fmt} {P x w bits fuel f : Nat} {e k l : Int}
    (hs : 2 ≤ bigint_size F.negative_k_max_bits) (hsz : bigint_size F.negative_k_max_bits < 2 ^ 50)
    (hp : F.p ≤ 60) (hf : 64 ≤ f) (hff : fuel ≤ f) (hP : 0 < P) (hw : w < 2 ^ 60)
    (hx : (x : Int) = F.q_mp_m2 + e + k) (hl : floor_log2_pow10 cfg k = .ok l) (hwe : (w : Int) = F.q + e + l + 1)
    (h : negative_line (bigint_size F.negative_k_max_bits) F.length_range P x w bits fuel = true) :
    negative_k_bits cfg F f (bigOf (bigint_size F.negative_k_max_bits) P) e k = .ok bits ∧ 1 ≤ x ∧ 1 ≤ w ∧
    ∃ M1 M2, IsGreatest (multiples (2 ^ x) P (2 ^ (F.p + 2))) M1 ∧
      IsGreatest (multiples (2 ^ (x + 2)) P (2 ^ (F.p + 1))) M2 ∧
      bits = max (max (w + bitLength (P / (P - M1))) (w + bitLength (P / (P - M2))))
        (w - 1 + bitLength (P / (P - 2 ^ (x - 1) * (2 ^ (F.p + 2) - 1) % P))) := by
  have hr : F.length_range = 2 ^ (F.p + 2) := rfl
  have hr2 : F.length_range / 2 = 2 ^ (F.p + 1) := by rw [hr, pow_succ _ (F.p + 1)]; simp
  have hN : 2 ^ (F.p + 2) < 2 ^ 64 := Nat.pow_lt_pow_right (by norm_num) (by omega)
  have hN1 : 2 ^ (F.p + 1) < 2 ^ 64 := Nat.pow_lt_pow_right (by norm_num) (by omega)
  have hN0 : 4 ≤ 2 ^ (F.p + 2) := le_trans (by norm_num) (Nat.pow_le_pow_right (n := 2) (by norm_num) (show 2 ≤ F.p + 2 by omega))
  unfold negative_k_bits
  rw [hr2, hr]
  unfold negative_line at h
  rw [hr2, hr] at h
  generalize bigint_size F.negative_k_max_bits = size at *
  have hs0 : 0 < size := by omega
  simp only [Bool.and_eq_true, Nat.blt_eq, Nat.ble_eq] at h
  obtain ⟨⟨⟨⟨hx1, hw1⟩, hx2⟩, hPs⟩, h⟩ := h
  have pw : ∀ {y}, y < 64 * size → 2 ^ y < 2 ^ (64 * size) := fun h => Nat.pow_lt_pow_right (by norm_num) h
  obtain ⟨r1, z1, a1, a2, a3, h⟩ := residues_good cfg hs (by omega) (Nat.two_pow_pos x) (pw (by omega)) hP hPs (Nat.two_pow_pos _)
    hN hf hff h
  obtain ⟨b1, h⟩ := reciprocal_sound cfg hs0 (by omega) hPs hf a2.max a2.pos h
  obtain ⟨r2, z2, c1, c2, c3, h⟩ := residues_good cfg hs (by omega) (Nat.two_pow_pos (x + 2)) (pw hx2) hP hPs (Nat.two_pow_pos _)
    hN1 hf hff h
  obtain ⟨d1, h⟩ := reciprocal_sound cfg hs0 (by omega) hPs hf c2.max c2.pos h
  simp only [forced_eq, Bool.and_eq_true, Nat.blt_eq] at h
  obtain ⟨e1, e2, h⟩ := h
  have hm : 2 ^ (x - 1) * (2 ^ (F.p + 2) - 1) % P < P := Nat.mod_lt _ hP
  obtain ⟨g1, h⟩ := reciprocal_sound cfg hs0 (by omega) hPs hf (rep_bigOf hs0 (lt_trans hm hPs)).weak
    (topDigit_mono hm.le) h
  have hbits := Nat.eq_of_beq_eq_true h
  have bl : ∀ M, bitLength (P / (P - M)) ≤ 64 * size := fun M =>
    length_le hs0 (lt_of_le_of_lt (Nat.div_le_self _ _) hPs)
  have l1 := bl r1.max
  have l2 := bl r2.max
  have l3 := bl (2 ^ (x - 1) * (2 ^ (F.p + 2) - 1) % P)
  refine ⟨?_, hx1, hw1, r1.max, r2.max, greatest_of_good (Nat.two_pow_pos _) a3, greatest_of_good (Nat.two_pow_pos _) c3, hbits⟩
  rw [size_sum_eq (show (F.q_mp_m2 : Int) + e + k = x by omega) (by omega),
    size_sum_eq (show (F.q_mp_m2 : Int) + e + k + 2 = (x + 2 : Nat) by omega) (by omega),
    size_sum_eq (show (F.q_mp_m2 : Int) + e + k - 1 = (x - 1 : Nat) by omega) (by omega)]
  simp only [power_of_2_spec cfg (show x < 64 * size by omega), power_of_2_spec cfg hx2,
    power_of_2_spec cfg (show x - 1 < 64 * size by omega), Exec.ok_bind]
  rw [a1]
  simp only [Exec.ok_bind]
  rw [b1]
  simp only [Exec.ok_bind, hl]
  rw [c1]
  simp only [Exec.ok_bind]
  rw [d1]
  simp only [Exec.ok_bind]
  rw [mulE_spec cfg (rep_bigOf hs0 (pw (by omega))) (by omega) (by omega) e2]
  simp only [Exec.ok_bind]
  rw [division cfg hs0 (by omega) e2 hPs e1 hf]
  simp only [Exec.ok_bind]
  rw [g1]
  simp only [Exec.ok_bind]
  rw [hbits]
  generalize bitLength (P / (P - r1.max)) = v1 at *
  generalize bitLength (P / (P - r2.max)) = v2 at *
  generalize bitLength (P / (P - 2 ^ (x - 1) * (2 ^ (F.p + 2) - 1) % P)) = v3 at *
  rw [size_sum_eq (show (F.q : Int) + e + l + 1 + v1 = (w + v1 : Nat) by omega) (by omega),
    size_sum_eq (show (F.q : Int) + e + l + 1 + v2 = (w + v2 : Nat) by omega) (by omega),
    size_sum_eq (show (F.q : Int) + e + l + v3 = (w - 1 + v3 : Nat) by omega) (by omega)]
  congr 1
  split_ifs <;> omega

theorem shortened_spec {size w v limit : Nat} (hs : 0 < size) (hsz : size < 2 ^ 50) (hv : v < 2 ^ (64 * size))
    (hw : w < 2 ^ 60) (hl : limit < 2 ^ 60) (h : limit + 1 < bitLength v → bitLength v - 1 - limit ≤ w) :
    shortened_bits w (bigOf size v) limit =
      if limit + 1 < bitLength v then some (w - (bitLength v - 1 - limit)) else none := by
  obtain ⟨h1, h2⟩ := log2p1_bigOf hs hv
  have h3 := length_le hs hv
  unfold shortened_bits
  by_cases h0 : v = 0
  · rw [if_neg (by rw [h2]; simpa using h0), if_neg (by simp [h0, bitLength])]
  · have h4 : bitLength v ≠ 0 := by unfold bitLength; rw [if_neg h0]; omega
    rw [if_pos (h2.mpr h0), h1, show subw 64 (bitLength v) 1 = bitLength v - 1 by unfold subw; omega]
    simp only []
    by_cases hc : limit + 1 < bitLength v
    · have := h hc
      rw [if_pos (by omega), if_pos hc, size_sum_eq (v := w - (bitLength v - 1 - limit)) (by omega) (by omega)]
    · rw [if_neg (by omega), if_neg hc]

/-- The first number of bits for a decimal exponent that is not negative, `n` is the length of the least residue. -/
def shorten (w limit : Nat) (k : Nat → Bool) (n : Nat) : Bool :=
  bif Nat.blt (limit + 1) n then Nat.ble (n - 1 - limit) w && forced (w - (n - 1 - limit)) k else k w

/-- The later numbers of bits; if the number is not long enough, all bits are in use, `w ≤ cap`. -/
def lengthen (w limit old cap : Nat) (k : Nat → Bool) (n : Nat) : Bool :=
  bif Nat.blt (limit + 1) n then Nat.ble (n - 1 - limit) w && forced (max old (w - (n - 1 - limit))) k else Nat.ble w cap && k old

theorem shorten_spec {w limit : Nat} {k : Nat → Bool} {n : Nat} (h : shorten w limit k n = true) :
    (limit + 1 < n → n - 1 - limit ≤ w) ∧ k (w - (n - 1 - limit)) = true := by
  unfold shorten at h
  by_cases hc : limit + 1 < n
  · rw [Nat.blt_eq.mpr hc, cond_true] at h
    simp only [Bool.and_eq_true, Nat.ble_eq, forced_eq] at h
    exact ⟨fun _ => h.1, h.2⟩
  · rw [show Nat.blt (limit + 1) n = false from Bool.eq_false_iff.mpr fun h => hc (Nat.blt_eq.mp h), cond_false] at h
    refine ⟨fun h => absurd h hc, ?_⟩
    rwa [show w - (n - 1 - limit) = w by omega]

theorem lengthen_spec {w limit old cap : Nat} {k : Nat → Bool} {m : Nat}
    (h : lengthen w limit old cap k (bitLength m) = true) :
    (limit + 1 < bitLength m → bitLength m - 1 - limit ≤ w) ∧ k (lengthened w limit old m) = true ∧
      (limit + 1 < bitLength m ∨ w ≤ cap) := by
  unfold lengthen at h
  unfold lengthened
  by_cases hc : limit + 1 < bitLength m
  · rw [Nat.blt_eq.mpr hc, cond_true] at h
    simp only [Bool.and_eq_true, Nat.ble_eq, forced_eq] at h
    rw [if_pos hc]
    exact ⟨fun _ => h.1, h.2, Or.inl hc⟩
  · rw [show Nat.blt (limit + 1) (bitLength m) = false from Bool.eq_false_iff.mpr fun h => hc (Nat.blt_eq.mp h), cond_false] at h
    simp only [Bool.and_eq_true, Nat.ble_eq] at h
    rw [if_neg hc]
    exact ⟨fun h => absurd h hc, h.2, Or.inr h.1⟩

/-- The number of bits for a decimal exponent that is not negative: `P` is the power of five, `y` is `x + 1` or 0 and
`w` is as in `PositiveLength`. -/
def positive_line (size p P y w bits cap fuel : Nat) : Bool :=
  Nat.blt y (64 * size) && (Nat.blt P (2 ^ (64 * size)) &&
  first fun r1 => second r1 fun r2 => third r2 fun r => Nat.beq bits r)
where
  first (k : Nat → Bool) : Bool :=
    bif Nat.blt 1 y then
      residues size (2 ^ (y - 1)) (2 ^ (p + 2)) (fun m _ => width (shorten w (p + 2) k) (size + 1) m 0)
        fuel P (2 ^ (y - 1)) 1 0
    else k w
  second (r1 : Nat) (k : Nat → Bool) : Bool :=
    bif Nat.blt 3 y then
      residues size (2 ^ (y - 3)) (2 ^ (p + 1)) (fun m _ => width (lengthen w (p + 1) r1 cap k) (size + 1) m 0)
        fuel P (2 ^ (y - 3)) 1 0
    else Nat.ble w cap && k r1
  third (r2 : Nat) (k : Nat → Bool) : Bool :=
    bif Nat.blt 0 y then
      forced (P * (2 ^ (p + 2) - 1)) fun a => Nat.blt a (2 ^ (64 * size)) && (Nat.blt a (2 ^ 63 * 2 ^ y) &&
        forced (a % 2 ^ y) fun m => width (lengthen w (p + 2) r2 bits k) (size + 1) m 0)
    else k r2

theorem blt_false {a b : Nat} (h : ¬ a < b) : Nat.blt a b = false := Bool.eq_false_iff.mpr fun g => h (Nat.blt_eq.mp g)

theorem positive_line_sound (cfg : Cfg) {F : Fmt} {P y w bits cap fuel f : Nat} {e k l x : Int}
    (hs : 2 ≤ bigint_size F.positive_k_max_bits) (hsz : bigint_size F.positive_k_max_bits < 2 ^ 50)
    (hp : F.p ≤ 60) (hf : 64 ≤ f) (hff : fuel ≤ f) (hP : 0 < P) (hw : w < 2 ^ 60)
    (hx : x = -e - k - F.q_mp_m2) (hy : y = (x + 1).toNat) (hl : floor_log2_pow10 cfg k = .ok l)
    (hwe : (w : Int) = l - k + 1)
    (h : positive_line (bigint_size F.positive_k_max_bits) F.p P y w bits cap fuel = true) :
    positive_k_bits cfg F f (bigOf (bigint_size F.positive_k_max_bits) P) e k = .ok bits ∧
    ∃ r1 r2, (x ≤ 0 → r1 = w) ∧
    (0 < x → ∃ M1, IsLeast (multiples P (2 ^ x.toNat) (2 ^ (F.p + 2))) M1 ∧
      r1 = w - (bitLength M1 - 1 - (F.p + 2))) ∧
    (x ≤ 2 → r2 = r1 ∧ w ≤ cap) ∧
    (2 < x → ∃ M2, IsLeast (multiples P (2 ^ (x - 2).toNat) (2 ^ (F.p + 1))) M2 ∧
      r2 = lengthened w (F.p + 1) r1 M2 ∧ (F.p + 2 < bitLength M2 ∨ w ≤ cap)) ∧
    (x ≤ -1 → bits = r2) ∧
    (-1 < x → bits = lengthened w (F.p + 2) r2 (P * (2 ^ (F.p + 2) - 1) % 2 ^ (x + 1).toNat) ∧
      (F.p + 3 < bitLength (P * (2 ^ (F.p + 2) - 1) % 2 ^ (x + 1).toNat) ∨ w ≤ bits)) := by
  have hr : F.length_range = 2 ^ (F.p + 2) := rfl
  have hr2 : F.length_range / 2 = 2 ^ (F.p + 1) := by rw [hr, pow_succ _ (F.p + 1)]; simp
  have hN : 2 ^ (F.p + 2) < 2 ^ 64 := Nat.pow_lt_pow_right (by norm_num) (by omega)
  have hN1 : 2 ^ (F.p + 1) < 2 ^ 64 := Nat.pow_lt_pow_right (by norm_num) (by omega)
  have hN0 : 4 ≤ 2 ^ (F.p + 2) := le_trans (by norm_num) (Nat.pow_le_pow_right (n := 2) (by norm_num) (show 2 ≤ F.p + 2 by omega))
  unfold positive_k_bits
  rw [hr2, hr]
  unfold positive_line at h
  generalize bigint_size F.positive_k_max_bits = size at *
  have hs0 : 0 < size := by omega
  simp only [Bool.and_eq_true, Nat.blt_eq] at h
  obtain ⟨hys, hPs, h⟩ := h
  have pw : ∀ {y}, y < 64 * size → 2 ^ y < 2 ^ (64 * size) := fun h => Nat.pow_lt_pow_right (by norm_num) h
  simp only [hl, Exec.ok_bind, size_sum_eq (show l - k + 1 = (w : Nat) by omega) (by omega), ← hx]
  -- the first step
  have s1 : ∃ r1, (if x > 0 then (do
      let b ← power_of_2 cfg size (size_sum x)
      let m ← big_minmax_euclid cfg f (bigOf size P) b (2 ^ (F.p + 2))
      .ok ((shortened_bits w m.min (F.p + 2)).getD w)) else .ok w : Exec Nat) = .ok r1 ∧ (x ≤ 0 → r1 = w) ∧
      (0 < x → ∃ M1, IsLeast (multiples P (2 ^ x.toNat) (2 ^ (F.p + 2))) M1 ∧
      r1 = w - (bitLength M1 - 1 - (F.p + 2))) ∧
      (positive_line.second size F.p P y w cap fuel r1 fun r2 => positive_line.third size F.p P y w bits r2 fun r => Nat.beq bits r) = true := by
    unfold positive_line.first at h
    by_cases hx0 : 0 < x
    · rw [Nat.blt_eq.mpr (by omega), cond_true] at h
      have hxy : y - 1 = x.toNat := by omega
      rw [hxy] at h
      have hxs : x.toNat < 64 * size := by omega
      obtain ⟨r, z, a1, a2, a3, h⟩ := residues_good cfg hs (by omega) hP hPs (Nat.two_pow_pos x.toNat) (pw hxs)
        (Nat.two_pow_pos _) hN hf hff h
      have := width_spec h (by simp)
      obtain ⟨b1, b2⟩ := shorten_spec this
      have hrs : r.min < 2 ^ (64 * size) := lt_of_lt_of_le (lt_of_le_of_lt (a3.hmin.symm.le) (Nat.mod_lt _ (Nat.two_pow_pos _))) (pw hxs).le
      refine ⟨_, ?_, fun g => absurd g (by omega), fun _ => ⟨r.min, least_of_good a3, rfl⟩, b2⟩
      rw [if_pos hx0, size_sum_eq (v := x.toNat) (by omega) (by omega), power_of_2_spec cfg hxs]
      simp only [Exec.ok_bind]
      rw [a1]
      simp only [Exec.ok_bind]
      rw [a2.min, shortened_spec hs0 hsz hrs hw (by omega) b1]
      congr 1
      split_ifs <;> (simp; try omega)
    · rw [blt_false (by omega), cond_false] at h
      exact ⟨w, by rw [if_neg (by omega)], fun _ => rfl, fun g => absurd g hx0, h⟩
  obtain ⟨r1, e1, e2, e3, h⟩ := s1
  rw [e1]
  simp only [Exec.ok_bind]
  -- the second step
  have s2 : ∃ r2, (if x - 2 > 0 then (do
      let b ← power_of_2 cfg size (size_sum (x - 2))
      let m ← big_minmax_euclid cfg f (bigOf size P) b (2 ^ (F.p + 1))
      .ok (longer_bits r1 (shortened_bits w m.min (F.p + 1)))) else .ok r1 : Exec Nat) = .ok r2 ∧ (x ≤ 2 → r2 = r1 ∧ w ≤ cap) ∧
      (2 < x → ∃ M2, IsLeast (multiples P (2 ^ (x - 2).toNat) (2 ^ (F.p + 1))) M2 ∧
        r2 = lengthened w (F.p + 1) r1 M2 ∧ (F.p + 2 < bitLength M2 ∨ w ≤ cap)) ∧
      (positive_line.third size F.p P y w bits r2 fun r => Nat.beq bits r) = true := by
    clear e1 e2 e3
    unfold positive_line.second at h
    by_cases hx0 : 2 < x
    · rw [Nat.blt_eq.mpr (by omega), cond_true] at h
      have hxy : y - 3 = (x - 2).toNat := by omega
      rw [hxy] at h
      have hxs : (x - 2).toNat < 64 * size := by omega
      obtain ⟨r, z, a1, a2, a3, h⟩ := residues_good cfg hs (by omega) hP hPs (Nat.two_pow_pos (x - 2).toNat) (pw hxs)
        (Nat.two_pow_pos _) hN1 hf hff h
      have := width_spec h (by simp)
      obtain ⟨b1, b2, b3⟩ := lengthen_spec this
      have hrs : r.min < 2 ^ (64 * size) := lt_of_lt_of_le (lt_of_le_of_lt (a3.hmin.symm.le) (Nat.mod_lt _ (Nat.two_pow_pos _))) (pw hxs).le
      refine ⟨_, ?_, fun g => absurd g (by omega), fun _ => ⟨r.min, least_of_good a3, rfl, b3⟩, b2⟩
      rw [if_pos (by omega), size_sum_eq (v := (x - 2).toNat) (by omega) (by omega), power_of_2_spec cfg hxs]
      simp only [Exec.ok_bind]
      rw [a1]
      simp only [Exec.ok_bind]
      rw [a2.min, shortened_spec hs0 hsz hrs hw (by omega) b1]
      unfold lengthened
      congr 1
      by_cases hc : F.p + 1 + 1 < bitLength r.min
      · simp only [hc, if_true, longer_bits]
        split_ifs <;> omega
      · simp only [hc, if_false, longer_bits]
    · rw [blt_false (by omega), cond_false] at h
      simp only [Bool.and_eq_true, Nat.ble_eq] at h
      exact ⟨r1, by rw [if_neg (by omega)], fun _ => ⟨rfl, h.1⟩, fun g => absurd g hx0, h.2⟩
  obtain ⟨r2, f1, f2, f3, h⟩ := s2
  rw [f1]
  simp only [Exec.ok_bind]
  rw [show x - 2 + 3 = x + 1 by ring]
  refine (fun hh => ⟨hh.1, r1, r2, e2, e3, f2, f3, hh.2⟩ : _ ∧ (x ≤ -1 → bits = r2) ∧
    (-1 < x → bits = lengthened w (F.p + 2) r2 (P * (2 ^ (F.p + 2) - 1) % 2 ^ (x + 1).toNat) ∧
      (F.p + 3 < bitLength (P * (2 ^ (F.p + 2) - 1) % 2 ^ (x + 1).toNat) ∨ w ≤ bits)) → _) ?_
  clear e1 e2 e3 f1 f2 f3
  unfold positive_line.third at h
  by_cases hx0 : -1 < x
  · rw [Nat.blt_eq.mpr (by omega), cond_true] at h
    simp only [forced_eq, Bool.and_eq_true, Nat.blt_eq] at h
    obtain ⟨g1, g2, h⟩ := h
    obtain ⟨b1, b2, b3⟩ := lengthen_spec (width_spec h (by simp))
    have hbits := Nat.eq_of_beq_eq_true b2
    have hm : P * (2 ^ (F.p + 2) - 1) % 2 ^ y < 2 ^ (64 * size) := lt_trans (Nat.mod_lt _ (Nat.two_pow_pos _)) (pw hys)
    refine ⟨?_, fun g => absurd g (by omega), fun _ => by rw [← hy]; exact ⟨hbits, b3⟩⟩
    rw [if_pos (by omega), mulE_spec cfg (rep_bigOf hs0 hPs) (by omega) (by omega) g1]
    simp only [Exec.ok_bind]
    rw [size_sum_eq (v := y) (by omega) (by omega), power_of_2_spec cfg hys]
    simp only [Exec.ok_bind]
    rw [division cfg hs0 (by omega) g1 (pw hys) g2 hf]
    simp only [Exec.ok_bind]
    rw [shortened_spec hs0 hsz hm hw (by omega) b1, hbits]
    unfold lengthened
    congr 1
    by_cases hc : F.p + 2 + 1 < bitLength (P * (2 ^ (F.p + 2) - 1) % 2 ^ y)
    · simp only [hc, if_true, longer_bits]
      split_ifs <;> omega
    · simp only [hc, if_false, longer_bits]
  · rw [blt_false (by omega), cond_false] at h
    have hbits := Nat.eq_of_beq_eq_true h
    exact ⟨by rw [if_neg (by omega), hbits], fun _ => hbits, fun g => absurd g hx0⟩

end CacheLength
end Grisu
