import Verif.Proofs.CacheLengthLines
import Verif.Proofs.Setup

/-! # The verification of the cache length: the loops over the exponents -/

namespace Grisu
open Big Spec

namespace CacheLength

/-- The power of five for negative `k` before exponent number `i` of the loop. -/
def negative_j (i : Nat) : Nat := (log10_pow2_value (i + 3)).toNat

/-- Exponent number `i` of the loop for negative `k`. -/
def negative_check (F : Fmt) (fuel i bits : Nat) : Bool :=
  forced (negative_j i) fun j0 => forced (negative_j (i + 1)) fun j =>
  forced (F.q + i + 8 - (F.p + 12 + j)) fun x =>
  forced (F.q + i - 1 + log2_pow10_value (-j)).toNat fun w =>
  decide (log10_pow2_value (i + 4) = j) && (Nat.ble j 600 && (Nat.ble i 1600 && (Nat.ble (F.p + 12 + j) (F.q + i + 8) &&
  (decide ((w : Int) = F.q + i - 1 + log2_pow10_value (-j)) && (Nat.ble w 10000 &&
  ((Nat.beq j j0 || Nat.beq j (j0 + 1)) &&
  forced (5 ^ j) fun P =>
    negative_line (bigint_size F.negative_k_max_bits) F.length_range P x w bits fuel))))))

/-- The power of five for `k ≥ 0` before exponent number `i` of the loop. -/
def positive_k (i : Nat) : Nat := (-log10_pow2_value (4 - i)).toNat

/-- The exponents -90 of binary32 and -170 of binary64, where the second number is not long enough. -/
def exceptional (F : Fmt) (i : Nat) : Bool :=
  match F with
  | .b32 => Nat.beq i 87
  | .b64 => Nat.beq i 167

/-- Exponent number `i` of the loop for `k ≥ 0`. -/
def positive_check (F : Fmt) (fuel i bits : Nat) : Bool :=
  forced (positive_k i) fun k0 => forced (positive_k (i + 1)) fun k =>
  forced (F.p + 6 + i - (F.q + k)) fun y =>
  forced (log2_pow10_value k - k + 1).toNat fun w =>
  decide (log10_pow2_value (3 - i) = -k) && (Nat.ble k 600 && (Nat.ble i 1600 &&
  (decide ((w : Int) = log2_pow10_value k - k + 1) && (Nat.ble w 10000 &&
  ((Nat.beq k k0 || Nat.beq k (k0 + 1)) &&
  forced (5 ^ k) fun P =>
    positive_line (bigint_size F.positive_k_max_bits) F.p P y w bits (bif exceptional F i then w else bits) fuel)))))

/-- The check for consecutive exponents. -/
def all (check : Nat → Nat → Bool) : List Nat → Nat → Bool
  | [], _ => true
  | b :: l, i => check i b && forced (i + 1) fun i => all check l i

theorem all_append {check : Nat → Nat → Bool} {l2 : List Nat} : ∀ {l1 : List Nat} {i : Nat}, all check l1 i = true →
    all check l2 (i + l1.length) = true → all check (l1 ++ l2) i = true
  | [], _, _, h => by simpa using h
  | b :: l1, i, h1, h2 => by
    simp only [all, forced_eq, Bool.and_eq_true, List.cons_append] at h1 ⊢
    refine ⟨h1.1, all_append h1.2 ?_⟩
    rwa [List.length_cons, show i + (l1.length + 1) = i + 1 + l1.length by ring] at h2

theorem all_join {check : Nat → Nat → Bool} {l1 l2 : List Nat} {i k : Nat} (h1 : all check l1 i = true)
    (h2 : all check l2 k = true) (h : k = i + l1.length) : all check (l1 ++ l2) i = true :=
  all_append h1 (h ▸ h2)

theorem all_spec {check : Nat → Nat → Bool} : ∀ {l : List Nat} {i : Nat}, all check l i = true →
    ∀ n (h : n < l.length), check (i + n) l[n] = true
  | [], _, _, n, h => absurd h (by simp)
  | b :: l, i, hh, n, h => by
    simp only [all, forced_eq, Bool.and_eq_true] at hh
    cases n with
    | zero => exact hh.1
    | succ n =>
      have := all_spec hh.2 n (by simpa using h)
      rwa [show i + 1 + n = i + (n + 1) by ring] at this

/-- The maximum of a list and `m`. -/
def maximum (l : List Nat) (m : Nat) : Nat := l.foldl max m

theorem le_maximum : ∀ {l : List Nat} {m : Nat}, m ≤ maximum l m ∧ ∀ b ∈ l, b ≤ maximum l m
  | [], m => ⟨le_rfl, by simp⟩
  | a :: l, m => by
    obtain ⟨h1, h2⟩ := le_maximum (l := l) (m := max m a)
    refine ⟨le_trans (le_max_left _ _) h1, fun b hb => ?_⟩
    rcases List.mem_cons.mp hb with rfl | hb
    · exact le_trans (le_max_right _ _) h1
    · exact h2 b hb

theorem maximum_mem : ∀ {l : List Nat} {m : Nat}, maximum l m = m ∨ maximum l m ∈ l
  | [], _ => Or.inl rfl
  | a :: l, m => by
    rcases maximum_mem (l := l) (m := max m a) with h | h
    · rcases max_cases m a with g | g
      · left; change maximum l (max m a) = m; rw [h, g.1]
      · right; change maximum l (max m a) ∈ _; rw [h, g.1]; exact List.mem_cons_self
    · right; exact List.mem_cons_of_mem _ h

theorem greatest_lines {l : List Nat} (f : Nat → Int) (h : 0 < l.length) :
    IsGreatest {b | ∃ c ∈ l.zipIdx.map (fun c => (f c.2, c.1)), c.2 = b} (maximum l 0) := by
  have hm : ∀ b, (∃ c ∈ l.zipIdx.map (fun c => (f c.2, c.1)), c.2 = b) ↔ b ∈ l := by
    intro b
    constructor
    · rintro ⟨c, hc, rfl⟩
      obtain ⟨⟨b, i⟩, h1, rfl⟩ := List.mem_map.mp hc
      obtain ⟨g1, g2⟩ := List.mem_zipIdx' h1
      rw [g2]
      exact List.getElem_mem _
    · intro hb
      obtain ⟨i, hi, rfl⟩ := List.mem_iff_getElem.mp hb
      exact ⟨(f i, l[i]), List.mem_map.mpr ⟨(l[i], i), by rw [List.mk_mem_zipIdx_iff_getElem?]; simp [hi], rfl⟩, rfl⟩
  refine ⟨(hm _).mpr ?_, fun b hb => le_maximum.2 b ((hm b).mp hb)⟩
  rcases maximum_mem (l := l) (m := 0) with g | g
  · have h0 := (le_maximum (l := l) (m := 0)).2 l[0] (List.getElem_mem _)
    rw [g] at h0 ⊢
    rw [show 0 = l[0] by omega]
    exact List.getElem_mem _
  · exact g

theorem mem_lines {l : List Nat} {f : Nat → Int} {c : Int × Nat} (h : c ∈ l.zipIdx.map (fun c => (f c.2, c.1))) :
    ∃ i, ∃ h : i < l.length, c = (f i, l[i]) := by
  obtain ⟨⟨b, i⟩, h1, rfl⟩ := List.mem_map.mp h
  obtain ⟨g1, g2⟩ := List.mem_zipIdx' h1
  exact ⟨i, g1, by rw [g2]⟩

theorem gt_max (a m : Nat) : (if a > m then a else m) = max m a := by split_ifs <;> omega

structure Sizes (F : Fmt) : Prop where
  neg2 : 2 ≤ bigint_size F.negative_k_max_bits
  neg50 : bigint_size F.negative_k_max_bits < 2 ^ 50
  pos2 : 2 ≤ bigint_size F.positive_k_max_bits
  pos50 : bigint_size F.positive_k_max_bits < 2 ^ 50
  p60 : F.p ≤ 60
  qp : F.p + 2 ≤ F.q

theorem sizes (F : Fmt) : Sizes F := by
  cases F <;> exact ⟨by decide +kernel, by decide +kernel, by decide +kernel, by decide +kernel, by decide, by decide⟩

theorem negative_check_sound (cfg : Cfg) {F : Fmt} {fuel f i bits : Nat} (hf : 64 ≤ f) (hff : fuel ≤ f)
    (h : negative_check F fuel i bits = true) :
    ∃ (j : Nat) (x w : Nat),
      negative_j (i + 1) = j ∧ (j = negative_j i ∨ j = negative_j i + 1) ∧ j ≤ 600 ∧ i ≤ 1600 ∧
      floor_log10_pow2 cfg (F.alpha + 3 + i + 1 - F.alpha) = .ok (j : Int) ∧
      log10_pow2_value (i + 4) = j ∧
      5 ^ j < 2 ^ (64 * bigint_size F.negative_k_max_bits) ∧
      negative_k_bits cfg F f (bigOf (bigint_size F.negative_k_max_bits) (5 ^ j)) (F.alpha + 3 + i) (-j) = .ok bits ∧
      (x : Int) = F.q - F.p - 2 + (F.alpha + 3 + i) - j ∧
      (w : Int) = F.q + (F.alpha + 3 + i) + log2_pow10_value (-j) + 1 ∧ 1 ≤ x ∧ 1 ≤ w ∧
      ∃ M1 M2, IsGreatest (multiples (2 ^ x) (5 ^ j) (2 ^ (F.p + 2))) M1 ∧
        IsGreatest (multiples (2 ^ (x + 2)) (5 ^ j) (2 ^ (F.p + 1))) M2 ∧
        bits = max (max (w + bitLength (5 ^ j / (5 ^ j - M1))) (w + bitLength (5 ^ j / (5 ^ j - M2))))
          (w - 1 + bitLength (5 ^ j / (5 ^ j - 2 ^ (x - 1) * (2 ^ (F.p + 2) - 1) % 5 ^ j))) := by
  simp only [negative_check, forced_eq, Bool.and_eq_true, Bool.or_eq_true, decide_eq_true_eq, Nat.ble_eq] at h
  obtain ⟨h1, h2, h3, h4, h5, h6, h7, h8⟩ := h
  have S := sizes F
  have qm : (F.q_mp_m2 : Int) = F.q - F.p - 2 := by have := S.qp; unfold Fmt.q_mp_m2; omega
  have ha : F.alpha = -5 := rfl
  have hPs : 5 ^ negative_j (i + 1) < 2 ^ (64 * bigint_size F.negative_k_max_bits) := by
    unfold negative_line at h8
    simp only [Bool.and_eq_true, Nat.blt_eq] at h8
    exact h8.1.2
  generalize negative_j (i + 1) = j at *
  obtain ⟨g1, g2, g3, g4⟩ := negative_line_sound cfg (e := F.alpha + 3 + i) (k := -(j : Int))
    (l := log2_pow10_value (-j)) S.neg2 S.neg50 S.p60 hf hff
    (by positivity) (by omega) (by rw [qm]; omega) (floor_log2_pow10_ok cfg (by omega) (by omega)) (by omega) h8
  refine ⟨j, _, _, rfl, h7.imp Nat.eq_of_beq_eq_true Nat.eq_of_beq_eq_true, h2, h3, ?_, h1, hPs, g1, by omega, by omega, g2, g3, g4⟩
  rw [show F.alpha + 3 + i + 1 - F.alpha = i + 4 by ring, floor_log10_pow2_ok cfg (by omega) (by omega), h1]

theorem five_step {size a j : Nat} (cfg : Cfg) (hs : 0 < size) (hj : j = a ∨ j = a + 1) (hjs : 5 ^ j < 2 ^ (64 * size)) :
    (if j ≠ a then (do cassert cfg (decide (j = a + 1)); multiply_5 cfg (bigOf size (5 ^ a))) else .ok (bigOf size (5 ^ a)) :
      Exec Big) = .ok (bigOf size (5 ^ j)) := by
  rcases hj with rfl | rfl
  · simp
  · rw [if_pos (by omega), cassert_true (by simp)]
    simp only [Exec.ok_bind]
    rw [pow_succ] at hjs ⊢
    exact multiply_5_spec cfg (rep_bigOf hs (by omega)) (by positivity) hjs

theorem negative_loop_sound (cfg : Cfg) {F : Fmt} {fuel f : Nat} (hf : 64 ≤ f) (hff : fuel ≤ f) :
    ∀ (l : List Nat) (i m : Nat), all (negative_check F fuel) l i = true →
      negative_k_loop cfg F f l.length (F.alpha + 3 + i) (-(negative_j i))
        (bigOf (bigint_size F.negative_k_max_bits) (5 ^ negative_j i)) m =
      .ok ((l.zipIdx i).map (fun c => (F.alpha + 3 + c.2, c.1)), maximum l m)
  | [], _, _, _ => rfl
  | b :: l, i, m, h => by
    simp only [all, forced_eq, Bool.and_eq_true] at h
    obtain ⟨j, x, w, a1, a2, a3, a4, a5, a6, a7, a8, _⟩ := negative_check_sound cfg hf hff h.1
    have ih := negative_loop_sound cfg hf hff l (i + 1) (if b > m then b else m) h.2
    simp only [List.length_cons, negative_k_loop]
    rw [a5]
    simp only [Exec.ok_bind]
    have st := five_step cfg (show 0 < bigint_size F.negative_k_max_bits by have := (sizes F).neg2; omega) a2 a7
    have e1 : (-(j : Int) ≠ -(negative_j i : Int)) = (j ≠ negative_j i) := by simp
    have e2 : decide (-(j : Int) = -(negative_j i : Int) - 1) = decide (j = negative_j i + 1) := by
      congr 1; apply propext; omega
    simp only [e1, e2]
    rw [st]
    simp only [Exec.ok_bind]
    rw [a8]
    simp only [Exec.ok_bind]
    rw [a1] at ih
    rw [show F.alpha + 3 + (i : Int) + 1 = F.alpha + 3 + ((i + 1 : Nat) : Int) by push_cast; ring, ih]
    simp only [Exec.ok_bind, List.zipIdx_cons, List.map_cons, maximum, List.foldl_cons, gt_max]

theorem cache_length_negative (cfg : Cfg) {F : Fmt} {fuel f : Nat} (hf : 64 ≤ f) (hff : fuel ≤ f) {l : List Nat}
    (hl : (l.length : Int) = F.max_exponent - (F.alpha + 3) + 1) (h : all (negative_check F fuel) l 0 = true) :
    cache_length_negative_k cfg F f = .ok ((l.zipIdx).map (fun c => (F.alpha + 3 + c.2, c.1)), maximum l 0) := by
  have S := sizes F
  have := negative_loop_sound cfg hf hff l 0 0 h
  unfold cache_length_negative_k
  rw [ofElement_spec (by have := S.neg2; omega) (by norm_num), ← hl]
  simp only [Exec.ok_bind, Int.toNat_natCast]
  have h0 : negative_j 0 = 0 := by decide +kernel
  rw [h0] at this
  simpa using this

theorem positive_check_sound (cfg : Cfg) {F : Fmt} {fuel f i bits : Nat} (hf : 64 ≤ f) (hff : fuel ≤ f)
    (h : positive_check F fuel i bits = true) :
    ∃ (k w : Nat) (x : Int),
      positive_k (i + 1) = k ∧ (k = positive_k i ∨ k = positive_k i + 1) ∧ k ≤ 600 ∧ i ≤ 1600 ∧
      floor_log10_pow2 cfg (F.alpha + 2 - i + 1 - F.alpha) = .ok (-k : Int) ∧
      log10_pow2_value (3 - i) = -k ∧
      5 ^ k < 2 ^ (64 * bigint_size F.positive_k_max_bits) ∧
      positive_k_bits cfg F f (bigOf (bigint_size F.positive_k_max_bits) (5 ^ k)) (F.alpha + 2 - i) k = .ok bits ∧
      x = -(F.alpha + 2 - i) - k - (F.q - F.p - 2) ∧ (w : Int) = log2_pow10_value k - k + 1 ∧
      ∃ r1 r2 : Nat, (x ≤ 0 → r1 = w) ∧
      (0 < x → ∃ M1, IsLeast (multiples (5 ^ k) (2 ^ x.toNat) (2 ^ (F.p + 2))) M1 ∧
        r1 = w - (bitLength M1 - 1 - (F.p + 2))) ∧
      (x ≤ 2 → r2 = r1 ∧ w ≤ (bif exceptional F i then w else bits)) ∧
      (2 < x → ∃ M2, IsLeast (multiples (5 ^ k) (2 ^ (x - 2).toNat) (2 ^ (F.p + 1))) M2 ∧
        r2 = lengthened w (F.p + 1) r1 M2 ∧
        (F.p + 2 < bitLength M2 ∨ w ≤ (bif exceptional F i then w else bits))) ∧
      (x ≤ -1 → bits = r2) ∧
      (-1 < x → bits = lengthened w (F.p + 2) r2 (5 ^ k * (2 ^ (F.p + 2) - 1) % 2 ^ (x + 1).toNat) ∧
        (F.p + 3 < bitLength (5 ^ k * (2 ^ (F.p + 2) - 1) % 2 ^ (x + 1).toNat) ∨ w ≤ bits)) := by
  simp only [positive_check, forced_eq, Bool.and_eq_true, Bool.or_eq_true, decide_eq_true_eq, Nat.ble_eq] at h
  obtain ⟨h1, h2, h3, h5, h6, h7, h8⟩ := h
  have S := sizes F
  have qm : (F.q_mp_m2 : Int) = F.q - F.p - 2 := by have := S.qp; unfold Fmt.q_mp_m2; omega
  have ha : F.alpha = -5 := rfl
  have hPs : 5 ^ positive_k (i + 1) < 2 ^ (64 * bigint_size F.positive_k_max_bits) := by
    unfold positive_line at h8
    simp only [Bool.and_eq_true, Nat.blt_eq] at h8
    exact h8.2.1
  generalize positive_k (i + 1) = k at *
  obtain ⟨g1, r1, r2, g2⟩ := positive_line_sound cfg (e := F.alpha + 2 - i) (k := (k : Int))
    (x := -(F.alpha + 2 - i) - k - (F.q - F.p - 2))
    (l := log2_pow10_value k) S.pos2 S.pos50 S.p60 hf hff
    (by positivity) (by omega) (by rw [qm]) (by omega) (floor_log2_pow10_ok cfg (by omega) (by omega)) (by omega) h8
  refine ⟨k, _, _, rfl, h7.imp Nat.eq_of_beq_eq_true Nat.eq_of_beq_eq_true, h2, h3, ?_, h1, hPs, g1, rfl, h5, r1, r2, g2⟩
  rw [show F.alpha + 2 - i + 1 - F.alpha = 3 - i by ring, floor_log10_pow2_ok cfg (by omega) (by omega), h1]

theorem positive_loop_sound (cfg : Cfg) {F : Fmt} {fuel f : Nat} (hf : 64 ≤ f) (hff : fuel ≤ f) :
    ∀ (l : List Nat) (i m : Nat), all (positive_check F fuel) l i = true →
      positive_k_loop cfg F f l.length (F.alpha + 2 - i) (positive_k i)
        (bigOf (bigint_size F.positive_k_max_bits) (5 ^ positive_k i)) m =
      .ok ((l.zipIdx i).map (fun c => (F.alpha + 2 - c.2, c.1)), maximum l m)
  | [], _, _, _ => rfl
  | b :: l, i, m, h => by
    simp only [all, forced_eq, Bool.and_eq_true] at h
    obtain ⟨k, w, x, a1, a2, a3, a4, a5, a6, a7, a8, _⟩ := positive_check_sound cfg hf hff h.1
    have ih := positive_loop_sound cfg hf hff l (i + 1) (if b > m then b else m) h.2
    simp only [List.length_cons, positive_k_loop]
    rw [a5]
    simp only [Exec.ok_bind, neg_neg]
    have st := five_step cfg (show 0 < bigint_size F.positive_k_max_bits by have := (sizes F).pos2; omega) a2 a7
    have e1 : ((k : Int) ≠ (positive_k i : Int)) = (k ≠ positive_k i) := by simp
    have e2 : decide ((k : Int) = (positive_k i : Int) + 1) = decide (k = positive_k i + 1) := by
      congr 1; apply propext; omega
    simp only [e1, e2]
    rw [st]
    simp only [Exec.ok_bind]
    rw [a8]
    simp only [Exec.ok_bind]
    rw [a1] at ih
    rw [show F.alpha + 2 - (i : Int) - 1 = F.alpha + 2 - ((i + 1 : Nat) : Int) by push_cast; ring, ih]
    simp only [Exec.ok_bind, List.zipIdx_cons, List.map_cons, maximum, List.foldl_cons, gt_max]

theorem cache_length_positive (cfg : Cfg) {F : Fmt} {fuel f : Nat} (hf : 64 ≤ f) (hff : fuel ≤ f) {l : List Nat}
    (hl : (l.length : Int) = F.alpha + 2 - F.min_exponent + 1) (h : all (positive_check F fuel) l 0 = true) :
    cache_length_positive_k cfg F f = .ok ((l.zipIdx).map (fun c => (F.alpha + 2 - c.2, c.1)), maximum l 0) := by
  have S := sizes F
  have := positive_loop_sound cfg hf hff l 0 0 h
  unfold cache_length_positive_k
  rw [ofElement_spec (by have := S.pos2; omega) (by norm_num), ← hl]
  simp only [Exec.ok_bind, Int.toNat_natCast]
  have h0 : positive_k 0 = 0 := by decide +kernel
  rw [h0] at this
  simpa using this

end CacheLength
end Grisu
