import Verif.Proofs.BigIntAdd

/-! # Decrement, multiplication and shifts of multi-word integers -/

namespace Grisu
namespace Big

/-! ## Decrement -/

theorem decrement_loop_spec (cfg : Cfg) (p fuel : Nat) : ∀ (idx j : Nat) (els : List Nat), Lim els →
    idx ≤ j → j ≤ p → p < els.length → el els j ≠ 0 → j - idx < fuel →
    ∃ els' k, decrement_loop cfg p fuel idx els = .ok (els', k) ∧ els'.length = els.length ∧ Lim els' ∧
      val els' + 2 ^ (64 * idx) = val els + 2 ^ (64 * k) ∧ idx ≤ k ∧ k ≤ j ∧ el els k ≠ 0 ∧
      (∀ i, idx ≤ i → i < k → el els i = 0) ∧ (∀ i, i < idx ∨ k ≤ i → el els' i = el els i) ∧
      (∀ i, idx ≤ i → i < k → el els' i = 2 ^ 64 - 1) := by
  induction fuel with
  | zero => intro idx j els h1 h2 h2' h3 h4 h5; omega
  | succ fuel ih =>
    intro idx j els h1 h2 h2' h3 h4 h5
    have hi : idx < els.length := by omega
    simp only [decrement_loop, rd_eq hi, Exec.ok_bind]
    split
    · rename_i h0
      have hj : idx + 1 ≤ j := by
        rcases Nat.eq_or_lt_of_le h2 with h | h
        · rw [← h] at h4; exact absurd h0 h4
        · omega
      obtain ⟨els', k, e1, e2, e3, e4, e5, e6, e7, e8, e9, e10⟩ := ih (idx + 1) j (els.set idx (2 ^ 64 - 1))
        (h1.set hi (by norm_num)) hj h2' (by simpa using h3) (by rwa [el_set hi, if_neg (by omega)])
        (by omega)
      simp only [wr_eq hi, Exec.ok_bind, cassert_true (cfg := cfg)
        (b := decide (idx + 1 ≤ p)) (by simp; omega)]
      refine ⟨els', k, e1, by simpa using e2, e3, ?_, by omega, e6, ?_, ?_, ?_, ?_⟩
      · have v := val_set (2 ^ 64 - 1) hi
        rw [h0] at v
        rw [pow_step] at e4
        have e : (2 ^ 64 - 1) * 2 ^ (64 * idx) + 2 ^ (64 * idx) = 2 ^ 64 * 2 ^ (64 * idx) := by
          rw [← Nat.succ_mul]; congr 1
        omega
      · rwa [el_set hi, if_neg (by omega)] at e7
      · intro i h' h''
        rcases Nat.eq_or_lt_of_le h' with h | h
        · rw [← h, h0]
        · have := e8 i (by omega) h''
          rwa [el_set hi, if_neg (by omega)] at this
      · intro i h'
        rw [e9 i (by omega), el_set hi, if_neg (by omega)]
      · intro i h' h''
        rcases Nat.eq_or_lt_of_le h' with h | h
        · rw [← h, e9 _ (by omega), el_set hi, if_pos rfl]
        · exact e10 i (by omega) h''
    · rename_i h0
      exact ⟨els, idx, rfl, rfl, h1, rfl, le_rfl, h2, h0, fun i h h' => by omega, fun i _ => rfl,
        fun i h h' => by omega⟩

theorem decrement_spec (cfg : Cfg) {size a : Nat} {x : Big} (hsz : size < 2 ^ 64)
    (hx : Rep size a x) (ha : a ≠ 0) :
    ∃ p b, decrement cfg x = .ok ⟨(bigOf size (a - 1)).elements, p, b⟩ ∧
      (2 ^ (64 * topDigit a) ∣ a → (⟨(bigOf size (a - 1)).elements, p, b⟩ : Big) = bigOf size (a - 1)) := by
  have hs : 0 < size := lt_of_le_of_lt (Nat.zero_le _) hx.pos
  have hpx := hx.pos
  have hxl := hx.len
  have hxv := hx.val
  have ht : topDigit a = x.element_pos := topDigit_eq hx.lt' hx.ge
  have hex : el x.elements x.element_pos ≠ 0 := by
    rcases hx.top with h | h
    · intro h0
      have := part_eq_val (l := x.elements) (k := 1) fun i hi => hx.above i (by omega)
      rw [part_succ, part_zero, hxv] at this
      rw [h] at h0
      rw [h0] at this
      simp at this
      exact ha this.symm
    · exact h
  obtain ⟨els, k, e1, e2, e3, e4, e5, e6, e7, e8, e9, e10⟩ := decrement_loop_spec cfg x.element_pos
    (x.elements.length + 1) 0 x.element_pos x.elements hx.lim (by omega) le_rfl (by omega) hex (by omega)
  have hk : k < els.length := by omega
  have hkel : el els k = el x.elements k := e9 k (by omega)
  unfold decrement
  simp only [e1, Exec.ok_bind, rd_eq hk, wr_eq hk]
  have v := val_set (el els k - 1) hk
  have e : (el els k - 1) * 2 ^ (64 * k) + 2 ^ (64 * k) = el els k * 2 ^ (64 * k) := by
    rw [← Nat.succ_mul]; congr 1; omega
  simp only [Nat.mul_zero, pow_zero] at e4
  have hv : val (els.set k (el els k - 1)) = a - 1 := by omega
  have hlim : Lim (els.set k (el els k - 1)) := e3.set hk (by have := e3 k; omega)
  have r := rep_bigOf (v := a - 1) hs (by have := hx.lt; omega)
  have he : els.set k (el els k - 1) = (bigOf size (a - 1)).elements :=
    val_inj hlim r.lim (by rw [r.len]; simp; omega) (by rw [r.val, hv])
  have hdiv : 2 ^ (64 * topDigit a) ∣ a → k = x.element_pos := by
    intro hd
    by_contra hne
    have hlt : k < x.element_pos := by omega
    rw [ht] at hd
    have h1 : part x.elements x.element_pos = 0 := by
      have e : part x.elements (x.element_pos + 1) = a := by
        rw [part_eq_val fun i hi => hx.above i (by omega), hxv]
      rw [part_succ] at e
      have : 2 ^ (64 * x.element_pos) ∣ part x.elements x.element_pos := by
        rw [← e] at hd
        exact (Nat.dvd_add_left (Dvd.intro_left _ rfl)).mp hd
      exact Nat.eq_zero_of_dvd_of_lt this (part_lt hx.lim _)
    have mono : ∀ n m, n ≤ m → part x.elements n ≤ part x.elements m := by
      intro n m hnm
      induction m with
      | zero => simp at hnm; subst hnm; exact le_rfl
      | succ m ih =>
        rcases Nat.eq_or_lt_of_le hnm with h | h
        · rw [h]
        · rw [part_succ]; have := ih (by omega); omega
    have h2 := mono (k + 1) x.element_pos (by omega)
    rw [h1, part_succ] at h2
    have : 0 < el x.elements k * 2 ^ (64 * k) := Nat.mul_pos (Nat.pos_of_ne_zero e7) (Nat.two_pow_pos _)
    omega
  have habove : ∀ i, x.element_pos < i → el (els.set k (el els k - 1)) i = 0 := by
    intro i hi
    rw [el_set hk, if_neg (by omega), e9 i (by omega)]
    exact hx.above i hi
  split
  · rename_i h0
    split
    · rename_i hk0
      refine ⟨x.element_pos, 0, by rw [he], fun hd => ?_⟩
      have hkx := hdiv hd
      rw [← he]
      refine Rep.eq ⟨by simp; omega, hlim, hv, hpx, habove, ?_, ?_⟩
      · left; show x.element_pos = 0; omega
      · show 0 = bitLength (el (els.set k (el els k - 1)) x.element_pos)
        rw [← hkx, el_set hk, if_pos rfl, h0]; rfl
    · rename_i hk0
      refine ⟨subw 64 x.element_pos 1, 64, by rw [he], fun hd => ?_⟩
      have hkx := hdiv hd
      rw [subw_of_le (by omega) (by omega), ← he]
      have top : el (els.set k (el els k - 1)) (x.element_pos - 1) = 2 ^ 64 - 1 := by
        rw [el_set hk, if_neg (by omega), e10 _ (by omega) (by omega)]
      refine Rep.eq ⟨by simp; omega, hlim, hv, by show x.element_pos - 1 < size; omega, ?_, ?_, ?_⟩
      · intro i hi
        have hi' : x.element_pos - 1 < i := hi
        by_cases hix : i = k
        · show el (els.set k (el els k - 1)) i = 0
          rw [el_set hk, if_pos hix, h0]
        · exact habove i (by omega)
      · right
        show el (els.set k (el els k - 1)) (x.element_pos - 1) ≠ 0
        rw [top]; norm_num
      · show 64 = bitLength (el (els.set k (el els k - 1)) (x.element_pos - 1))
        rw [top]; rfl
  · rename_i h0
    refine ⟨x.element_pos, log2p1 (el els k - 1), by rw [he], fun hd => ?_⟩
    have hkx := hdiv hd
    rw [← he]
    refine Rep.eq ⟨by simp; omega, hlim, hv, hpx, habove, ?_, ?_⟩
    · right
      show el (els.set k (el els k - 1)) x.element_pos ≠ 0
      rw [← hkx, el_set hk, if_pos rfl]; exact h0
    · show log2p1 _ = bitLength (el (els.set k (el els k - 1)) x.element_pos)
      rw [← hkx, el_set hk, if_pos rfl]
      exact log2p1_eq (by have := e3 k; omega)

/-! ## Multiplication by one element -/

/-- One element of a multiplication. -/
theorem mul_step (cfg : Cfg) {a n c : Nat} (ha : a < 2 ^ 64) (hn : n < 2 ^ 64) (hc : c < 2 ^ 64) :
    let m := umul128 cfg a n
    let w := wrap 64 (m.low + c)
    let c' := wrap 64 (m.high + (if w < m.low then 1 else 0))
    w + c' * 2 ^ 64 = a * n + c ∧ c' < 2 ^ 64 ∧ w < 2 ^ 64 := by
  obtain ⟨h1, h2⟩ := umul128_spec cfg ha hn
  intro m w c'
  have hm : a * n ≤ (2 ^ 64 - 1) * (2 ^ 64 - 1) := Nat.mul_le_mul (by omega) (by omega)
  have hw : w = (m.low + c) % 2 ^ 64 := rfl
  have hc' : c' = (m.high + (if w < m.low then 1 else 0)) % 2 ^ 64 := rfl
  have hl : m.low = a * n % 2 ^ 64 := h2
  have hh : m.high = a * n / 2 ^ 64 := h1
  clear_value m w c'
  generalize a * n = p at *
  split at hc' <;> omega

theorem mul_loop_spec (cfg : Cfg) {n : Nat} (hn : n < 2 ^ 64) (o : List Nat) (count : Nat) :
    ∀ (idx : Nat) (els : List Nat) (carry : Nat), Lim els → carry < 2 ^ 64 →
    idx + count ≤ els.length → (∀ i, idx ≤ i → el els i = el o i) →
    ∃ els' c, mul_loop cfg n count idx els carry = .ok (els', c) ∧ els'.length = els.length ∧ Lim els' ∧
      c < 2 ^ 64 ∧
      val els' + c * 2 ^ (64 * (idx + count)) + part o (idx + count) + n * part o idx =
        val els + carry * 2 ^ (64 * idx) + part o idx + n * part o (idx + count) ∧
      ∀ i, i < idx ∨ idx + count ≤ i → el els' i = el els i := by
  induction count with
  | zero =>
    intro idx els carry h1 h2 h3 h4
    exact ⟨els, carry, rfl, rfl, h1, h2, rfl, fun _ _ => rfl⟩
  | succ count ih =>
    intro idx els carry h1 h2 h3 h4
    have hi : idx < els.length := by omega
    simp only [mul_loop, rd_eq hi, wr_eq hi, Exec.ok_bind]
    obtain ⟨s1, s2, s3⟩ := mul_step cfg (h1 idx) hn h2
    generalize wrap 64 ((umul128 cfg (el els idx) n).high +
      (if wrap 64 ((umul128 cfg (el els idx) n).low + carry) < (umul128 cfg (el els idx) n).low then 1 else 0)) = c1 at *
    generalize wrap 64 ((umul128 cfg (el els idx) n).low + carry) = new at *
    obtain ⟨els', c, e1, e2, e3, e4, e5, e6⟩ := ih (idx + 1) (els.set idx new) c1
      (h1.set hi s3) s2 (by simp; omega) (fun i h => by
        rw [el_set hi, if_neg (by omega)]; exact h4 i (by omega))
    refine ⟨els', c, e1, by simpa using e2, e3, e4, ?_, ?_⟩
    · have v := val_set new hi
      rw [part_succ, pow_step, show idx + 1 + count = idx + (count + 1) by ring] at e5
      rw [h4 idx le_rfl] at s1 v
      have s1' := congrArg (· * 2 ^ (64 * idx)) s1
      simp only [add_mul] at s1'
      have : n * (part o idx + el o idx * 2 ^ (64 * idx)) =
          n * part o idx + el o idx * n * 2 ^ (64 * idx) := by ring
      rw [this] at e5
      linarith
    · intro i hi'
      rw [e6 i (by omega), el_set hi, if_neg (by omega)]

theorem mulE_spec (cfg : Cfg) {size a n : Nat} {x : Big} (hx : Rep size a x) (hn : n < 2 ^ 64)
    (hn0 : n ≠ 0) (h : a * n < 2 ^ (64 * size)) : mulE cfg x n = .ok (bigOf size (a * n)) := by
  have hs : 0 < size := lt_of_le_of_lt (Nat.zero_le _) hx.pos
  have hpx := hx.pos
  have hxl := hx.len
  have hxv := hx.val
  have hav : part x.elements (x.element_pos + 1) = a := by
    rw [part_eq_val fun i hi => hx.above i (by omega), hxv]
  obtain ⟨els, c, e1, e2, e3, e4, e5, e6⟩ := mul_loop_spec cfg hn x.elements (x.element_pos + 1) 0
    x.elements 0 hx.lim (by norm_num) (by omega) (fun i _ => rfl)
  rw [Nat.zero_add, hav, part_zero, hxv, Nat.mul_comm n a] at e5
  simp only [Nat.mul_zero, Nat.zero_mul, Nat.add_zero] at e5
  unfold mulE
  simp only [e1, Exec.ok_bind]
  have hab : ∀ i, x.element_pos < i → el els i = 0 := by
    intro i hi
    rw [e6 i (by omega)]; exact hx.above i hi
  have han : a ≤ a * n := Nat.le_mul_of_pos_right a (Nat.pos_of_ne_zero hn0)
  by_cases hc : c = 0
  · subst hc
    simp only [ne_eq, not_true_eq_false, if_false, rd_eq (show x.element_pos < els.length by omega), Exec.ok_bind]
    rw [(rep_mk (size := size) (v := a * n) (by omega) e3 (by omega) hpx hab ?_ rfl).eq]
    rcases hx.ge with hh | hh
    · exact Or.inl hh
    · right; omega
  · have hms : x.element_pos + 1 < size := by
      by_contra hcon
      have : x.element_pos + 1 = size := by omega
      rw [this] at e5
      have : 2 ^ (64 * size) ≤ c * 2 ^ (64 * size) := Nat.le_mul_of_pos_left _ (Nat.pos_of_ne_zero hc)
      omega
    have hi : x.element_pos + 1 < els.length := by omega
    simp only [ne_eq, hc, not_false_eq_true, if_true,
      cassert_true (cfg := cfg) (b := decide (x.element_pos < els.length - 1)) (by simp; omega),
      wr_eq hi, Exec.ok_bind]
    have vs := val_set c hi
    rw [hab (x.element_pos + 1) (by omega)] at vs
    have : 2 ^ (64 * (x.element_pos + 1)) ≤ c * 2 ^ (64 * (x.element_pos + 1)) :=
      Nat.le_mul_of_pos_left _ (Nat.pos_of_ne_zero hc)
    rw [(rep_mk (size := size) (v := a * n) (by simp; omega) (e3.set hi e4) (by omega) hms
      (fun i hi' => by rw [el_set hi, if_neg (by omega)]; exact hab i (by omega))
      (Or.inr (by omega)) (by rw [el_set hi, if_pos rfl])).eq]

/-! ## Arrays without initialiser -/

/-- The array with 0 in place of missing values. -/
def filled (l : List (Option Nat)) : List Nat := l.map (·.getD 0)

/-- The element has been written. -/
def Def (l : List (Option Nat)) (i : Nat) : Prop := ∃ v, l[i]? = some (some v)

theorem rdu_eq {l : List (Option Nat)} {i : Nat} (h : Def l i) : rdu l i = .ok (el (filled l) i) := by
  obtain ⟨v, hv⟩ := h
  simp [rdu, hv, el, filled]

theorem wru_eq {l : List (Option Nat)} {i v : Nat} (h : i < l.length) :
    wru l i v = .ok (l.set i (some v)) := by simp [wru, h]

theorem filled_set {l : List (Option Nat)} {i v : Nat} :
    filled (l.set i (some v)) = (filled l).set i v := by simp [filled, List.map_set]

theorem filled_length {l : List (Option Nat)} : (filled l).length = l.length := by simp [filled]

theorem def_set {l : List (Option Nat)} {i j v : Nat} (h : i < l.length) (hd : j = i ∨ Def l j) :
    Def (l.set i (some v)) j := by
  unfold Def
  by_cases hj : j = i
  · subst hj; exact ⟨v, by simp [h]⟩
  · rcases hd with hd | ⟨w, hw⟩
    · exact absurd hd hj
    · exact ⟨w, by rw [List.getElem?_set_ne (Ne.symm hj)]; exact hw⟩

theorem el_blank {size i : Nat} : el (filled (List.replicate size none)) i = 0 := by
  simp only [el, filled, List.map_replicate, Option.getD_none]
  by_cases h : i < size <;> simp [h]

theorem val_blank {size : Nat} : val (filled (List.replicate size none)) = 0 := by
  have := part_eq_val (l := filled (List.replicate size none)) (k := 0) fun i _ => el_blank
  rw [← this, part_zero]

theorem lim_blank {size : Nat} : Lim (filled (List.replicate size none)) := fun i => by
  rw [el_blank]; norm_num

/-! ## Multiplication, second factor with one element -/

theorem single_loop_spec (cfg : Cfg) {n : Nat} (hn : n < 2 ^ 64) {x : List Nat} (hx : Lim x) (count : Nat) :
    ∀ (idx : Nat) (r : List (Option Nat)) (carry : Nat), Lim (filled r) → carry < 2 ^ 64 →
    idx + count ≤ r.length → idx + count ≤ x.length → (∀ i, idx ≤ i → el (filled r) i = 0) →
    (∀ i, i < idx → Def r i) →
    ∃ r' c, single_loop cfg x n count idx r carry = .ok (r', c) ∧ r'.length = r.length ∧ Lim (filled r') ∧
      c < 2 ^ 64 ∧
      val (filled r') + c * 2 ^ (64 * (idx + count)) + n * part x idx =
        val (filled r) + carry * 2 ^ (64 * idx) + n * part x (idx + count) ∧
      (∀ i, idx + count ≤ i → el (filled r') i = 0) ∧ (∀ i, i < idx + count → Def r' i) := by
  induction count with
  | zero =>
    intro idx r carry h1 h2 h3 h4 h5 h6
    exact ⟨r, carry, rfl, rfl, h1, h2, rfl, h5, h6⟩
  | succ count ih =>
    intro idx r carry h1 h2 h3 h4 h5 h6
    have hi : idx < r.length := by omega
    have hi' : idx < (filled r).length := by rw [filled_length]; omega
    simp only [single_loop, rd_eq (show idx < x.length by omega), wru_eq hi, Exec.ok_bind]
    obtain ⟨s1, s2, s3⟩ := mul_step cfg (hx idx) hn h2
    generalize wrap 64 ((umul128 cfg (el x idx) n).high +
      (if wrap 64 ((umul128 cfg (el x idx) n).low + carry) < (umul128 cfg (el x idx) n).low then 1 else 0)) = c1 at *
    generalize wrap 64 ((umul128 cfg (el x idx) n).low + carry) = new at *
    obtain ⟨r', c, e1, e2, e3, e4, e5, e6, e7⟩ := ih (idx + 1) (r.set idx (some new)) c1
      (by rw [filled_set]; exact h1.set hi' s3) s2 (by simp; omega) (by omega) (fun i h => by
        rw [filled_set, el_set hi', if_neg (by omega)]; exact h5 i (by omega))
      (fun i h => def_set hi (by
        by_cases hh : i = idx
        · exact Or.inl hh
        · exact Or.inr (h6 i (by omega))))
    refine ⟨r', c, e1, by simpa using e2, e3, e4, ?_, ?_, ?_⟩
    · have v := val_set new hi'
      rw [filled_set, part_succ, pow_step, show idx + 1 + count = idx + (count + 1) by ring] at e5
      rw [h5 idx le_rfl] at v
      have s1' := congrArg (· * 2 ^ (64 * idx)) s1
      simp only [add_mul] at s1'
      have : n * (part x idx + el x idx * 2 ^ (64 * idx)) =
          n * part x idx + el x idx * n * 2 ^ (64 * idx) := by ring
      rw [this] at e5
      linarith
    · intro i h; exact e6 i (by omega)
    · intro i h; exact e7 i (by omega)

theorem filled_fill {r : List (Option Nat)} {k : Nat} (h : ∀ i, k ≤ i → el (filled r) i = 0) :
    filled (fill_from r k) = filled r := by
  apply ext_el
  · simp [filled, fill_from]; omega
  · intro i
    by_cases hi : i < k
    · by_cases hr : i < r.length
      · simp only [el, filled, fill_from, List.map_append, List.getD_eq_getElem?_getD]
        rw [List.getElem?_append_left (by simp; omega)]
        simp [hi]
      · rw [el_of_ge, el_of_ge] <;> simp [filled, fill_from] <;> omega
    · rw [h i (by omega)]
      by_cases hr : i < r.length
      · have h1 : min k r.length ≤ i := by omega
        simp only [el, filled, fill_from, List.map_append, List.getD_eq_getElem?_getD]
        rw [List.getElem?_append_right (by simp; omega)]
        simp
        by_cases hh : i - min k r.length < r.length - k
        · simp [hh]
        · simp [hh]
      · rw [el_of_ge]; simp [filled, fill_from]; omega

theorem mul_single_spec (cfg : Cfg) {size a b : Nat} {x y : Big} (hx : Rep size a x) (hy : Rep size b y)
    (hb : b < 2 ^ 64) (hb0 : b ≠ 0) (h : a * b < 2 ^ (64 * size)) :
    mul cfg x y = .ok (bigOf size (a * b)) := by
  have hs : 0 < size := lt_of_le_of_lt (Nat.zero_le _) hx.pos
  have hpx := hx.pos
  have hxl := hx.len
  have hxv := hx.val
  have hyp : y.element_pos = 0 := by
    rcases hy.ge with hh | hh
    · exact hh
    · by_contra hne
      have : 2 ^ 64 ≤ 2 ^ (64 * y.element_pos) := Nat.pow_le_pow_right (by norm_num) (by omega)
      omega
  have hy0 : el y.elements 0 = b := by
    have := part_eq_val (l := y.elements) (k := 1) fun i hi => hy.above i (by omega)
    rw [part_succ, part_zero, hy.val] at this
    simpa using this
  have hav : part x.elements (x.element_pos + 1) = a := by
    rw [part_eq_val fun i hi => hx.above i (by omega), hxv]
  obtain ⟨r, c, e1, e2, e3, e4, e5, e6, e7⟩ := single_loop_spec cfg hb hx.lim (x.element_pos + 1) 0
    (List.replicate size none) 0 lim_blank (by norm_num) (by simp; omega) (by omega) (fun i _ => el_blank)
    (fun i hi => by omega)
  rw [Nat.zero_add, hav, part_zero, val_blank, Nat.mul_comm b a] at e5
  simp only [Nat.mul_zero, Nat.zero_mul, Nat.add_zero, Nat.zero_add] at e5 e6 e7
  have e2' : r.length = size := by simpa using e2
  have han : a ≤ a * b := Nat.le_mul_of_pos_right a (Nat.pos_of_ne_zero hb0)
  have fin : ∀ (r : List (Option Nat)) (pos : Nat), r.length = size → Lim (filled r) →
      val (filled r) = a * b → pos < size → (∀ i, pos < i → el (filled r) i = 0) → Def r pos →
      (pos = 0 ∨ 2 ^ (64 * pos) ≤ a * b) →
      (do
        let (result, pos) ← product_loop cfg x y y.element_pos 1 (List.replicate size none)
          (fill_from r (pos + 1)) pos
        let element_pos := y.element_pos + pos
        let top ← rdu result element_pos
        .ok ⟨result.map (·.getD 0), element_pos, log2p1 top⟩ : Exec Big) = .ok (bigOf size (a * b)) := by
    intro r pos g1 g2 g3 g4 g5 g6 g7
    rw [hyp]
    simp only [product_loop, Exec.ok_bind, Nat.zero_add]
    have hd : Def (fill_from r (pos + 1)) pos := by
      obtain ⟨w, hw⟩ := g6
      refine ⟨w, ?_⟩
      unfold fill_from
      rw [List.getElem?_append_left (by simp; omega), List.getElem?_take_of_lt (by omega)]
      exact hw
    have hf := filled_fill (r := r) (k := pos + 1) fun i hi => g5 i (by omega)
    rw [rdu_eq hd]
    simp only [Exec.ok_bind]
    rw [show (fill_from r (pos + 1)).map (·.getD 0) = filled r from hf, hf]
    rw [(rep_mk (by rw [filled_length]; exact g1) g2 g3 g4 g5 g7 rfl).eq]
  unfold mul
  simp only [hxl, cassert_true (cfg := cfg) (b := decide (x.element_pos + y.element_pos < size)) (by simp; omega),
    Exec.ok_bind, rd_eq (show 0 < y.elements.length by rw [hy.len]; exact hs), hy0]
  unfold calculate_single
  simp only [e1, Exec.ok_bind]
  by_cases hc : c = 0
  · subst hc
    simp only [ne_eq, not_true_eq_false, if_false, Exec.ok_bind]
    refine fin r x.element_pos e2' e3 (by omega) hpx (fun i hi => e6 i (by omega)) (e7 _ (by omega)) ?_
    rcases hx.ge with hh | hh
    · exact Or.inl hh
    · right; omega
  · have hms : x.element_pos + 1 < size := by
      by_contra hcon
      have : x.element_pos + 1 = size := by omega
      rw [this] at e5
      have : 2 ^ (64 * size) ≤ c * 2 ^ (64 * size) := Nat.le_mul_of_pos_left _ (Nat.pos_of_ne_zero hc)
      omega
    have hi : x.element_pos + 1 < r.length := by omega
    have hi' : x.element_pos + 1 < (filled r).length := by rw [filled_length]; omega
    simp only [ne_eq, hc, not_false_eq_true, if_true, wru_eq hi, Exec.ok_bind]
    have vs := val_set c hi'
    rw [e6 (x.element_pos + 1) (by omega)] at vs
    have : 2 ^ (64 * (x.element_pos + 1)) ≤ c * 2 ^ (64 * (x.element_pos + 1)) :=
      Nat.le_mul_of_pos_left _ (Nat.pos_of_ne_zero hc)
    refine fin _ (x.element_pos + 1) (by simpa using e2') (by rw [filled_set]; exact e3.set hi' e4)
      (by rw [filled_set]; omega) hms
      (fun i h' => by rw [filled_set, el_set hi', if_neg (by omega)]; exact e6 i (by omega))
      (def_set hi (Or.inl rfl)) (Or.inr (by omega))

end Big
end Grisu
