import Verif.Proofs.BigIntMul

/-! # Multiplication of multi-word integers, both factors of any length

And the operations on a number whose recorded leading position is too high, which is what a product with the factor 0
is. -/

namespace Grisu
namespace Big

/-- The product of `a` and the number `n`, digit by digit, over whatever the array contained. -/
theorem single_loop_any (cfg : Cfg) {n : Nat} (hn : n < 2 ^ 64) {x : List Nat} (hx : Lim x) (count : Nat) :
    ∀ (idx : Nat) (r : List (Option Nat)) (carry : Nat), Lim (filled r) → carry < 2 ^ 64 →
    idx + count ≤ r.length → idx + count ≤ x.length → (∀ i, i < idx → Def r i) →
    ∃ r' c, single_loop cfg x n count idx r carry = .ok (r', c) ∧ r'.length = r.length ∧ Lim (filled r') ∧
      c < 2 ^ 64 ∧
      part (filled r') (idx + count) + c * 2 ^ (64 * (idx + count)) + n * part x idx =
        part (filled r) idx + carry * 2 ^ (64 * idx) + n * part x (idx + count) ∧
      (∀ i, i < idx + count → Def r' i) := by
  induction count with
  | zero =>
    intro idx r carry h1 h2 h3 h4 h6
    exact ⟨r, carry, rfl, rfl, h1, h2, rfl, h6⟩
  | succ count ih =>
    intro idx r carry h1 h2 h3 h4 h6
    have hi : idx < r.length := by omega
    have hi' : idx < (filled r).length := by rw [filled_length]; omega
    simp only [single_loop, rd_eq (show idx < x.length by omega), wru_eq hi, Exec.ok_bind]
    obtain ⟨s1, s2, s3⟩ := mul_step cfg (hx idx) hn h2
    generalize wrap 64 ((umul128 cfg (el x idx) n).high +
      (if wrap 64 ((umul128 cfg (el x idx) n).low + carry) < (umul128 cfg (el x idx) n).low then 1 else 0)) = c1 at *
    generalize wrap 64 ((umul128 cfg (el x idx) n).low + carry) = new at *
    obtain ⟨r', c, e1, e2, e3, e4, e5, e7⟩ := ih (idx + 1) (r.set idx (some new)) c1
      (by rw [filled_set]; exact h1.set hi' s3) s2 (by simp; omega) (by omega)
      (fun i h => def_set hi (by
        by_cases hh : i = idx
        · exact Or.inl hh
        · exact Or.inr (h6 i (by omega))))
    refine ⟨r', c, e1, by simpa using e2, e3, e4, ?_, ?_⟩
    · have hp : part (filled (r.set idx (some new))) idx = part (filled r) idx := by
        rw [filled_set]
        unfold part
        rw [List.take_set_of_le (le_refl _)]
      have he : el (filled (r.set idx (some new))) idx = new := by rw [filled_set, el_set hi', if_pos rfl]
      rw [part_succ (l := filled (r.set idx (some new))), part_succ (l := x) (k := idx), pow_step, show idx + 1 + count = idx + (count + 1) by ring,
        hp, he] at e5
      have s1' := congrArg (· * 2 ^ (64 * idx)) s1
      simp only [add_mul] at s1'
      have : n * (part x idx + el x idx * 2 ^ (64 * idx)) =
          n * part x idx + el x idx * n * 2 ^ (64 * idx) := by ring
      rw [this] at e5
      linarith
    · intro i h; exact e7 i (by omega)

/-- One element of the accumulation. -/
theorem acc_step {t c r : Nat} (ht : t < 2 ^ 64) (hc : c ≤ 1) (hr : r < 2 ^ 64) :
    let w := wrap 64 (t + c)
    let n := wrap 64 (r + w)
    let c' := (if w < t then 1 else 0) ||| (if n < w then 1 else 0)
    n + c' * 2 ^ 64 = r + t + c ∧ c' ≤ 1 ∧ n < 2 ^ 64 := by
  intro w n c'
  have hw : w = (t + c) % 2 ^ 64 := rfl
  have hn : n = (r + w) % 2 ^ 64 := rfl
  clear_value w n
  have : c' = (if w < t then 1 else 0) ||| (if n < w then 1 else 0) := rfl
  clear_value c'
  split at this <;> split at this <;> simp at this <;> omega

theorem accumulate_loop_spec {temp : List (Option Nat)} (ht : Lim (filled temp)) (i : Nat) (count : Nat) :
    ∀ (j : Nat) (r : List (Option Nat)) (carry : Nat), Lim (filled r) → carry ≤ 1 →
    (∀ m, j ≤ m → m < j + count → Def temp m) → (∀ m, m < r.length → Def r m) → i + j + count ≤ r.length →
    ∃ r' c, accumulate_loop temp i count j r carry = .ok (r', c) ∧ r'.length = r.length ∧ Lim (filled r') ∧
      c ≤ 1 ∧
      val (filled r') + c * 2 ^ (64 * (i + (j + count))) + part (filled temp) j * 2 ^ (64 * i) =
        val (filled r) + carry * 2 ^ (64 * (i + j)) + part (filled temp) (j + count) * 2 ^ (64 * i) ∧
      (∀ m, i + (j + count) ≤ m → el (filled r') m = el (filled r) m) ∧
      (∀ m, m < r.length → Def r' m) := by
  induction count with
  | zero =>
    intro j r carry h1 h2 h3 h4 h5
    exact ⟨r, carry, rfl, rfl, h1, h2, rfl, fun _ _ => rfl, h4⟩
  | succ count ih =>
    intro j r carry h1 h2 h3 h4 h5
    have hi : i + j < r.length := by omega
    have hi' : i + j < (filled r).length := by rw [filled_length]; omega
    simp only [accumulate_loop, rdu_eq (h3 j le_rfl (by omega)), rdu_eq (h4 _ hi), wru_eq hi, Exec.ok_bind]
    obtain ⟨s1, s2, s3⟩ := acc_step (ht j) h2 (h1 (i + j))
    generalize ((if wrap 64 (el (filled temp) j + carry) < el (filled temp) j then 1 else 0) |||
      if wrap 64 (el (filled r) (i + j) + wrap 64 (el (filled temp) j + carry)) <
        wrap 64 (el (filled temp) j + carry) then 1 else 0) = c1 at *
    generalize wrap 64 (el (filled r) (i + j) + wrap 64 (el (filled temp) j + carry)) = new at *
    obtain ⟨r', c, e1, e2, e3, e4, e5, e6, e7⟩ := ih (j + 1) (r.set (i + j) (some new)) c1
      (by rw [filled_set]; exact h1.set hi' s3) s2 (fun m a b => h3 m (by omega) (by omega))
      (fun m hm => def_set hi (Or.inr (h4 m (by simpa using hm)))) (by simp; omega)
    refine ⟨r', c, e1, by simpa using e2, e3, e4, ?_, ?_, fun m hm => e7 m (by simpa using hm)⟩
    · have v := val_set new hi'
      rw [filled_set, part_succ, show i + (j + 1) = i + j + 1 by ring, pow_step,
        show j + 1 + count = j + (count + 1) by ring] at e5
      have s1' := congrArg (· * 2 ^ (64 * (i + j))) s1
      simp only [add_mul] at s1'
      have : (part (filled temp) j + el (filled temp) j * 2 ^ (64 * j)) * 2 ^ (64 * i) =
          part (filled temp) j * 2 ^ (64 * i) + el (filled temp) j * 2 ^ (64 * (i + j)) := by
        rw [show 64 * (i + j) = 64 * j + 64 * i by ring, pow_add]; ring
      rw [this] at e5
      linarith
    · intro m hm
      rw [e6 m (by omega), filled_set, el_set hi', if_neg (by omega)]

/-- The index of the last element of the product of `a` with one element `n`, as the code records it. -/
def singlePos (p a n : Nat) : Nat := if a * n < 2 ^ (64 * (p + 1)) then p else p + 1

theorem calculate_single_spec (cfg : Cfg) {size a n : Nat} {x : Big} (hx : Rep size a x) (hn : n < 2 ^ 64)
    {t : List (Option Nat)} (htl : t.length = size) (ht : Lim (filled t)) (hfit : singlePos x.element_pos a n < size) :
    ∃ t', calculate_single cfg x n t = .ok (t', singlePos x.element_pos a n) ∧ t'.length = size ∧
      Lim (filled t') ∧ part (filled t') (singlePos x.element_pos a n + 1) = a * n ∧
      ∀ m, m ≤ singlePos x.element_pos a n → Def t' m := by
  have hpx := hx.pos
  have hxl := hx.len
  have hav : part x.elements (x.element_pos + 1) = a := by
    rw [part_eq_val fun i hi => hx.above i (by omega), hx.val]
  obtain ⟨r, c, e1, e2, e3, e4, e5, e7⟩ := single_loop_any cfg hn hx.lim (x.element_pos + 1) 0
    t 0 ht (by norm_num) (by omega) (by omega) (fun i hi => by omega)
  rw [Nat.zero_add, hav, part_zero, part_zero, Nat.mul_comm n a] at e5
  simp only [Nat.mul_zero, Nat.zero_mul, Nat.add_zero, Nat.zero_add] at e5 e7
  have hr := part_lt e3 (x.element_pos + 1)
  unfold calculate_single
  simp only [e1, Exec.ok_bind]
  by_cases hc : c = 0
  · subst hc
    have hlt : a * n < 2 ^ (64 * (x.element_pos + 1)) := by omega
    have hs : singlePos x.element_pos a n = x.element_pos := if_pos hlt
    rw [hs]
    simp only [ne_eq, not_true_eq_false, if_false]
    exact ⟨r, rfl, by omega, e3, by omega, fun m hm => e7 m (by omega)⟩
  · have : 2 ^ (64 * (x.element_pos + 1)) ≤ c * 2 ^ (64 * (x.element_pos + 1)) :=
      Nat.le_mul_of_pos_left _ (Nat.pos_of_ne_zero hc)
    have hs : singlePos x.element_pos a n = x.element_pos + 1 := if_neg (by omega)
    rw [hs] at hfit ⊢
    have hi : x.element_pos + 1 < r.length := by omega
    have hi' : x.element_pos + 1 < (filled r).length := by rw [filled_length]; omega
    simp only [ne_eq, hc, not_false_eq_true, if_true, wru_eq hi, Exec.ok_bind]
    refine ⟨_, rfl, by simpa using e2.trans htl, by rw [filled_set]; exact e3.set hi' e4, ?_,
      fun m hm => def_set hi ?_⟩
    · rw [part_succ, filled_set, el_set hi', if_pos rfl]
      have : part ((filled r).set (x.element_pos + 1) c) (x.element_pos + 1) = part (filled r) (x.element_pos + 1) := by
        unfold part
        rw [List.take_set_of_le (le_refl _)]
      rw [this]; omega
    · by_cases h : m = x.element_pos + 1
      · exact Or.inl h
      · exact Or.inr (e7 m (by omega))

/-- The step of the outer loop. -/
theorem product_step (cfg : Cfg) {size a : Nat} {x : Big} {y : List Nat} (hx : Rep size a x) (hy : Lim y)
    (hyl : y.length = size) {i : Nat} {t r : List (Option Nat)} (htl : t.length = size) (ht : Lim (filled t))
    (hrl : r.length = size) (hr : Lim (filled r)) (hrd : ∀ m, m < size → Def r m)
    (hrv : val (filled r) ≤ a * part y i) (hfit : i + singlePos x.element_pos a (el y i) < size) :
    ∃ t' r0 r' c c0, calculate_single cfg x (el y i) t = .ok (t', singlePos x.element_pos a (el y i)) ∧
      rd y i = .ok (el y i) ∧ rdu t' 0 = .ok (el (filled t') 0) ∧ rdu r i = .ok (el (filled r) i) ∧
      wru r i (wrap 64 (el (filled r) i + el (filled t') 0)) = .ok r0 ∧
      c0 = (if wrap 64 (el (filled r) i + el (filled t') 0) < el (filled t') 0 then 1 else 0) ∧
      accumulate_loop t' i (singlePos x.element_pos a (el y i)) 1 r0 c0 = .ok (r', c) ∧
      t'.length = size ∧ Lim (filled t') ∧ r'.length = size ∧ Lim (filled r') ∧ (∀ m, m < size → Def r' m) ∧
      val (filled r') + c * 2 ^ (64 * (i + singlePos x.element_pos a (el y i) + 1)) =
        val (filled r) + a * el y i * 2 ^ (64 * i) ∧
      c ≤ 1 ∧ val (filled r') < 2 ^ (64 * (i + singlePos x.element_pos a (el y i) + 1)) := by
  obtain ⟨t', h1, h2, h3, h4, h5⟩ := calculate_single_spec cfg hx (hy i) htl ht (by omega)
  have hi : i < r.length := by omega
  have hi' : i < (filled r).length := by rw [filled_length]; omega
  have st : wrap 64 (el (filled r) i + el (filled t') 0) +
      (if wrap 64 (el (filled r) i + el (filled t') 0) < el (filled t') 0 then 1 else 0) * 2 ^ 64 =
        el (filled r) i + el (filled t') 0 ∧
      (if wrap 64 (el (filled r) i + el (filled t') 0) < el (filled t') 0 then 1 else 0) ≤ 1 ∧
      wrap 64 (el (filled r) i + el (filled t') 0) < 2 ^ 64 := by
    have := hr i
    have := h3 0
    unfold wrap
    split <;> omega
  obtain ⟨s1, s2, s3⟩ := st
  generalize hc0 : (if wrap 64 (el (filled r) i + el (filled t') 0) < el (filled t') 0 then 1 else 0) = c0 at *
  generalize hnew : wrap 64 (el (filled r) i + el (filled t') 0) = new at *
  obtain ⟨r', c, e1, e2, e3, e4, e5, e6, e7⟩ := accumulate_loop_spec h3 i (singlePos x.element_pos a (el y i)) 1
    (r.set i (some new)) c0 (by rw [filled_set]; exact hr.set hi' s3) s2
    (fun m _ h => h5 m (by omega)) (fun m hm => def_set hi (Or.inr (hrd m (by simpa [hrl] using hm))))
    (by simp; omega)
  have v := val_set new hi'
  rw [filled_set] at e5
  have hp1 : part (filled t') 1 = el (filled t') 0 := by rw [part_succ, part_zero]; simp
  rw [hp1, show 1 + singlePos x.element_pos a (el y i) = singlePos x.element_pos a (el y i) + 1 by ring, h4,
    show 64 * (i + 1) = 64 + 64 * i by ring, pow_add] at e5
  have hval : val (filled r') + c * 2 ^ (64 * (i + singlePos x.element_pos a (el y i) + 1)) =
      val (filled r) + a * el y i * 2 ^ (64 * i) := by
    have s1' := congrArg (· * 2 ^ (64 * i)) s1
    simp only [add_mul] at s1'
    rw [show i + (singlePos x.element_pos a (el y i) + 1) = i + singlePos x.element_pos a (el y i) + 1 by ring] at e5
    linarith
  refine ⟨t', r.set i (some new), r', c, c0, h1, rd_eq (by omega), rdu_eq (h5 0 (by omega)), rdu_eq (hrd i (by omega)),
    by rw [hnew]; exact wru_eq hi, by rw [hnew]; exact hc0.symm, e1, h2, h3, by simpa using e2.trans (by simpa using hrl), e3,
    fun m hm => e7 m (by simpa [hrl] using hm), hval, e4, ?_⟩
  have hz : ∀ m, i + singlePos x.element_pos a (el y i) + 1 ≤ m → el (filled r') m = 0 := by
    intro m hm
    rw [e6 m (by omega), filled_set, el_set hi', if_neg (by omega), el_eq_digit hr]
    have hl : val (filled r) < 2 ^ (64 * m) := by
      refine lt_of_lt_of_le (lt_of_le_of_lt hrv (Nat.mul_lt_mul'' hx.lt' (part_lt hy i))) ?_
      rw [← pow_add]
      apply Nat.pow_le_pow_right (by norm_num)
      have : x.element_pos ≤ singlePos x.element_pos a (el y i) := by unfold singlePos; split <;> omega
      omega
    rw [Nat.div_eq_of_lt hl, Nat.zero_mod]
  rw [← part_eq_val hz]
  exact part_lt e3 _

/-- No carry is lost at element `i`. -/
def Kept (p a : Nat) (y : List Nat) (i : Nat) : Prop :=
  a * part y (i + 1) < 2 ^ (64 * (i + singlePos p a (el y i) + 1))

instance (p a : Nat) (y : List Nat) (i : Nat) : Decidable (Kept p a y i) := inferInstanceAs (Decidable (_ < _))

theorem product_loop_spec (cfg : Cfg) {size a : Nat} {x y : Big} (hx : Rep size a x) (hy : Lim y.elements)
    (hyl : y.elements.length = size) (count : Nat) :
    ∀ (i : Nat) (t r : List (Option Nat)) (pos : Nat), t.length = size → Lim (filled t) → r.length = size →
    Lim (filled r) → (∀ m, m < size → Def r m) → val (filled r) = a * part y.elements i →
    (∀ m, i ≤ m → m < i + count → m + singlePos x.element_pos a (el y.elements m) < size) →
    ((∀ m, i ≤ m → m < i + count → Kept x.element_pos a y.elements m) →
      ∃ r', product_loop cfg x y count i t r pos =
          .ok (r', if count = 0 then pos else singlePos x.element_pos a (el y.elements (i + count - 1))) ∧
        r'.length = size ∧ Lim (filled r') ∧ (∀ m, m < size → Def r' m) ∧
        val (filled r') = a * part y.elements (i + count)) ∧
    (cfg.ndebug = false → (∃ m, i ≤ m ∧ m < i + count ∧ ¬ Kept x.element_pos a y.elements m) →
      product_loop cfg x y count i t r pos = .fault .assertion) := by
  induction count with
  | zero =>
    intro i t r pos h1 h2 h3 h4 h5 h6 h7
    refine ⟨fun _ => ⟨r, rfl, h3, h4, h5, h6⟩, fun _ ⟨m, a, b, _⟩ => by omega⟩
  | succ count ih =>
    intro i t r pos h1 h2 h3 h4 h5 h6 h7
    obtain ⟨t', r0, r', c, c0, e1, e2, e3, e4, e5, e6, e7, e8, e9, e10, e11, e12, e13, e14, e15⟩ :=
      product_step cfg hx hy hyl h1 h2 h3 h4 h5 h6.le (h7 i le_rfl (by omega))
    subst e6
    rw [h6, Nat.mul_assoc, ← Nat.mul_add, ← part_succ] at e13
    have hun : product_loop cfg x y (count + 1) i t r pos =
        (do
          cassert cfg (decide (c = 0))
          product_loop cfg x y count (i + 1) t' r' (singlePos x.element_pos a (el y.elements i)) : Exec _) := by
      conv_lhs => unfold product_loop
      simp only [e2, e1, e3, e4, e5, e7, Exec.ok_bind]
    have hck : c = 0 ↔ Kept x.element_pos a y.elements i := by
      unfold Kept
      clear hun h7 ih e12 h5 e1 e2 e3 e4 e5 e7
      generalize 2 ^ (64 * (i + singlePos x.element_pos a (el y.elements i) + 1)) = P at *
      rw [← e13]
      constructor
      · rintro rfl; simpa using e15
      · intro h
        by_contra hne
        have : 1 * P ≤ c * P := Nat.mul_le_mul_right _ (Nat.pos_of_ne_zero hne)
        omega
    by_cases hk : Kept x.element_pos a y.elements i
    · have hc : c = 0 := hck.mpr hk
      subst hc
      rw [hun, cassert_true (cfg := cfg) (b := decide (0 = 0)) (by simp)]
      simp only [Exec.ok_bind]
      obtain ⟨g1, g2⟩ := ih (i + 1) t' r' (singlePos x.element_pos a (el y.elements i)) e8 e9 e10 e11 e12 (by simpa using e13)
        (fun m p q => h7 m (by omega) (by omega))
      constructor
      · intro hall
        obtain ⟨r'', f1, f2, f3, f4, f5⟩ := g1 fun m p q => hall m (by omega) (by omega)
        refine ⟨r'', ?_, f2, f3, f4, by rw [f5, show i + 1 + count = i + (count + 1) by ring]⟩
        rw [f1]
        by_cases h0 : count = 0
        · subst h0; simp
        · simp [h0, show i + 1 + count - 1 = i + count by omega]
      · intro hn ⟨m, p, q, hm⟩
        refine g2 hn ⟨m, ?_, by omega, hm⟩
        by_contra hcon
        have : m = i := by omega
        subst this; exact hm hk
    · constructor
      · intro hall; exact absurd (hall i le_rfl (by omega)) hk
      · intro hn _
        have hc : c ≠ 0 := fun h => hk (hck.mp h)
        rw [hun]
        simp [cassert, hn, hc, Exec.fault_bind]

/-- The step of the outer loop, as an equation. -/
theorem product_unfold (cfg : Cfg) {size a : Nat} {x y : Big} (hx : Rep size a x) (hy : Lim y.elements)
    (hyl : y.elements.length = size) (count i : Nat) {t r : List (Option Nat)} (pos : Nat) (htl : t.length = size)
    (ht : Lim (filled t)) (hrl : r.length = size) (hr : Lim (filled r)) (hrd : ∀ m, m < size → Def r m)
    (hrv : val (filled r) ≤ a * part y.elements i)
    (hfit : i + singlePos x.element_pos a (el y.elements i) < size) :
    ∃ t' r' c, product_loop cfg x y (count + 1) i t r pos =
        (do
          cassert cfg (decide (c = 0))
          product_loop cfg x y count (i + 1) t' r' (singlePos x.element_pos a (el y.elements i)) : Exec _) ∧
      t'.length = size ∧ Lim (filled t') ∧ r'.length = size ∧ Lim (filled r') ∧ (∀ m, m < size → Def r' m) ∧
      val (filled r') + c * 2 ^ (64 * (i + singlePos x.element_pos a (el y.elements i) + 1)) =
        val (filled r) + a * el y.elements i * 2 ^ (64 * i) ∧
      val (filled r') < 2 ^ (64 * (i + singlePos x.element_pos a (el y.elements i) + 1)) := by
  obtain ⟨t', r0, r', c, c0, e1, e2, e3, e4, e5, e6, e7, e8, e9, e10, e11, e12, e13, e14, e15⟩ :=
    product_step cfg hx hy hyl htl ht hrl hr hrd hrv hfit
  subst e6
  refine ⟨t', r', c, ?_, e8, e9, e10, e11, e12, e13, e15⟩
  conv_lhs => unfold product_loop
  simp only [e2, e1, e3, e4, e5, e7, Exec.ok_bind]

/-- Without assertions the loop runs to the end, and what has been lost stays lost. -/
theorem product_loop_lossy (cfg : Cfg) (hn : cfg.ndebug = true) {size a : Nat} {x y : Big} (hx : Rep size a x)
    (hy : Lim y.elements) (hyl : y.elements.length = size) (count : Nat) :
    ∀ (i : Nat) (t r : List (Option Nat)) (pos : Nat), t.length = size → Lim (filled t) → r.length = size →
    Lim (filled r) → (∀ m, m < size → Def r m) → val (filled r) ≤ a * part y.elements i →
    (∀ m, i ≤ m → m < i + count → m + singlePos x.element_pos a (el y.elements m) < size) →
    ∃ r', product_loop cfg x y count i t r pos =
        .ok (r', if count = 0 then pos else singlePos x.element_pos a (el y.elements (i + count - 1))) ∧
      r'.length = size ∧ Lim (filled r') ∧ (∀ m, m < size → Def r' m) ∧
      val (filled r') ≤ a * part y.elements (i + count) ∧
      (val (filled r) < a * part y.elements i ∨ (∃ m, i ≤ m ∧ m < i + count ∧ ¬ Kept x.element_pos a y.elements m) →
        val (filled r') < a * part y.elements (i + count)) := by
  induction count with
  | zero =>
    intro i t r pos h1 h2 h3 h4 h5 h6 h7
    refine ⟨r, rfl, h3, h4, h5, h6, ?_⟩
    rintro (h | ⟨m, p, q, _⟩)
    · exact h
    · omega
  | succ count ih =>
    intro i t r pos h1 h2 h3 h4 h5 h6 h7
    obtain ⟨t', r', c, e1, e2, e3, e4, e5, e6, e7, e8⟩ :=
      product_unfold cfg hx hy hyl count i pos h1 h2 h3 h4 h5 h6 (h7 i le_rfl (by omega))
    have hp : a * part y.elements (i + 1) = a * part y.elements i + a * el y.elements i * 2 ^ (64 * i) := by
      rw [part_succ, Nat.mul_add, Nat.mul_assoc]
    have hstep : val (filled r') ≤ a * part y.elements (i + 1) ∧
        (val (filled r) < a * part y.elements i ∨ ¬ Kept x.element_pos a y.elements i →
          val (filled r') < a * part y.elements (i + 1)) := by
      unfold Kept
      rw [hp]
      clear e1 ih h7 h5 e6 hp
      generalize 2 ^ (64 * (i + singlePos x.element_pos a (el y.elements i) + 1)) = P at *
      generalize a * el y.elements i * 2 ^ (64 * i) = Q at *
      generalize a * part y.elements i = R at *
      rcases Nat.eq_zero_or_pos c with h | h
      · subst h
        constructor
        · omega
        · rintro (g | g) <;> omega
      · have : 1 * P ≤ c * P := Nat.mul_le_mul_right _ h
        omega
    obtain ⟨r'', f1, f2, f3, f4, f5, f6⟩ := ih (i + 1) t' r' (singlePos x.element_pos a (el y.elements i)) e2 e3 e4 e5 e6
      hstep.1 (fun m p q => h7 m (by omega) (by omega))
    rw [show i + 1 + count = i + (count + 1) by ring] at f5 f6
    refine ⟨r'', ?_, f2, f3, f4, f5, ?_⟩
    · rw [e1]
      simp only [cassert, hn, Bool.true_or, Exec.ok_bind, if_true]
      rw [f1]
      by_cases h0 : count = 0
      · subst h0; simp
      · simp [h0, show i + 1 + count - 1 = i + count by omega]
    · rintro (h | ⟨m, p, q, hm⟩)
      · exact f6 (Or.inl (hstep.2 (Or.inl h)))
      · by_cases hmi : m = i
        · subst hmi; exact f6 (Or.inl (hstep.2 (Or.inr hm)))
        · exact f6 (Or.inr ⟨m, by omega, by omega, hm⟩)

theorem def_fill {r : List (Option Nat)} {k m : Nat} (hk : k ≤ r.length) (hm : m < r.length)
    (h : m < k → Def r m) : Def (fill_from r k) m := by
  unfold fill_from
  by_cases hmk : m < k
  · obtain ⟨w, hw⟩ := h hmk
    refine ⟨w, ?_⟩
    rw [List.getElem?_append_left (by simp; omega), List.getElem?_take_of_lt hmk]
    exact hw
  · refine ⟨0, ?_⟩
    rw [List.getElem?_append_right (by simp; omega)]
    simp only [List.length_take, Nat.min_eq_left hk]
    rw [List.getElem?_replicate_of_lt (by omega)]

theorem part_fill {r : List (Option Nat)} {k : Nat} (hk : k ≤ r.length) :
    part (filled (fill_from r k)) k = part (filled r) k ∧ ∀ i, k ≤ i → el (filled (fill_from r k)) i = 0 := by
  constructor
  · unfold part filled fill_from
    rw [List.map_append, List.take_append_of_le_length (by simp; omega), List.map_take, List.take_take, Nat.min_self]
  · intro i hi
    simp only [el, filled, fill_from, List.map_append, List.getD_eq_getElem?_getD]
    rw [List.getElem?_append_right (by simp; omega)]
    simp only [List.map_replicate, List.getElem?_replicate]
    split <;> simp

theorem lim_fill {r : List (Option Nat)} {k : Nat} (hk : k ≤ r.length) (h : Lim (filled r)) :
    Lim (filled (fill_from r k)) := by
  intro i
  by_cases hi : i < k
  · have : el (filled (fill_from r k)) i = el (filled r) i := by
      simp only [el, filled, fill_from, List.getD_eq_getElem?_getD, List.map_append]
      rw [List.getElem?_append_left (by simp; omega), List.map_take, List.getElem?_take_of_lt hi]
    rw [this]; exact h i
  · rw [(part_fill hk).2 i (by omega)]; norm_num

theorem mul_core (cfg : Cfg) {size a b : Nat} {x y : Big} (hx : Rep size a x) (hy : Weak size b y)
    (hfit : ∀ m, m ≤ y.element_pos → m + singlePos x.element_pos a (el y.elements m) < size) :
    ((∀ m, 1 ≤ m → m ≤ y.element_pos → Kept x.element_pos a y.elements m) →
      ∃ z, mul cfg x y = .ok z ∧ Weak size (a * b) z ∧
        z.element_pos = y.element_pos + singlePos x.element_pos a (el y.elements y.element_pos) ∧
        z.bit_pos = log2p1 (el z.elements z.element_pos)) ∧
    (cfg.ndebug = false → (∃ m, 1 ≤ m ∧ m ≤ y.element_pos ∧ ¬ Kept x.element_pos a y.elements m) →
      mul cfg x y = .fault .assertion) ∧
    (cfg.ndebug = true → (∃ m, 1 ≤ m ∧ m ≤ y.element_pos ∧ ¬ Kept x.element_pos a y.elements m) →
      ∃ z, mul cfg x y = .ok z ∧ val z.elements < a * b) := by
  have hs : 0 < size := lt_of_le_of_lt (Nat.zero_le _) hx.pos
  have hyp := hy.pos
  have hle : ∀ n, x.element_pos ≤ singlePos x.element_pos a n := by intro n; unfold singlePos; split <;> omega
  have hxl := hx.len
  have hbv : part y.elements (y.element_pos + 1) = b := by
    rw [part_eq_val fun i hi => hy.above i (by omega), hy.val]
  obtain ⟨r, e1, e2, e3, e4, e5⟩ := calculate_single_spec cfg hx (hy.lim 0) (t := List.replicate size none) (by simp)
    lim_blank (by have := hfit 0 (Nat.zero_le _); omega)
  have hp0 : singlePos x.element_pos a (el y.elements 0) + 1 ≤ size := by
    have := hfit 0 (Nat.zero_le _); omega
  have hun : mul cfg x y = (do
      let (result, pos) ← product_loop cfg x y y.element_pos 1 (List.replicate size none)
        (fill_from r (singlePos x.element_pos a (el y.elements 0) + 1)) (singlePos x.element_pos a (el y.elements 0))
      let top ← rdu result (y.element_pos + pos)
      .ok ⟨result.map (·.getD 0), y.element_pos + pos, log2p1 top⟩ : Exec Big) := by
    unfold mul
    simp only [hxl, cassert_true (cfg := cfg) (b := decide (x.element_pos + y.element_pos < size))
      (by have := hfit _ le_rfl; have := hle (el y.elements y.element_pos); simp; omega),
      Exec.ok_bind, rd_eq (show 0 < y.elements.length by rw [hy.len]; exact hs), e1]
  have hlen : (fill_from r (singlePos x.element_pos a (el y.elements 0) + 1)).length = size := by
    simp [fill_from, e2]; omega
  obtain ⟨f1, f2⟩ := part_fill (r := r) (k := singlePos x.element_pos a (el y.elements 0) + 1) (by omega)
  have hp1 : part y.elements 1 = el y.elements 0 := by rw [part_succ, part_zero]; simp
  have hv0 : val (filled (fill_from r (singlePos x.element_pos a (el y.elements 0) + 1))) = a * part y.elements 1 := by
    rw [← part_eq_val f2, f1, e4, hp1]
  have hlim := lim_fill (r := r) (k := singlePos x.element_pos a (el y.elements 0) + 1) (by omega) e3
  obtain ⟨g1, g2⟩ := product_loop_spec cfg hx hy.lim hy.len y.element_pos 1 (List.replicate size none) _
    (singlePos x.element_pos a (el y.elements 0)) (by simp) lim_blank hlen hlim
    (fun m hm => def_fill (by omega) (by omega) fun h => e5 m (by omega)) hv0
    (fun m h1 h2 => hfit m (by omega))
  have hpos : (if y.element_pos = 0 then singlePos x.element_pos a (el y.elements 0) else
      singlePos x.element_pos a (el y.elements (1 + y.element_pos - 1))) =
      singlePos x.element_pos a (el y.elements y.element_pos) := by
    by_cases h0 : y.element_pos = 0
    · simp [h0]
    · simp [h0]
  have hlt := hfit _ le_rfl
  refine ⟨?_, ?_, ?_⟩
  · intro hk
    obtain ⟨r', k1, k2, k3, k4, k5⟩ := g1 fun m h1 h2 => hk m h1 (by omega)
    rw [hpos] at k1
    rw [hun]
    simp only [k1, Exec.ok_bind, rdu_eq (k4 _ hlt)]
    refine ⟨_, rfl, ⟨?_, k3, ?_, hlt, ?_⟩, rfl, rfl⟩
    · simp [k2]
    · show val (filled r') = a * b
      rw [k5, Nat.add_comm 1, hbv]
    · intro i hi
      have hi' : y.element_pos + singlePos x.element_pos a (el y.elements y.element_pos) < i := hi
      show el (filled r') i = 0
      rw [el_eq_digit k3, k5, Nat.add_comm 1, hbv]
      have : a * b < 2 ^ (64 * i) := by
        by_cases h0 : y.element_pos = 0
        · rw [← hbv, h0, Nat.zero_add, hp1]
          rw [h0] at hi'
          refine lt_of_lt_of_le ?_ (Nat.pow_le_pow_right (by norm_num)
            (show 64 * (singlePos x.element_pos a (el y.elements 0) + 1) ≤ 64 * i by omega))
          rw [← e4]; exact part_lt e3 _
        · have := hk y.element_pos (by omega) le_rfl
          unfold Kept at this
          rw [hbv] at this
          exact lt_of_lt_of_le this (Nat.pow_le_pow_right (by norm_num) (by omega))
      rw [Nat.div_eq_of_lt this, Nat.zero_mod]
  · intro hn ⟨m, h1, h2, h3⟩
    rw [hun, g2 hn ⟨m, h1, by omega, h3⟩]
    rfl
  · intro hn ⟨m, h1, h2, h3⟩
    obtain ⟨r', k1, k2, k3, k4, k5, k6⟩ := product_loop_lossy cfg hn hx hy.lim hy.len y.element_pos 1
      (List.replicate size none) _ (singlePos x.element_pos a (el y.elements 0)) (by simp) lim_blank hlen hlim
      (fun m hm => def_fill (by omega) (by omega) fun h => e5 m (by omega)) hv0.le
      (fun m h1 h2 => hfit m (by omega))
    rw [hpos] at k1
    rw [hun]
    simp only [k1, Exec.ok_bind, rdu_eq (k4 _ hlt)]
    refine ⟨_, rfl, ?_⟩
    have := k6 (Or.inr ⟨m, h1, by omega, h3⟩)
    rw [Nat.add_comm 1, hbv] at this
    exact this

/-- The number of the first elements is a remainder. -/
theorem part_mod {l : List Nat} (h : Lim l) (k : Nat) : part l k = val l % 2 ^ (64 * k) := by
  induction k with
  | zero => simp [part_zero, Nat.mod_one]
  | succ k ih =>
    rw [part_succ, ih, el_eq_digit h, show 64 * (k + 1) = 64 * k + 64 by ring, pow_add, Nat.mod_mul]
    ring

theorem kept_iff {size a b : Nat} {y : Big} (hy : Weak size b y) {p m : Nat} (hp : a < 2 ^ (64 * (p + 1))) :
    Kept p a y.elements m ↔ (a * (b / 2 ^ (64 * m) % 2 ^ 64) < 2 ^ (64 * (p + 1)) →
      a * (b % 2 ^ (64 * (m + 1))) < 2 ^ (64 * (p + m + 1))) := by
  unfold Kept singlePos
  rw [part_mod hy.lim, el_eq_digit hy.lim, hy.val]
  split
  · rename_i h
    rw [show m + p + 1 = p + m + 1 by ring]
    exact ⟨fun g _ => g, fun g => g h⟩
  · rename_i h
    refine ⟨fun _ g => absurd g h, fun _ => ?_⟩
    have : b % 2 ^ (64 * (m + 1)) < 2 ^ (64 * (m + 1)) := Nat.mod_lt _ (Nat.two_pow_pos _)
    refine lt_of_lt_of_le (Nat.mul_lt_mul'' hp this) ?_
    rw [← pow_add]
    exact Nat.pow_le_pow_right (by norm_num) (by omega)

theorem mul_fit {size a b : Nat} {x y : Big} (hx : Rep size a x) (hy : Rep size b y) (ha : a ≠ 0) (hb : b ≠ 0)
    (h : a * b < 2 ^ (64 * size)) :
    ∀ m, m ≤ y.element_pos → m + singlePos x.element_pos a (el y.elements m) < size := by
  intro m hm
  have hl : x.element_pos + y.element_pos < size := by
    have ga : 2 ^ (64 * x.element_pos) ≤ a := by
      rcases hx.ge with g | g
      · rw [g]; simpa using Nat.one_le_iff_ne_zero.mpr ha
      · exact g
    have gb : 2 ^ (64 * y.element_pos) ≤ b := by
      rcases hy.ge with g | g
      · rw [g]; simpa using Nat.one_le_iff_ne_zero.mpr hb
      · exact g
    have := lt_of_le_of_lt (Nat.mul_le_mul ga gb) h
    rw [← pow_add] at this
    have := (Nat.pow_lt_pow_iff_right (by norm_num)).mp this
    omega
  unfold singlePos
  split
  · omega
  · rename_i hs
    by_cases hlast : m = y.element_pos
    · subst hlast
      have h1 : el y.elements y.element_pos * 2 ^ (64 * y.element_pos) ≤ b := by
        have := part_eq_val (l := y.elements) (k := y.element_pos + 1) fun i hi => hy.above i (by omega)
        rw [part_succ, hy.val] at this
        omega
      have h2 : 2 ^ (64 * (x.element_pos + 1)) * 2 ^ (64 * y.element_pos) ≤ a * b := by
        calc _ ≤ a * el y.elements y.element_pos * 2 ^ (64 * y.element_pos) := Nat.mul_le_mul_right _ (by omega)
          _ = a * (el y.elements y.element_pos * 2 ^ (64 * y.element_pos)) := by ring
          _ ≤ a * b := Nat.mul_le_mul_left _ h1
      have := lt_of_le_of_lt h2 h
      rw [← pow_add] at this
      have := (Nat.pow_lt_pow_iff_right (by norm_num)).mp this
      omega
    · omega

/-- The product, unless a carry is lost. -/
theorem mul_spec (cfg : Cfg) {size a b : Nat} {x y : Big} (hx : Rep size a x) (hy : Rep size b y) (ha : a ≠ 0)
    (hb : b ≠ 0) (h : a * b < 2 ^ (64 * size))
    (hk : ∀ m, 1 ≤ m → m ≤ topDigit b → a * (b / 2 ^ (64 * m) % 2 ^ 64) < 2 ^ (64 * (topDigit a + 1)) →
      a * (b % 2 ^ (64 * (m + 1))) < 2 ^ (64 * (topDigit a + m + 1))) :
    mul cfg x y = .ok (bigOf size (a * b)) := by
  have hta : topDigit a = x.element_pos := topDigit_eq hx.lt' hx.ge
  have htb : topDigit b = y.element_pos := topDigit_eq hy.lt' hy.ge
  obtain ⟨z, e1, e2, e3, e4⟩ := (mul_core cfg hx hy.weak (mul_fit hx hy ha hb h)).1 fun m h1 h2 =>
    (kept_iff hy.weak hx.lt').mpr (by rw [hta, htb] at hk; exact hk m h1 h2)
  rw [e1]
  cases z
  rw [(rep_mk e2.len e2.lim e2.val e2.pos e2.above ?_ e4).eq]
  simp only at e3
  right
  rw [e3]
  have gb : el y.elements y.element_pos ≠ 0 := by
    rcases hy.top with g | g
    · have := part_eq_val (l := y.elements) (k := 1) fun i hi => hy.above i (by omega)
      rw [part_succ, part_zero, hy.val] at this
      rw [g]; intro h0; rw [h0] at this; simp at this; exact hb this.symm
    · exact g
  have h1 : el y.elements y.element_pos * 2 ^ (64 * y.element_pos) ≤ b := by
    have := part_eq_val (l := y.elements) (k := y.element_pos + 1) fun i hi => hy.above i (by omega)
    rw [part_succ, hy.val] at this
    omega
  have ga : 2 ^ (64 * x.element_pos) ≤ a := by
    rcases hx.ge with g | g
    · rw [g]; simpa using Nat.one_le_iff_ne_zero.mpr ha
    · exact g
  have h2 : 2 ^ (64 * singlePos x.element_pos a (el y.elements y.element_pos)) ≤ a * el y.elements y.element_pos := by
    unfold singlePos
    split
    · exact le_trans ga (Nat.le_mul_of_pos_right _ (Nat.pos_of_ne_zero gb))
    · omega
  calc 2 ^ (64 * (y.element_pos + singlePos x.element_pos a (el y.elements y.element_pos)))
      = 2 ^ (64 * singlePos x.element_pos a (el y.elements y.element_pos)) * 2 ^ (64 * y.element_pos) := by
        rw [← pow_add, ← Nat.mul_add, Nat.add_comm]
    _ ≤ a * el y.elements y.element_pos * 2 ^ (64 * y.element_pos) := Nat.mul_le_mul_right _ h2
    _ = a * (el y.elements y.element_pos * 2 ^ (64 * y.element_pos)) := by ring
    _ ≤ a * b := Nat.mul_le_mul_left _ h1

/-- Where a carry is lost the assertion fails. -/
theorem mul_lost (cfg : Cfg) (hn : cfg.ndebug = false) {size a b : Nat} {x y : Big} (hx : Rep size a x)
    (hy : Rep size b y) (ha : a ≠ 0) (hb : b ≠ 0) (h : a * b < 2 ^ (64 * size)) {m : Nat} (h1 : 1 ≤ m)
    (h2 : m ≤ topDigit b) (h3 : a * (b / 2 ^ (64 * m) % 2 ^ 64) < 2 ^ (64 * (topDigit a + 1)))
    (h4 : 2 ^ (64 * (topDigit a + m + 1)) ≤ a * (b % 2 ^ (64 * (m + 1)))) :
    mul cfg x y = .fault .assertion := by
  have hta : topDigit a = x.element_pos := topDigit_eq hx.lt' hx.ge
  have htb : topDigit b = y.element_pos := topDigit_eq hy.lt' hy.ge
  refine (mul_core cfg hx hy.weak (mul_fit hx hy ha hb h)).2.1 hn ⟨m, h1, by omega, fun hk => ?_⟩
  rw [hta] at h3 h4
  have := (kept_iff hy.weak hx.lt').mp hk h3
  omega

/-- Without assertions the result is then too small. -/
theorem mul_lossy (cfg : Cfg) (hn : cfg.ndebug = true) {size a b : Nat} {x y : Big} (hx : Rep size a x)
    (hy : Rep size b y) (ha : a ≠ 0) (hb : b ≠ 0) (h : a * b < 2 ^ (64 * size)) {m : Nat} (h1 : 1 ≤ m)
    (h2 : m ≤ topDigit b) (h3 : a * (b / 2 ^ (64 * m) % 2 ^ 64) < 2 ^ (64 * (topDigit a + 1)))
    (h4 : 2 ^ (64 * (topDigit a + m + 1)) ≤ a * (b % 2 ^ (64 * (m + 1)))) :
    ∃ z, mul cfg x y = .ok z ∧ val z.elements < a * b := by
  have hta : topDigit a = x.element_pos := topDigit_eq hx.lt' hx.ge
  have htb : topDigit b = y.element_pos := topDigit_eq hy.lt' hy.ge
  refine (mul_core cfg hx hy.weak (mul_fit hx hy ha hb h)).2.2 hn ⟨m, h1, by omega, fun hk => ?_⟩
  rw [hta] at h3 h4
  have := (kept_iff hy.weak hx.lt').mp hk h3
  omega

/-- Two factors of one element each. -/
theorem mul_small (cfg : Cfg) {size a b : Nat} {x y : Big} (hs : 2 ≤ size) (hx : Rep size a x) (hy : Weak size b y)
    (ha : a < 2 ^ 64) (hp : y.element_pos = 0) : mul cfg x y = .ok (bigOf size (a * b)) := by
  have hxp : x.element_pos = 0 := by
    rw [← topDigit_eq hx.lt' hx.ge]
    exact topDigit_eq (by simpa using ha) (Or.inl rfl)
  have hfit : ∀ m, m ≤ y.element_pos → m + singlePos x.element_pos a (el y.elements m) < size := by
    intro m hm
    rw [hxp]
    unfold singlePos
    split <;> omega
  obtain ⟨z, e1, e2, e3, e4⟩ := (mul_core cfg hx hy hfit).1 fun m h1 h2 => by omega
  rw [e1]
  cases z
  rw [(rep_mk e2.len e2.lim e2.val e2.pos e2.above ?_ e4).eq]
  simp only at e3
  rw [e3, hp, hxp, Nat.zero_add]
  have hb : el y.elements 0 = b := by
    have := part_eq_val (l := y.elements) (k := 1) fun i hi => hy.above i (by omega)
    rw [part_succ, part_zero, hy.val] at this
    simpa using this
  rw [hb]
  unfold singlePos
  split
  · exact Or.inl rfl
  · rename_i hh
    exact Or.inr (Nat.not_lt.mp hh)

/-- The factor 0: the digits are those of 0, the recorded position is that of the other factor. -/
theorem mul_zero_weak (cfg : Cfg) {size b : Nat} {x y : Big} (hx : Rep size 0 x) (hy : Weak size b y) :
    ∃ z, mul cfg x y = .ok z ∧ Weak size 0 z ∧ z.element_pos = y.element_pos := by
  have hxp : x.element_pos = 0 := by
    rw [← topDigit_eq hx.lt' hx.ge]; rfl
  have hsp : ∀ n, singlePos 0 0 n = 0 := by intro n; simp [singlePos]
  obtain ⟨z, e1, e2, e3, e4⟩ := (mul_core cfg hx hy (fun m hm => by rw [hxp, hsp]; have := hy.pos; omega)).1
    fun m h1 h2 => by unfold Kept; rw [Nat.zero_mul]; exact Nat.two_pow_pos _
  exact ⟨z, e1, by simpa using e2, by rw [e3, hxp, hsp, Nat.add_zero]⟩

end Big
end Grisu
