import Verif.Proofs.BigIntShift

/-! # `long_division` when the divisor has at least as many elements as the dividend -/

namespace Grisu
namespace Big

theorem zero_loop_spec (count : Nat) : ∀ (idx : Nat) (els : List Nat), idx + count ≤ els.length →
    ∃ els', zero_loop count idx els = .ok els' ∧ els'.length = els.length ∧
      ∀ i, el els' i = if idx ≤ i ∧ i < idx + count then 0 else el els i := by
  induction count with
  | zero =>
    intro idx els h
    exact ⟨els, rfl, rfl, fun i => by rw [if_neg (by omega)]⟩
  | succ count ih =>
    intro idx els h
    have hi : idx < els.length := by omega
    simp only [zero_loop, wr_eq hi, Exec.ok_bind]
    obtain ⟨els', e1, e2, e3⟩ := ih (idx + 1) (els.set idx 0) (by simp; omega)
    refine ⟨els', e1, by simpa using e2, fun i => ?_⟩
    rw [e3 i, el_set hi]
    by_cases h1 : i = idx
    · subst h1; simp
    · by_cases h2 : idx + 1 ≤ i ∧ i < idx + 1 + count
      · rw [if_pos h2, if_pos (by omega)]
      · rw [if_neg h2, if_neg h1, if_neg (by omega)]

theorem part_congr {l m : List Nat} {k : Nat} (h : ∀ i, i < k → el l i = el m i) : part l k = part m k := by
  induction k with
  | zero => simp [part_zero]
  | succ k ih => rw [part_succ, part_succ, ih (fun i hi => h i (by omega)), h k (by omega)]

theorem perform_subtraction_spec (cfg : Cfg) {size r m : Nat} {this : Big} {T : List Nat}
    {f : Nat → Exec Nat} (h : Rep size r this) (hT : Lim T) (hm : m ≤ this.element_pos)
    (hf : ∀ i, i ≤ m → f i = .ok (el T i)) (hle : part T (m + 1) ≤ part this.elements (m + 1)) :
    perform_subtraction cfg this f 0 m =
      .ok (bigOf size (part this.elements (m + 1) - part T (m + 1))) := by
  have hs : 0 < size := lt_of_le_of_lt (Nat.zero_le _) h.pos
  have hp := h.pos
  have hl := h.len
  have h0 : 0 < this.elements.length := by omega
  unfold perform_subtraction
  simp only [rd_eq h0, hf 0 (by omega), Exec.ok_bind, wr_eq h0]
  have st : subw 64 (el this.elements 0) (el T 0) + el T 0 =
      el this.elements 0 + (if el this.elements 0 < el T 0 then 1 else 0) * 2 ^ 64 ∧
      (if el this.elements 0 < el T 0 then 1 else 0) ≤ 1 ∧
      subw 64 (el this.elements 0) (el T 0) < 2 ^ 64 := by
    have := h.lim 0
    have := hT 0
    unfold subw
    split <;> omega
  obtain ⟨s1, s2, s3⟩ := st
  generalize (if el this.elements 0 < el T 0 then 1 else 0) = c0 at *
  generalize subw 64 (el this.elements 0) (el T 0) = new at *
  have v0 := val_set new h0
  simp only [Nat.mul_zero, pow_zero, Nat.mul_one] at v0
  obtain ⟨els1, c1, e1, e2, e3, e4, e5, e6⟩ := sub_loop_spec hT (f := f) m 1 (this.elements.set 0 new) c0
    (h.lim.set h0 s3) s2 (by simp; omega) (fun i h1 h2 => hf i (by omega))
  rw [part_succ (l := T) (k := 0), part_zero, show 1 + m = m + 1 by ring] at e5
  simp only [Nat.mul_one, Nat.mul_zero, pow_zero, Nat.zero_add] at e5
  have e2' : els1.length = size := by rw [e2]; simpa using hl
  -- the part that has been changed
  have hrest : ∃ R, val this.elements = part this.elements (m + 1) + R ∧ val els1 = part els1 (m + 1) + R := by
    have key : ∀ k, ∃ R, part this.elements (m + 1 + k) = part this.elements (m + 1) + R ∧
        part els1 (m + 1 + k) = part els1 (m + 1) + R := by
      intro k
      induction k with
      | zero => exact ⟨0, rfl, rfl⟩
      | succ k ih =>
        obtain ⟨R, r1, r2⟩ := ih
        refine ⟨R + el this.elements (m + 1 + k) * 2 ^ (64 * (m + 1 + k)), ?_, ?_⟩
        · rw [← Nat.add_assoc, part_succ, r1, Nat.add_assoc]
        · rw [← Nat.add_assoc, part_succ, r2, e6 _ (by omega), el_set h0, if_neg (by omega), Nat.add_assoc]
    obtain ⟨R, r1, r2⟩ := key (size - (m + 1))
    rw [show m + 1 + (size - (m + 1)) = size by omega] at r1 r2
    rw [← e2', part_all] at r2
    rw [← hl, part_all] at r1
    exact ⟨R, r1, r2⟩
  obtain ⟨R, R1, R2⟩ := hrest
  have hpl := part_lt e3 (m + 1)
  have hpt := part_lt h.lim (m + 1)
  have hc : c1 = 0 := by
    by_contra hne
    have : c1 = 1 := by omega
    subst this
    omega
  subst hc
  rw [Nat.sub_zero, e1]
  simp only [Exec.ok_bind]
  rw [cassert_true (cfg := cfg) (b := decide True) (by simp)]
  simp only [Exec.ok_bind]
  rw [show max (0 + 1) (m + 1) = m + 1 by omega]
  obtain ⟨els2, z1, z2, z3⟩ := zero_loop_spec (this.element_pos + 1 - (m + 1)) (m + 1) els1 (by omega)
  simp only [z1, Exec.ok_bind]
  have hab : ∀ i, m < i → el els2 i = 0 := by
    intro i hi
    rw [z3 i]
    split
    · rfl
    · rw [e6 i (by omega), el_set h0, if_neg (by omega)]
      exact h.above i (by omega)
  have lim2 : Lim els2 := by
    intro i
    rw [z3 i]
    split
    · norm_num
    · exact e3 i
  have hv : val els2 = part this.elements (m + 1) - part T (m + 1) := by
    rw [← part_eq_val (l := els2) (k := m + 1) fun i hi => hab i (by omega)]
    rw [part_congr (m := els1) fun i hi => by rw [z3 i, if_neg (by omega)]]
    omega
  obtain ⟨q, q1, q2, q3, q4⟩ := find_leading_spec (els := els2) m (by omega)
  simp only [q1, Exec.ok_bind, rd_eq (show q < els2.length by omega)]
  rw [(rep_find (size := size) (by omega) lim2 hv q2 (by omega) hab q3 q4).eq]

theorem subw_zero {c : Nat} (h : c < 2 ^ 64) : subw 64 c 0 = c := by rw [subw_of_le (Nat.zero_le _) h, Nat.sub_zero]

/-- Subtracting zeros without a borrow changes nothing. -/
theorem sub_loop_zeros {f : Nat → Exec Nat} {c : Nat} {els : List Nat} (h : Lim els) (k : Nat) : ∀ idx : Nat,
    idx + k ≤ els.length → (∀ i, idx ≤ i → i < idx + k → f i = .ok 0) →
    sub_loop f (k + c) idx els 0 = sub_loop f c (idx + k) els 0 := by
  induction k with
  | zero => intro idx _ _; simp
  | succ k ih =>
    intro idx h1 h2
    have hi : idx < els.length := by omega
    have e : els.set idx (el els idx) = els := by
      apply ext_el (by simp)
      intro i
      rw [el_set hi]
      split
      · subst_vars; rfl
      · rfl
    rw [show k + 1 + c = (k + c) + 1 by ring]
    simp only [sub_loop, h2 idx le_rfl (by omega), rd_eq hi, Exec.ok_bind]
    rw [show wrap 64 (0 + 0) = 0 by rfl]
    simp only [subw_zero (h idx), wr_eq hi, e, Exec.ok_bind, Nat.not_lt_zero, if_false, Nat.or_self]
    rw [ih (idx + 1) (by omega) (fun i h3 h4 => h2 i (by omega) (by omega))]
    congr 1
    omega

/-- The subtraction may start at the first element of the subtrahend that is not zero. -/
theorem perform_subtraction_base (cfg : Cfg) {this : Big} {T : List Nat} {f : Nat → Exec Nat} {b m : Nat}
    (hl : Lim this.elements) (hTl : Lim T) (hp : this.element_pos < this.elements.length)
    (hb : b ≤ this.element_pos) (hf : ∀ i, i ≤ this.element_pos → f i = .ok (el T i))
    (hT : ∀ i, i < b → el T i = 0) (heq : ∀ i, m < i → i ≤ this.element_pos → el this.elements i = el T i) (hm : m ≤ this.element_pos) :
    perform_subtraction cfg this f b m = perform_subtraction cfg this f 0 m := by
  rcases Nat.eq_zero_or_pos b with h0 | hb0
  · rw [h0]
  have h0 : 0 < this.elements.length := by omega
  have e : ∀ i, i < this.elements.length → this.elements.set i (el this.elements i) = this.elements := by
    intro j hj
    apply ext_el (by simp)
    intro i
    rw [el_set hj]
    split
    · subst_vars; rfl
    · rfl
  have hbl : b < this.elements.length := by omega
  unfold perform_subtraction
  simp only [rd_eq h0, rd_eq hbl, hf 0 (by omega), hf b hb, hT 0 hb0, Exec.ok_bind, subw_zero (hl 0), wr_eq h0,
    wr_eq hbl, e 0 h0, Nat.not_lt_zero, if_false, Nat.sub_zero, Nat.zero_add]
  rcases Nat.lt_or_ge m b with hmb | hmb
  · -- the numbers agree down to below `b`
    have eqb : el this.elements b = el T b := heq b (by omega) hb
    have hz : sub_loop f (m + 0) 1 this.elements 0 = sub_loop f 0 (1 + m) this.elements 0 :=
      sub_loop_zeros hl m 1 (by omega) (fun i h1 h2 => by rw [hf i (by omega), hT i (by omega)])
    rw [Nat.add_zero] at hz
    rw [hz, show m - b = 0 by omega]
    have hsub : subw 64 (el this.elements b) (el T b) = 0 := by
      rw [eqb, subw_of_le le_rfl (by rw [← eqb]; exact hl b), Nat.sub_self]
    have hz' : sub_loop f 0 (b + 1) (this.elements.set b (subw 64 (el this.elements b) (el T b)))
        (if el this.elements b < el T b then 1 else 0) = .ok (this.elements.set b 0, 0) := by
      rw [hsub, if_neg (by omega)]; rfl
    rw [hz', show sub_loop f 0 (1 + m) this.elements 0 = .ok (this.elements, 0) from rfl]
    simp only [Exec.ok_bind]
    rw [show max (b + 1) (m + 1) = b + 1 by omega, show max 1 (m + 1) = m + 1 by omega]
    obtain ⟨l1, z1, z2, z3⟩ := zero_loop_spec (this.element_pos + 1 - (b + 1)) (b + 1) (this.elements.set b 0)
      (by simp; omega)
    obtain ⟨l2, y1, y2, y3⟩ := zero_loop_spec (this.element_pos + 1 - (m + 1)) (m + 1) this.elements (by omega)
    have : l1 = l2 := by
      apply ext_el (by rw [z2, y2]; simp)
      intro i
      rw [z3, y3, el_set hbl]
      by_cases h1 : m + 1 ≤ i ∧ i < m + 1 + (this.element_pos + 1 - (m + 1))
      · rw [if_pos h1]
        split
        · rfl
        · split
          · rfl
          · rw [heq i (by omega) (by omega), hT i (by omega)]
      · rw [if_neg h1, if_neg (by omega), if_neg (by omega)]
    rw [z1, y1, this]
  · -- the loop passes over the zeros
    have hz : sub_loop f ((b - 1) + (m - b + 1)) 1 this.elements 0 =
        sub_loop f (m - b + 1) (1 + (b - 1)) this.elements 0 :=
      sub_loop_zeros hl (b - 1) 1 (by omega) (fun i h1 h2 => by rw [hf i (by omega), hT i (by omega)])
    rw [show b - 1 + (m - b + 1) = m by omega, show 1 + (b - 1) = b by omega] at hz
    rw [hz]
    rw [show max (b + 1) (m + 1) = m + 1 by omega, show max 1 (m + 1) = m + 1 by omega]
    simp only [sub_loop, hf b hb, rd_eq hbl, wr_eq hbl, Exec.ok_bind, Nat.add_zero, wrap_of_lt (hTl b),
      Nat.not_lt_zero, if_false, Nat.zero_or]

theorem one_spec {size : Nat} (hs : 0 < size) : one size = .ok (bigOf size 1) :=
  ofElement_spec hs (by norm_num)

/-- The numbers compared element by element from the top. -/
theorem equal_length_spec {a b : List Nat} (ha : Lim a) (hb : Lim b) (p : Nat) (hpa : p < a.length)
    (hpb : p < b.length) (h : val a + part b (p + 1) = val b + part a (p + 1)) :
    ∃ r, equal_length_loop a b p = .ok r ∧
      match r with
      | none => val a < val b
      | some (m + 1) => val b < val a ∧ m + 1 ≤ p ∧
          val a + part b (m + 2) = val b + part a (m + 2) ∧ part b (m + 2) ≤ part a (m + 2)
      | some 0 => val a + el b 0 = val b + el a 0 := by
  induction p with
  | zero =>
    refine ⟨some 0, rfl, ?_⟩
    simpa [part_succ, part_zero] using h
  | succ p ih =>
    simp only [equal_length_loop, rd_eq hpa, rd_eq hpb, Exec.ok_bind]
    have pa := part_lt ha (p + 1)
    have pb := part_lt hb (p + 1)
    have h' := h
    rw [part_succ, part_succ (l := a)] at h
    generalize hx : el a (p + 1) = x at *
    generalize hy : el b (p + 1) = y at *
    have key : ∀ x y : Nat, x < y → x * 2 ^ (64 * (p + 1)) + 2 ^ (64 * (p + 1)) ≤ y * 2 ^ (64 * (p + 1)) := by
      intro x y hxy
      rw [← Nat.succ_mul]; exact Nat.mul_le_mul_right _ hxy
    split
    · rename_i hxy
      have := key x y hxy
      exact ⟨none, rfl, by dsimp only; omega⟩
    · split
      · rename_i _ hxy
        have := key y x hxy
        exact ⟨some (p + 1), rfl, by omega, le_rfl, h', by
          rw [part_succ, part_succ (l := a), hx, hy]; omega⟩
      · have : x = y := by omega
        subst this
        obtain ⟨r, r1, r2⟩ := ih (by omega) (by omega) (by omega)
        refine ⟨r, r1, ?_⟩
        match r, r2 with
        | none, r2 => exact r2
        | some 0, r2 => exact r2
        | some (m + 1), r2 => exact ⟨r2.1, by have := r2.2.1; omega, r2.2.2⟩

theorem el_of_top_zero {size a : Nat} {x : Big} (hx : Rep size a x) : part x.elements (x.element_pos + 1) = a := by
  rw [part_eq_val fun i hi => hx.above i (by omega), hx.val]

theorem divide_equal_length_spec (cfg : Cfg) {size a b : Nat} {x n : Big} (hx : Rep size a x)
    (hn : Rep size b n) (hp : x.element_pos = n.element_pos) (h2 : a < 2 * b) :
    divide_equal_length cfg x n (bigOf size 0) = .ok (bigOf size (a / b), bigOf size (a % b)) := by
  have hs : 0 < size := lt_of_le_of_lt (Nat.zero_le _) hx.pos
  have hpx := hx.pos
  have hxl := hx.len
  have hnl := hn.len
  have less : a < b → a / b = 0 ∧ a % b = a := fun h => ⟨Nat.div_eq_of_lt h, Nat.mod_eq_of_lt h⟩
  have geq : b ≤ a → a / b = 1 ∧ a % b = a - b := fun h => by
    constructor
    · exact Nat.div_eq_of_lt_le (by omega) (by omega)
    · rw [Nat.mod_eq_sub_mod h, Nat.mod_eq_of_lt (by omega)]
  obtain ⟨r, r1, r2⟩ := equal_length_spec hx.lim hn.lim x.element_pos (by omega) (by omega) (by
    rw [el_of_top_zero hx, hp, el_of_top_zero hn, hx.val, hn.val]; ring)
  unfold divide_equal_length
  rw [r1]
  simp only [Exec.ok_bind]
  rw [hx.val, hn.val] at r2
  match r, r2 with
  | none, r2 =>
    obtain ⟨l1, l2⟩ := less r2
    rw [l1, l2, ← hx.eq]
  | some (m + 1), r2 =>
    obtain ⟨g1, g2⟩ := geq (by have := r2.1; omega)
    have := perform_subtraction_spec cfg (f := rd n.elements) (m := m + 1) hx hn.lim r2.2.1
      (fun i hi => rd_eq (by have := r2.2.1; omega)) r2.2.2.2
    simp only [this, Exec.ok_bind]
    have e : part x.elements (m + 1 + 1) - part n.elements (m + 1 + 1) = a - b := by
      have := r2.2.2.1
      have := r2.2.2.2
      rw [show m + 1 + 1 = m + 2 by ring]
      omega
    rw [e, show (bigOf size (a - b)).elements.length = size by simp [bigOf], one_spec hs]
    simp only [Exec.ok_bind]
    rw [g1, g2]
  | some 0, r2 =>
    simp only at r2
    have hn0 : 0 < n.elements.length := by omega
    have hx0 : 0 < x.elements.length := by omega
    simp only [rd_eq hn0, rd_eq hx0, Exec.ok_bind]
    split
    · obtain ⟨l1, l2⟩ := less (by omega)
      rw [l1, l2, ← hx.eq]
    · obtain ⟨g1, g2⟩ := geq (by omega)
      simp only [wr_eq hx0, Exec.ok_bind, clear_above_0]
      obtain ⟨els, z1, z2, z3⟩ := zero_loop_spec x.element_pos 1
        (x.elements.set 0 (el x.elements 0 - el n.elements 0)) (by simp; omega)
      simp only [z1, Exec.ok_bind]
      rw [hxl, one_spec hs]
      simp only [Exec.ok_bind]
      have hl0 := hx.lim 0
      have e0 : el els 0 = el x.elements 0 - el n.elements 0 := by
        rw [z3 0, if_neg (by omega), el_set hx0, if_pos rfl]
      have hz : ∀ i, 0 < i → el els i = 0 := by
        intro i hi
        rw [z3 i]
        split
        · rfl
        · rw [el_set hx0, if_neg (by omega)]; exact hx.above i (by omega)
      have lim : Lim els := by
        intro i
        by_cases hi : i = 0
        · rw [hi, e0]; omega
        · rw [hz i (by omega)]; norm_num
      have hv : val els = a - b := by
        rw [← part_eq_val (l := els) (k := 1) hz, part_succ, part_zero, e0]
        simp; omega
      rw [← e0, (rep_mk (size := size) (by rw [z2]; simpa using hxl) lim hv hs hz (Or.inl rfl) rfl).eq, g1, g2]

/-! ## The general loop -/

/-- `n_shifted` holds `N` in the elements up to `p`. -/
structure Sh (p N : Nat) (s : List (Option Nat)) : Prop where
  len : p < s.length
  def_ : ∀ i, i ≤ p → Def s i
  dig : ∀ i, i ≤ p → el (filled s) i = dg N i
  lt : N < 2 ^ (64 * (p + 1))
  lim : Lim (filled s)

theorem Sh.part {p N k : Nat} {s : List (Option Nat)} (h : Sh p N s) (hk : k ≤ p + 1) :
    part (filled s) k = N % 2 ^ (64 * k) := by
  induction k with
  | zero => simp [part_zero, Nat.mod_one]
  | succ k ih =>
    rw [part_succ, ih (by omega), h.dig k (by omega), show 64 * (k + 1) = 64 * k + 64 by ring, pow_add,
      Nat.mod_mul]
    unfold dg
    ring

theorem shift_down_spec {N s : Nat} (hs : s ≤ 64) (count : Nat) : ∀ (idx : Nat) (l : List (Option Nat)),
    idx + count < l.length → (∀ i, i ≤ idx + count → Def l i) →
    (∀ i, idx ≤ i → i ≤ idx + count → el (filled l) i = dg N i) →
    ∃ l', shift_down_loop s count idx l = .ok l' ∧ l'.length = l.length ∧ (∀ i, Def l i → Def l' i) ∧
      (∀ i, idx ≤ i → i < idx + count → el (filled l') i = dg (N / 2 ^ s) i) ∧
      (∀ i, i < idx ∨ idx + count ≤ i → el (filled l') i = el (filled l) i) := by
  induction count with
  | zero =>
    intro idx l h1 h2 h3
    exact ⟨l, rfl, rfl, fun _ => id, fun i h h' => by omega, fun _ _ => rfl⟩
  | succ count ih =>
    intro idx l h1 h2 h3
    have hi : idx < l.length := by omega
    have hi' : idx < (filled l).length := by rw [filled_length]; exact hi
    simp only [shift_down_loop, rdu_eq (h2 idx (by omega)), rdu_eq (h2 (idx + 1) (by omega)), wru_eq hi,
      Exec.ok_bind]
    rw [h3 idx le_rfl (by omega), h3 (idx + 1) (by omega) (by omega), shr_digit hs]
    obtain ⟨l', e1, e2, e3, e4, e5⟩ := ih (idx + 1) (l.set idx (some (dg (N / 2 ^ s) idx)))
      (by simp; omega) (fun i h => def_set hi (Or.inr (h2 i (by omega))))
      (fun i h h' => by rw [filled_set, el_set hi', if_neg (by omega)]; exact h3 i (by omega) (by omega))
    refine ⟨l', e1, by simpa using e2, fun i h => e3 i (def_set hi (Or.inr h)), ?_, ?_⟩
    · intro i h h'
      by_cases hh : i = idx
      · rw [hh, e5 idx (by omega), filled_set, el_set hi', if_pos rfl]
      · exact e4 i (by omega) (by omega)
    · intro i h
      rw [e5 i (by omega), filled_set, el_set hi', if_neg (by omega)]

/-- Right shift of the elements from `b` up to `q`, where `N` has no digits above `q` and what is shifted has
none below `b`. -/
theorem shift_down_all {p q N s b : Nat} {l : List (Option Nat)} (h : Sh p N l) (hq : q ≤ p)
    (hN : N < 2 ^ (64 * (q + 1))) (hs : s ≤ 64) (hb : b ≤ q)
    (hdvd : b ≠ 0 → 2 ^ (64 * b + s) ∣ N) :
    ∃ l', (do
        let l ← shift_down_loop s (q - b) b l
        let top ← rdu l q
        wru l q (top / 2 ^ s) : Exec (List (Option Nat))) = .ok l' ∧ Sh p (N / 2 ^ s) l' ∧
      l'.length = l.length := by
  have hpl := h.len
  obtain ⟨l1, e1, e2, e3, e4, e5⟩ := shift_down_spec (N := N) hs (q - b) b l (by omega)
    (fun i hi => h.def_ i (by omega)) (fun i _ hi => h.dig i (by omega))
  have hq1 : q < l1.length := by omega
  have hq1' : q < (filled l1).length := by rw [filled_length]; exact hq1
  rw [e1]
  simp only [Exec.ok_bind, rdu_eq (e3 q (h.def_ q hq)), wru_eq hq1]
  have low_dig : ∀ i, i < b → dg N i = 0 ∧ dg (N / 2 ^ s) i = 0 := by
    intro i hi
    obtain ⟨k, rfl⟩ := hdvd (by omega)
    have e : ∀ j, 64 * i + 64 ≤ j → dg (2 ^ j * k) i = 0 := by
      intro j hj
      unfold dg
      rw [show j = 64 * i + (64 + (j - 64 * i - 64)) by omega, pow_add, Nat.mul_assoc,
        Nat.mul_div_cancel_left _ (Nat.two_pow_pos _), pow_add, Nat.mul_assoc, Nat.mul_mod_right]
    refine ⟨e _ (by omega), ?_⟩
    rw [pow_add, Nat.mul_comm (2 ^ (64 * b)), Nat.mul_assoc, Nat.mul_div_cancel_left _ (Nat.two_pow_pos _)]
    exact e _ (by omega)
  have zero_dig : ∀ i, q < i → dg N i = 0 ∧ dg (N / 2 ^ s) i = 0 := by
    intro i hi
    have hlt : N < 2 ^ (64 * i) := lt_of_lt_of_le hN (Nat.pow_le_pow_right (by norm_num) (by omega))
    unfold dg
    rw [Nat.div_eq_of_lt hlt, Nat.div_eq_of_lt (lt_of_le_of_lt (Nat.div_le_self _ _) hlt)]
    exact ⟨rfl, rfl⟩
  have lim1 : Lim (filled l1) := by
    intro i
    by_cases hi : b ≤ i ∧ i < q
    · rw [e4 i (by omega) (by omega)]; exact dg_lt
    · rw [e5 i (by omega)]; exact h.lim i
  refine ⟨_, rfl, ⟨by simp; omega, fun i hi => def_set hq1 (Or.inr (e3 i (h.def_ i hi))), ?_,
    lt_of_le_of_lt (Nat.div_le_self _ _) h.lt, ?_⟩, by simpa using e2⟩
  rotate_left
  · rw [filled_set]
    exact lim1.set hq1' (lt_of_le_of_lt (Nat.div_le_self _ _) (lim1 q))
  intro i hi
  rw [filled_set, el_set hq1']
  split
  · rename_i hh
    rw [e5 q (by omega), h.dig q hq, hh]
    have := @shr_digit N q s hs
    rw [(zero_dig (q + 1) (by omega)).1] at this
    rw [← this]; simp [wrap]
  · rename_i hh
    by_cases hib : i < b
    · rw [e5 i (by omega), h.dig i hi, (low_dig i hib).1, (low_dig i hib).2]
    · by_cases hiq : i < q
      · exact e4 i (by omega) (by omega)
      · rw [e5 i (by omega), h.dig i hi, (zero_dig i (by omega)).1, (zero_dig i (by omega)).2]

/-- The comparison of the two numbers. -/
theorem compare_shifted_spec {s : List (Option Nat)} {a : List Nat} (ha : Lim a) (hs : Lim (filled s)) (k : Nat)
    (hka : k ≤ a.length) (hd : ∀ i, i < k → Def s i) (R N : Nat)
    (h : R + part (filled s) k = N + part a k) :
    ∃ r, compare_shifted s a k = .ok r ∧
      match r with
      | none => R < N
      | some 0 => R = N
      | some (m + 1) => N < R ∧ m < k ∧ R + part (filled s) (m + 1) = N + part a (m + 1) ∧
          ∀ i, m < i → i < k → el a i = el (filled s) i := by
  induction k with
  | zero =>
    simp only [part_zero] at h
    exact ⟨some 0, rfl, by simpa using h⟩
  | succ k ih =>
    simp only [compare_shifted, rd_eq (show k < a.length by omega), rdu_eq (hd k (by omega)), Exec.ok_bind]
    have pa := part_lt ha k
    have pb := part_lt hs k
    have h' := h
    rw [part_succ, part_succ (l := a)] at h
    generalize hx : el a k = x at *
    generalize hy : el (filled s) k = y at *
    have key : ∀ x y : Nat, x < y → x * 2 ^ (64 * k) + 2 ^ (64 * k) ≤ y * 2 ^ (64 * k) := by
      intro x y hxy
      rw [← Nat.succ_mul]; exact Nat.mul_le_mul_right _ hxy
    split
    · rename_i hxy
      have := key x y hxy
      exact ⟨none, rfl, by dsimp only; omega⟩
    · split
      · rename_i _ hxy
        have := key y x hxy
        exact ⟨some (k + 1), rfl, by omega, by omega, h', fun i h1 h2 => by omega⟩
      · have : x = y := by omega
        subst this
        obtain ⟨r, r1, r2⟩ := ih (by omega) (fun i hi => hd i (by omega)) (by omega)
        refine ⟨r, r1, ?_⟩
        match r, r2 with
        | none, r2 => exact r2
        | some 0, r2 => exact r2
        | some (m + 1), r2 =>
          refine ⟨r2.1, by have := r2.2.1; omega, r2.2.2.1, fun i h1 h2 => ?_⟩
          by_cases hik : i = k
          · rw [hik, hx, hy]
          · exact r2.2.2.2 i h1 (by omega)

/-- The state of the division of `a` by `n` between iterations: the quotient so far is `Q`, the number
itself is the rest `r`, and `n_shifted` is `n * 2 ^ t`. -/
structure Inv (size p a n t Q r : Nat) (d : Div) : Prop where
  rep : Rep size r d.this
  pos : d.this.element_pos ≤ p
  sh : Sh p (n * 2 ^ t) d.shifted
  shlen : d.shifted.length = size
  base : d.base_idx = t / 64
  tz : d.base_trailing_zeros = t % 64
  total : d.total = t
  sbit : bitLength (n * 2 ^ t) = 64 * d.shifted_element_pos + d.shifted_bit_pos
  sbit1 : 1 ≤ d.shifted_bit_pos
  sbit2 : d.shifted_bit_pos ≤ 64
  sum : a = Q * n + r
  qlen : d.quotient.elements.length = size
  qlim : Lim d.quotient.elements
  qval : val d.quotient.elements = Q

theorem or_pow {Q t : Nat} (h : 2 ^ (t + 1) ∣ Q) : Q ||| 2 ^ t = Q + 2 ^ t := by
  obtain ⟨k, rfl⟩ := h
  exact (Nat.two_pow_add_eq_or_of_lt (Nat.pow_lt_pow_right (by norm_num) (by omega)) k).symm

/-- The quotient receives its digit `t`. -/
theorem quotient_update {q : List Nat} {Q t : Nat} (hl : Lim q) (hv : val q = Q) (ht : t / 64 < q.length)
    (hQ : 2 ^ (t + 1) ∣ Q) :
    rd q (t / 64) = .ok (el q (t / 64)) ∧
    wr q (t / 64) (el q (t / 64) ||| 2 ^ (t % 64)) = .ok (q.set (t / 64) (el q (t / 64) + 2 ^ (t % 64))) ∧
    Lim (q.set (t / 64) (el q (t / 64) + 2 ^ (t % 64))) ∧
    val (q.set (t / 64) (el q (t / 64) + 2 ^ (t % 64))) = Q + 2 ^ t := by
  have hd : 2 ^ (t % 64 + 1) ∣ el q (t / 64) := by
    rw [el_eq_digit hl, hv]
    refine (Nat.dvd_mod_iff (pow_dvd_pow 2 (by omega))).mpr ?_
    obtain ⟨k, rfl⟩ := hQ
    have e : 2 ^ (t + 1) * k = 2 ^ (64 * (t / 64)) * (2 ^ (t % 64 + 1) * k) := by
      rw [← Nat.mul_assoc, ← pow_add]; congr 2; omega
    rw [e, Nat.mul_div_cancel_left _ (Nat.two_pow_pos _)]
    exact Dvd.intro _ rfl
  have e := or_pow hd
  have hlt : el q (t / 64) + 2 ^ (t % 64) < 2 ^ 64 := by
    rw [← e]
    exact Nat.or_lt_two_pow (hl _) (Nat.pow_lt_pow_right (by norm_num) (by omega))
  refine ⟨rd_eq ht, by rw [e, wr_eq ht], hl.set ht hlt, ?_⟩
  have := val_set (el q (t / 64) + 2 ^ (t % 64)) ht
  rw [Nat.add_mul, ← pow_add, show t % 64 + 64 * (t / 64) = t by omega, hv] at this
  omega

/-- The beginning of `shift_once` for `t ≠ 0`: the element of the lowest digit after the shift.  A divisor that
is odd would be shifted wrongly when that element is a new one. -/
theorem shift_once_start {p n t : Nat} {first : Bool} {s : List (Option Nat)} (h : Sh p (n * 2 ^ t) s) (ht : t ≠ 0)
    (hn : n ≠ 0) (heven : t % 64 = 0 → 2 ∣ n) :
    ∃ s', (if t % 64 = 0 then
        if first = false ∧ t / 64 = 0 then .ok none
        else if t / 64 = 0 then .fault .outOfBounds
        else do
          let b ← rdu s (t / 64)
          let s ← wru s (t / 64 - 1) (wrap 64 (b * 2 ^ 63))
          .ok (some (s, t / 64 - 1, 63))
      else .ok (some (s, t / 64, t % 64 - 1)) : Exec (Option (List (Option Nat) × Nat × Nat))) =
        .ok (some (s', (t - 1) / 64, (t - 1) % 64)) ∧ Sh p (n * 2 ^ t) s' ∧ s'.length = s.length := by
  have hlen := h.len
  have htp : t / 64 ≤ p := by
    have h1 : 2 ^ t ≤ n * 2 ^ t := Nat.le_mul_of_pos_left _ (by omega)
    have := (Nat.pow_lt_pow_iff_right (a := 2) (by norm_num)).mp (lt_of_le_of_lt h1 h.lt)
    omega
  by_cases h0 : t % 64 = 0
  · obtain ⟨k, hk⟩ := heven h0
    have hb : el (filled s) (t / 64) = dg (n * 2 ^ t) (t / 64) := h.dig _ htp
    have hbe : wrap 64 (el (filled s) (t / 64) * 2 ^ 63) = 0 := by
      rw [hb]
      unfold dg wrap
      rw [show 64 * (t / 64) = t by omega, Nat.mul_div_cancel _ (Nat.two_pow_pos _), hk]
      omega
    have hi : t / 64 - 1 < s.length := by omega
    have hi' : t / 64 - 1 < (filled s).length := by rw [filled_length]; exact hi
    rw [if_pos h0, if_neg (by omega), if_neg (by omega)]
    simp only [rdu_eq (h.def_ _ htp), Exec.ok_bind, hbe, wru_eq hi]
    refine ⟨s.set (t / 64 - 1) (some 0), by rw [show (t - 1) / 64 = t / 64 - 1 by omega, show (t - 1) % 64 = 63 by omega],
      ⟨by simpa using h.len, fun i hp => def_set hi (Or.inr (h.def_ i hp)), ?_, h.lt, ?_⟩, by simp⟩
    · intro i hp
      rw [filled_set, el_set hi']
      split
      · rename_i hh
        rw [hh]
        unfold dg
        have : n * 2 ^ t = 2 ^ (64 * (t / 64 - 1)) * (2 ^ 64 * n) := by
          rw [Nat.mul_comm, ← Nat.mul_assoc, ← pow_add]; congr 2; omega
        rw [this, Nat.mul_div_cancel_left _ (Nat.two_pow_pos _), Nat.mul_mod_right]
      · exact h.dig i hp
    · rw [filled_set]; exact h.lim.set hi' (by norm_num)
  · rw [if_neg h0]
    exact ⟨s, by rw [show (t - 1) / 64 = t / 64 by omega, show (t - 1) % 64 = t % 64 - 1 by omega], h, rfl⟩

/-- `compare_and_subtract` for aligned numbers. -/
theorem compare_and_subtract_spec (cfg : Cfg) {size p a n t Q r : Nat} {d : Div} (first : Bool)
    (hsz : size < 2 ^ 57) (hn : n ≠ 0) (hr : r ≠ 0)
    (I : Inv size p a n t Q r d) (hal : bitLength r = bitLength (n * 2 ^ t))
    (hd1 : d.shifted_element_pos = d.this.element_pos) (hd2 : d.shifted_bit_pos = d.this.bit_pos)
    (hQ : 2 ^ (t + 1) ∣ Q ∨ (2 ^ t ∣ Q ∧ r < n * 2 ^ t)) (hf : first = true → t ≠ 0)
    (heven : r < n * 2 ^ t → t ≠ 0 → t % 64 = 0 → 2 ∣ n) :
    ∃ cont d', compare_and_subtract cfg first d = .ok (cont, d') ∧
      ((cont = false ∧ d' = d ∧ r < n ∧ first = false) ∨
       (∃ t', t' ≤ t ∧ (r < n * 2 ^ t → t' < t) ∧ 2 ^ (t' + 1) ∣ Q ∧
          d'.quotient.element_pos = (if first then t' / 64 else d.quotient.element_pos) ∧
          d'.quotient.bit_pos = (if first then t' % 64 + 1 else d.quotient.bit_pos) ∧
          ((cont = false ∧ a = (Q + 2 ^ t') * n ∧ d'.this = bigOf size 0 ∧
            d'.quotient.elements.length = size ∧ Lim d'.quotient.elements ∧
            val d'.quotient.elements = Q + 2 ^ t') ∨
           (cont = true ∧ ∃ r', r' ≠ 0 ∧ r' < n * 2 ^ t' ∧ Inv size p a n t' (Q + 2 ^ t') r' d')))) := by
  have hs : 0 < size := lt_of_le_of_lt (Nat.zero_le _) I.rep.pos
  have hpos := I.rep.pos
  have hlen := I.rep.len
  have hpp := I.pos
  have hqlen := I.qlen
  obtain ⟨br, br1, br2⟩ := bitLength_rep I.rep hr
  have hNne : n * 2 ^ t ≠ 0 := Nat.mul_ne_zero hn (Nat.two_pow_pos t).ne'
  have hNlt : n * 2 ^ t < 2 ^ (64 * (d.this.element_pos + 1)) :=
    lt_of_lt_of_le (bitLength_lt _) (Nat.pow_le_pow_right (by norm_num) (by omega))
  have hNpart : part (filled d.shifted) (d.this.element_pos + 1) = n * 2 ^ t := by
    rw [I.sh.part (by omega), Nat.mod_eq_of_lt hNlt]
  have hrpart := el_of_top_zero I.rep
  have hr2N : r < 2 * (n * 2 ^ t) := by
    have e1 := bitLength_lt r
    have e2 := le_bitLength hNne
    rw [hal] at e1
    have e3 : 2 ^ bitLength (n * 2 ^ t) = 2 * 2 ^ (bitLength (n * 2 ^ t) - 1) := by
      rw [← pow_succ']; congr 1; omega
    omega
  have htpos : t / 64 ≤ d.this.element_pos := by
    have h1 : 2 ^ t ≤ n * 2 ^ t := Nat.le_mul_of_pos_left _ (by omega)
    have := (Nat.pow_lt_pow_iff_right (a := 2) (by norm_num)).mp (lt_of_le_of_lt h1 hNlt)
    omega
  -- the digits of `n_shifted` below the lowest one
  have low : ∀ (u : Nat) (l : List (Option Nat)), Sh p (n * 2 ^ u) l → u ≤ t → ∀ i, i < u / 64 →
      el (filled l) i = 0 := by
    intro u l hl hu i hi
    rw [hl.dig i (by omega)]
    unfold dg
    have : n * 2 ^ u = 2 ^ (64 * i) * (2 ^ 64 * (2 ^ (u - 64 * i - 64) * n)) := by
      rw [← Nat.mul_assoc, ← Nat.mul_assoc, ← pow_add, ← pow_add, Nat.mul_comm]; congr 2; omega
    rw [this, Nat.mul_div_cancel_left _ (Nat.two_pow_pos _), Nat.mul_mod_right]
  -- the new quotient
  have upd : ∀ t', t' ≤ t → 2 ^ (t' + 1) ∣ Q → _ := fun t' ht' hd =>
    quotient_update I.qlim I.qval (show t' / 64 < d.quotient.elements.length by omega) hd
  obtain ⟨c, c1, c2⟩ := compare_shifted_spec I.rep.lim I.sh.lim (d.this.element_pos + 1) (by omega)
    (fun i hi => I.sh.def_ i (by omega)) r (n * 2 ^ t) (by rw [hNpart, hrpart]; ring)
  unfold compare_and_subtract
  rw [c1]
  simp only [Exec.ok_bind]
  match c, c2 with
  | none, c2 =>
    simp only at c2 ⊢
    unfold shift_once
    rw [I.tz, I.base]
    by_cases ht : t = 0
    · have hff : first = false := by
        cases first
        · rfl
        · exact absurd ht (hf rfl)
      subst hff
      refine ⟨false, d, by simp [ht], Or.inl ⟨rfl, rfl, ?_, rfl⟩⟩
      rw [ht] at c2; simpa using c2
    · obtain ⟨s', s1, s2, s3⟩ := shift_once_start (first := first) I.sh ht hn (heven c2 ht)
      rw [s1]
      simp only [Exec.ok_bind]
      have hep1 : d.this.bit_pos = 1 → 1 ≤ d.this.element_pos := by
        intro hb
        by_contra hcon
        have : bitLength (n * 2 ^ t) = 1 := by omega
        rw [bitLength_mul_pow hn] at this
        have : bitLength n ≠ 0 := by simp [bitLength, hn]
        omega
      have hhalf : n * 2 ^ t = 2 * (n * 2 ^ (t - 1)) := by
        rw [show t = t - 1 + 1 by omega, pow_succ]; simp; ring
      have hbl' : bitLength (n * 2 ^ (t - 1)) + 1 = bitLength (n * 2 ^ t) := by
        rw [bitLength_mul_pow hn, bitLength_mul_pow hn]; omega
      have hQ' : 2 ^ (t - 1 + 1) ∣ Q := by
        rw [show t - 1 + 1 = t by omega]
        rcases hQ with hQ | hQ
        · exact dvd_trans (pow_dvd_pow 2 (by omega)) hQ
        · exact hQ.1
      obtain ⟨l', l1, l2, l3⟩ := shift_down_all (s := 1) (b := (t - 1) / 64) s2 hpp hNlt (by norm_num) (by omega)
        (fun _ => dvd_trans (pow_dvd_pow 2 (by omega)) (Dvd.intro_left n rfl))
      rw [show n * 2 ^ t / 2 ^ 1 = n * 2 ^ (t - 1) by rw [hhalf]; simp] at l2
      obtain ⟨u1, u2, u3, u4⟩ := upd (t - 1) (by omega) hQ'
      have hpartl : part (filled l') (d.this.element_pos + 1) = n * 2 ^ (t - 1) := by
        rw [l2.part (by omega), Nat.mod_eq_of_lt (by omega)]
      have hrlow : n * 2 ^ (t - 1) < r := by
        have e1 := bitLength_lt (n * 2 ^ (t - 1))
        have e2 := le_bitLength hr
        rw [show bitLength (n * 2 ^ (t - 1)) = bitLength r - 1 by omega] at e1
        omega
      have hsub := perform_subtraction_spec cfg (f := rdu l') (m := d.this.element_pos) I.rep l2.lim le_rfl
        (fun i hi => rdu_eq (l2.def_ i (by omega))) (by rw [hpartl, hrpart]; omega)
      rw [hpartl, hrpart, ← perform_subtraction_base cfg (b := (t - 1) / 64) I.rep.lim l2.lim (by omega) (by omega)
        (fun i hi => rdu_eq (l2.def_ i (by omega))) (low (t - 1) l' l2 (by omega)) (fun i h1 h2 => by omega) le_rfl]
        at hsub
      have hpb : ∃ q : Nat × Nat, (if d.this.bit_pos = 1 then (subw 64 d.shifted_element_pos 1, 64)
          else (d.shifted_element_pos, subw 64 d.shifted_bit_pos 1)) = q ∧
          bitLength (n * 2 ^ (t - 1)) = 64 * q.1 + q.2 ∧ 1 ≤ q.2 ∧ q.2 ≤ 64 := by
        refine ⟨_, rfl, ?_⟩
        split
        · rename_i hb
          have := hep1 hb
          rw [subw_of_le (by omega) (by omega)]
          dsimp only
          omega
        · rw [subw_of_le (by omega) (by omega)]
          dsimp only
          omega
      obtain ⟨q, q1, q2, q3, q4⟩ := hpb
      rw [q1]
      -- run the code
      have l1' : ∀ (g : List (Option Nat) → Exec (Option Div)),
          (do
            let s ← shift_down_loop 1 (d.this.element_pos - (t - 1) / 64) ((t - 1) / 64) s'
            let top ← rdu s d.this.element_pos
            let s ← wru s d.this.element_pos (top / 2)
            g s) = g l' := by
        intro g
        have : (do
            let s ← shift_down_loop 1 (d.this.element_pos - (t - 1) / 64) ((t - 1) / 64) s'
            let top ← rdu s d.this.element_pos
            let s ← wru s d.this.element_pos (top / 2)
            g s) = (do
            let l ← shift_down_loop 1 (d.this.element_pos - (t - 1) / 64) ((t - 1) / 64) s'
            let top ← rdu l d.this.element_pos
            wru l d.this.element_pos (top / 2 ^ 1) : Exec (List (Option Nat))) >>= g := by
          cases shift_down_loop 1 (d.this.element_pos - (t - 1) / 64) ((t - 1) / 64) s' with
          | fault e => rfl
          | ok s =>
            simp only [Exec.ok_bind]
            cases rdu s d.this.element_pos with
            | fault e => rfl
            | ok v => rfl
        rw [this, l1]; rfl
      have hrep' := rep_bigOf (size := size) (v := r - n * 2 ^ (t - 1)) hs (by have := I.rep.lt; omega)
      have hpos' : (bigOf size (r - n * 2 ^ (t - 1))).element_pos ≤ p := by
        have h1 : r - n * 2 ^ (t - 1) ≤ r := by omega
        have h2 := bitLength_mono h1
        show topDigit _ ≤ p
        unfold topDigit
        omega
      rw [l1']
      simp only [Exec.ok_bind, Option.map_some, I.total]
      rw [u1]
      simp only [Exec.ok_bind]
      rw [u2]
      simp only [Exec.ok_bind]
      rw [hsub]
      simp only [Exec.ok_bind]
      refine ⟨true, _, rfl, Or.inr ⟨t - 1, by omega, fun _ => by omega, hQ', ?_, ?_, Or.inr ⟨rfl, r - n * 2 ^ (t - 1), by omega, by omega, ?_⟩⟩⟩
      · cases first <;> rfl
      · cases first <;> rfl
      · refine ⟨hrep', hpos', l2, by rw [l3, s3]; exact I.shlen, rfl, rfl, rfl, q2, q3, q4, ?_, by simpa using hqlen,
          u3, u4⟩
        rw [I.sum, Nat.add_mul, Nat.mul_comm (2 ^ (t - 1)) n]
        omega
  | some 0, c2 =>
    simp only at c2 ⊢
    have hQ' : 2 ^ (t + 1) ∣ Q := by
      rcases hQ with hQ | hQ
      · exact hQ
      · omega
    obtain ⟨u1, u2, u3, u4⟩ := upd t le_rfl hQ'
    obtain ⟨els, z1, z2, z3⟩ := zero_loop_spec (d.this.element_pos + 1) 0 d.this.elements (by omega)
    simp only [Exec.ok_bind]
    rw [I.base, I.tz, u1]
    simp only [Exec.ok_bind]
    rw [u2]
    simp only [Exec.ok_bind]
    rw [z1]
    simp only [Exec.ok_bind]
    refine ⟨false, _, rfl, Or.inr ⟨t, le_rfl, fun h => by omega, hQ', ?_, ?_, Or.inl ⟨rfl, ?_, ?_, by simpa using hqlen,
      u3, u4⟩⟩⟩
    · cases first <;> rfl
    · cases first <;> rfl
    · rw [I.sum, c2]; ring
    · have hz : ∀ i, el els i = 0 := by
        intro i
        rw [z3 i]
        split
        · rfl
        · exact I.rep.above i (by omega)
      have hv : val els = 0 := by
        rw [← part_eq_val (l := els) (k := 0) fun i _ => hz i, part_zero]
      exact (rep_mk (size := size) (p := 0) (by omega) (fun i => by rw [hz i]; norm_num) hv hs (fun i _ => hz i) (Or.inl rfl)
        (by rw [hz 0]; rfl)).eq
  | some (m + 1), c2 =>
    simp only at c2 ⊢
    obtain ⟨c2, c3, c4, c5⟩ := c2
    have hQ' : 2 ^ (t + 1) ∣ Q := by
      rcases hQ with hQ | hQ
      · exact hQ
      · omega
    obtain ⟨u1, u2, u3, u4⟩ := upd t le_rfl hQ'
    have hsub := perform_subtraction_spec cfg (f := rdu d.shifted) (m := m) I.rep I.sh.lim (by omega)
      (fun i hi => rdu_eq (I.sh.def_ i (by omega))) (by omega)
    rw [show part d.this.elements (m + 1) - part (filled d.shifted) (m + 1) = r - n * 2 ^ t by omega,
      ← perform_subtraction_base cfg (b := t / 64) I.rep.lim I.sh.lim (by omega) (by omega)
        (fun i hi => rdu_eq (I.sh.def_ i (by omega))) (low t d.shifted I.sh le_rfl) (fun i h1 h2 => c5 i h1 (by omega))
        (by omega)] at hsub
    have hrep' := rep_bigOf (size := size) (v := r - n * 2 ^ t) hs (by have := I.rep.lt; omega)
    have hpos' : (bigOf size (r - n * 2 ^ t)).element_pos ≤ p := by
      have h1 : r - n * 2 ^ t ≤ r := by omega
      have h2 := bitLength_mono h1
      show topDigit _ ≤ p
      unfold topDigit
      omega
    simp only [Exec.ok_bind]
    rw [I.base, I.tz, u1]
    simp only [Exec.ok_bind]
    rw [u2]
    simp only [Exec.ok_bind]
    rw [hsub]
    simp only [Exec.ok_bind]
    refine ⟨true, _, rfl, Or.inr ⟨t, le_rfl, fun h => by omega, hQ', ?_, ?_, Or.inr ⟨rfl, r - n * 2 ^ t, by omega, by omega, ?_⟩⟩⟩
    · cases first <;> rfl
    · cases first <;> rfl
    · refine ⟨hrep', hpos', I.sh, I.shlen, rfl, rfl, I.total, I.sbit, I.sbit1, I.sbit2, ?_, by simpa using hqlen, u3, u4⟩
      rw [I.sum, Nat.add_mul, Nat.mul_comm (2 ^ t) n]
      omega

end Big
end Grisu
