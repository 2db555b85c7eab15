import Verif.Proofs.BigInt

/-! # Addition, subtraction and comparison of multi-word integers -/

namespace Grisu
namespace Big

theorem pow_step (i : Nat) : 2 ^ (64 * (i + 1)) = 2 ^ 64 * 2 ^ (64 * i) := by
  rw [show 64 * (i + 1) = 64 + 64 * i by ring, pow_add]

/-- One element of an addition. -/
theorem add_step {a b c : Nat} (ha : a < 2 ^ 64) (hb : b < 2 ^ 64) (hc : c ≤ 1) :
    let w := wrap 64 (a + c)
    let n := wrap 64 (w + b)
    let c' := (if w < a then 1 else 0) ||| (if n < b then 1 else 0)
    n + c' * 2 ^ 64 = a + c + b ∧ c' ≤ 1 ∧ n < 2 ^ 64 := by
  intro w n c'
  have hw : w = (a + c) % 2 ^ 64 := rfl
  have hn : n = (w + b) % 2 ^ 64 := rfl
  clear_value w n
  have : c' = (if w < a then 1 else 0) ||| (if n < b then 1 else 0) := rfl
  clear_value c'
  split at this <;> split at this <;> simp at this <;> omega

theorem add_common_spec {n : List Nat} (hn : Lim n) (count : Nat) : ∀ (idx : Nat) (els : List Nat)
    (carry : Nat), Lim els → carry ≤ 1 → idx + count ≤ els.length → idx + count ≤ n.length →
    ∃ els' c, add_common n count idx els carry = .ok (els', c) ∧ els'.length = els.length ∧ Lim els' ∧
      c ≤ 1 ∧
      val els' + c * 2 ^ (64 * (idx + count)) + part n idx =
        val els + carry * 2 ^ (64 * idx) + part n (idx + count) ∧
      ∀ i, i < idx ∨ idx + count ≤ i → el els' i = el els i := by
  induction count with
  | zero => intro idx els carry h1 h2 h3 h4; exact ⟨els, carry, rfl, rfl, h1, h2, rfl, fun _ _ => rfl⟩
  | succ count ih =>
    intro idx els carry h1 h2 h3 h4
    have hi : idx < els.length := by omega
    simp only [add_common, rd_eq hi, rd_eq (show idx < n.length by omega), wr_eq hi, Exec.ok_bind]
    obtain ⟨s1, s2, s3⟩ := add_step (h1 idx) (hn idx) h2
    generalize ((if wrap 64 (el els idx + carry) < el els idx then 1 else 0) |||
      if wrap 64 (wrap 64 (el els idx + carry) + el n idx) < el n idx then 1 else 0) = c1 at *
    generalize hnew : wrap 64 (wrap 64 (el els idx + carry) + el n idx) = new at *
    obtain ⟨els', c, e1, e2, e3, e4, e5, e6⟩ := ih (idx + 1) (els.set idx new) c1
      (h1.set hi s3) s2 (by simp; omega) (by omega)
    refine ⟨els', c, e1, by simpa using e2, e3, e4, ?_, ?_⟩
    · have v := val_set new hi
      rw [part_succ, pow_step, show idx + 1 + count = idx + (count + 1) by ring] at e5
      have s1' := congrArg (· * 2 ^ (64 * idx)) s1
      simp only [add_mul] at s1'
      linarith
    · intro i hi'
      rw [e6 i (by omega), el_set hi, if_neg (by omega)]

/-- The carry loop adds the carry to the source. -/
theorem carry_loop_spec (source : Option (List Nat)) (count : Nat) : ∀ (idx : Nat) (els : List Nat)
    (carry : Nat), Lim els → carry ≤ 1 → idx + count ≤ els.length →
    (∀ n, source = some n → Lim n ∧ idx + count ≤ n.length ∧ ∀ i, idx ≤ i → el els i = 0) →
    ∃ els' c, carry_loop source count idx els carry = .ok (els', c) ∧ els'.length = els.length ∧
      Lim els' ∧ c ≤ 1 ∧
      val els' + c * 2 ^ (64 * (idx + count)) + part (source.getD []) idx =
        val els + carry * 2 ^ (64 * idx) + part (source.getD []) (idx + count) ∧
      ∀ i, i < idx ∨ idx + count ≤ i → el els' i = el els i := by
  induction count with
  | zero => intro idx els carry h1 h2 h3 h4; exact ⟨els, carry, rfl, rfl, h1, h2, rfl, fun _ _ => rfl⟩
  | succ count ih =>
    intro idx els carry h1 h2 h3 h4
    have hi : idx < els.length := by omega
    have hsrc : rd (source.getD els) idx = .ok (el els idx + el (source.getD []) idx) ∧
        el els idx + el (source.getD []) idx < 2 ^ 64 := by
      cases source with
      | none => simpa [rd_eq hi, el_of_ge] using h1 idx
      | some n =>
        obtain ⟨a, b, c⟩ := h4 n rfl
        simpa [rd_eq (show idx < n.length by omega), c idx le_rfl] using a idx
    obtain ⟨hs1, hs2⟩ := hsrc
    simp only [carry_loop, hs1, Exec.ok_bind, wr_eq hi]
    generalize hcur : el els idx + el (source.getD []) idx = cur at *
    have st : wrap 64 (cur + carry) + (if wrap 64 (cur + carry) < carry then 1 else 0) * 2 ^ 64 = cur + carry ∧
        (if wrap 64 (cur + carry) < carry then 1 else 0) ≤ 1 ∧ wrap 64 (cur + carry) < 2 ^ 64 := by
      unfold wrap
      split <;> omega
    obtain ⟨s1, s2, s3⟩ := st
    generalize (if wrap 64 (cur + carry) < carry then 1 else 0) = c1 at *
    generalize wrap 64 (cur + carry) = new at *
    obtain ⟨els', c, e1, e2, e3, e4, e5, e6⟩ := ih (idx + 1) (els.set idx new) c1
      (h1.set hi s3) s2 (by simp; omega) (by
        intro n hn
        obtain ⟨a, b, c⟩ := h4 n hn
        refine ⟨a, by omega, fun i hi' => ?_⟩
        rw [el_set hi, if_neg (by omega)]; exact c i (by omega))
    refine ⟨els', c, e1, by simpa using e2, e3, e4, ?_, ?_⟩
    · have v := val_set new hi
      rw [part_succ, pow_step, show idx + 1 + count = idx + (count + 1) by ring] at e5
      rw [← hcur] at s1
      have s1' := congrArg (· * 2 ^ (64 * idx)) s1
      simp only [add_mul] at s1'
      linarith
    · intro i hi'
      rw [e6 i (by omega), el_set hi, if_neg (by omega)]

theorem set_leading_spec {cfg : Cfg} {els : List Nat} {m c v size : Nat} (hl : els.length = size)
    (h1 : Lim els) (hc : c ≤ 1) (hm : m < size) (hab : ∀ i, m < i → el els i = 0)
    (hv : val els + c * 2 ^ (64 * (m + 1)) = v) (hlt : v < 2 ^ (64 * size))
    (hge : m = 0 ∨ 2 ^ (64 * m) ≤ v) :
    set_leading_one_pos cfg els m c = .ok (bigOf size v) := by
  unfold set_leading_one_pos
  by_cases h : c = 0
  · subst h
    simp only [ne_eq, not_true_eq_false, if_false, rd_eq (show m < els.length by omega), Exec.ok_bind]
    rw [(rep_mk hl h1 (by simpa using hv) hm hab hge rfl).eq]
  · have hc1 : c = 1 := by omega
    subst hc1
    have hms : m + 1 < size := by
      by_contra hcon
      have : m + 1 = size := by omega
      rw [this] at hv; omega
    have hi : m + 1 < els.length := by omega
    simp only [ne_eq, h, not_false_eq_true, if_true, cassert_true (cfg := cfg) (b := decide (m + 1 < els.length)) (by simpa using hi),
      wr_eq hi, Exec.ok_bind]
    have vs := val_set 1 hi
    rw [hab (m + 1) (by omega)] at vs
    rw [(rep_mk (size := size) (v := v) (by simpa using hl) (h1.set hi (by norm_num)) (by omega) hms
      (fun i hi' => by rw [el_set hi, if_neg (by omega)]; exact hab i (by omega))
      (Or.inr (by omega)) (by rw [el_set hi, if_pos rfl]; rfl)).eq]

theorem add_core (cfg : Cfg) {size a b : Nat} {x n : Big} (hx : Weak size a x) (hn : Weak size b n) :
    ∃ els m c, add cfg x n = set_leading_one_pos cfg els m c ∧ els.length = size ∧ Lim els ∧ c ≤ 1 ∧ m < size ∧
      (∀ i, m < i → el els i = 0) ∧ val els + c * 2 ^ (64 * (m + 1)) = a + b ∧
      m = max x.element_pos n.element_pos := by
  have hs : 0 < size := lt_of_le_of_lt (Nat.zero_le _) hx.pos
  have hx0 : 0 < x.elements.length := by rw [hx.len]; exact hs
  have hn0 : 0 < n.elements.length := by rw [hn.len]; exact hs
  have hpx := hx.pos
  have hpn := hn.pos
  have hxl := hx.len
  have hnl := hn.len
  have hxv := hx.val
  have hnv : part n.elements (n.element_pos + 1) = b := by
    rw [part_eq_val fun i hi => hn.above i (by omega), hn.val]
  unfold add
  simp only [rd_eq hx0, rd_eq hn0, Exec.ok_bind, wr_eq hx0]
  have st : wrap 64 (el x.elements 0 + el n.elements 0) +
      (if wrap 64 (el x.elements 0 + el n.elements 0) < el n.elements 0 then 1 else 0) * 2 ^ 64 =
        el x.elements 0 + el n.elements 0 ∧
      (if wrap 64 (el x.elements 0 + el n.elements 0) < el n.elements 0 then 1 else 0) ≤ 1 ∧
      wrap 64 (el x.elements 0 + el n.elements 0) < 2 ^ 64 := by
    have := hx.lim 0
    have := hn.lim 0
    unfold wrap
    split <;> omega
  obtain ⟨s1, s2, s3⟩ := st
  generalize (if wrap 64 (el x.elements 0 + el n.elements 0) < el n.elements 0 then 1 else 0) = c0 at *
  generalize wrap 64 (el x.elements 0 + el n.elements 0) = new at *
  have v0 := val_set new hx0
  simp only [Nat.mul_zero, pow_zero, Nat.mul_one] at v0
  have hp1 : part n.elements 1 = el n.elements 0 := by rw [part_succ, part_zero]; simp
  have l0 := hx.lim.set hx0 s3
  have len0 : (x.elements.set 0 new).length = size := by simpa using hxl
  have el0 : ∀ i, 1 ≤ i → el (x.elements.set 0 new) i = el x.elements i := by
    intro i hi; rw [el_set hx0, if_neg (by omega)]
  generalize x.elements.set 0 new = els0 at *
  split
  · rename_i hlt
    obtain ⟨els1, c1, e1, e2, e3, e4, e5, e6⟩ := add_common_spec hn.lim x.element_pos 1 els0 c0 l0 s2
      (by omega) (by omega)
    obtain ⟨els2, c2, f1, f2, f3, f4, f5, f6⟩ := carry_loop_spec (some n.elements)
      (n.element_pos - x.element_pos) (x.element_pos + 1) els1 c1 e3 e4 (by omega) (by
        intro m hm
        cases hm
        refine ⟨hn.lim, by omega, fun i hi => ?_⟩
        rw [e6 i (by omega), el0 i (by omega)]; exact hx.above i (by omega))
    simp only [e1, f1, Exec.ok_bind]
    refine ⟨els2, n.element_pos, c2, rfl, by omega, f3, f4, hpn, ?_, ?_, by omega⟩
    · intro i hi
      rw [f6 i (by omega), e6 i (by omega), el0 i (by omega)]; exact hx.above i (by omega)
    · simp only [Option.getD_some] at f5
      rw [show x.element_pos + 1 + (n.element_pos - x.element_pos) = n.element_pos + 1 by omega, hnv,
        show x.element_pos + 1 = 1 + x.element_pos by ring] at f5
      rw [hp1] at e5
      simp only [Nat.mul_one] at e5
      omega
  · rename_i hlt
    obtain ⟨els1, c1, e1, e2, e3, e4, e5, e6⟩ := add_common_spec hn.lim n.element_pos 1 els0 c0 l0 s2
      (by omega) (by omega)
    obtain ⟨els2, c2, f1, f2, f3, f4, f5, f6⟩ := carry_loop_spec none
      (x.element_pos - n.element_pos) (n.element_pos + 1) els1 c1 e3 e4 (by omega) (by
        intro m hm; cases hm)
    simp only [e1, f1, Exec.ok_bind]
    refine ⟨els2, x.element_pos, c2, rfl, by omega, f3, f4, hpx, ?_, ?_, by omega⟩
    · intro i hi
      rw [f6 i (by omega), e6 i (by omega), el0 i (by omega)]; exact hx.above i (by omega)
    · have z : ∀ k, part [] k = 0 := by intro k; simp [part, val]
      simp only [Option.getD_none, z] at f5
      rw [show n.element_pos + 1 + (x.element_pos - n.element_pos) = x.element_pos + 1 by omega] at f5
      rw [hp1, show 1 + n.element_pos = n.element_pos + 1 by ring, hnv] at e5
      simp only [Nat.mul_one] at e5
      omega

theorem add_spec (cfg : Cfg) {size a b : Nat} {x n : Big} (hx : Rep size a x) (hn : Rep size b n)
    (h : a + b < 2 ^ (64 * size)) : add cfg x n = .ok (bigOf size (a + b)) := by
  obtain ⟨els, m, c, e0, e1, e2, e3, e4, e5, e6, e7⟩ := add_core cfg hx.weak hn.weak
  rw [e0]
  refine set_leading_spec e1 e2 e3 e4 e5 e6 h ?_
  rcases le_total x.element_pos n.element_pos with hh | hh
  · rw [max_eq_right hh] at e7
    subst e7
    rcases hn.ge with hh | hh
    · left; exact hh
    · right; omega
  · rw [max_eq_left hh] at e7
    subst e7
    rcases hx.ge with hh | hh
    · left; exact hh
    · right; omega

/-- A sum with a number whose recorded position is too high. -/
theorem add_weak (cfg : Cfg) {size a b : Nat} {x n : Big} (hx : Weak size a x) (hn : Weak size b n)
    (h : a + b < 2 ^ (64 * size)) :
    ∃ z, add cfg x n = .ok z ∧ Weak size (a + b) z ∧
      (z.element_pos = max x.element_pos n.element_pos ∨ 2 ^ (64 * z.element_pos) ≤ a + b) := by
  obtain ⟨els, m, c, e0, e1, e2, e3, e4, e5, e6, e7⟩ := add_core cfg hx hn
  rw [e0]
  unfold set_leading_one_pos
  by_cases hc : c = 0
  · subst hc
    simp only [ne_eq, not_true_eq_false, if_false, rd_eq (show m < els.length by omega), Exec.ok_bind]
    exact ⟨_, rfl, ⟨e1, e2, by simpa using e6, e4, e5⟩, Or.inl e7⟩
  · have hc1 : c = 1 := by omega
    subst hc1
    have hms : m + 1 < size := by
      by_contra hcon
      have : m + 1 = size := by omega
      rw [this] at e6; omega
    have hi : m + 1 < els.length := by omega
    simp only [ne_eq, hc, not_false_eq_true, if_true, cassert_true (cfg := cfg) (b := decide (m + 1 < els.length)) (by simpa using hi),
      wr_eq hi, Exec.ok_bind]
    have vs := val_set 1 hi
    rw [e5 (m + 1) (by omega)] at vs
    refine ⟨_, rfl, ⟨by simpa using e1, e2.set hi (by norm_num), ?_, hms, fun i hi' => ?_⟩, Or.inr ?_⟩
    · show val (els.set (m + 1) 1) = a + b
      omega
    · rw [el_set hi, if_neg (by have : m + 1 < i := hi'; omega)]
      exact e5 i (by have : m + 1 < i := hi'; omega)
    · show 2 ^ (64 * (m + 1)) ≤ a + b
      omega

/-- `operator+=(element_type)`: the digits are right, the leading bit is not updated. -/
theorem addE_spec (cfg : Cfg) {size a n : Nat} {x : Big} (hx : Rep size a x) (hn : n < 2 ^ 64)
    (h : a + n < 2 ^ (64 * size)) :
    ∃ p, addE cfg x n = .ok ⟨(bigOf size (a + n)).elements, (bigOf size (a + n)).element_pos, p⟩ ∧
      p = if topDigit (a + n) = topDigit a then x.bit_pos else 1 := by
  have hs : 0 < size := lt_of_le_of_lt (Nat.zero_le _) hx.pos
  have hx0 : 0 < x.elements.length := by rw [hx.len]; exact hs
  have hpx := hx.pos
  have hxl := hx.len
  have hxv := hx.val
  unfold addE
  simp only [rd_eq hx0, Exec.ok_bind, wr_eq hx0]
  have st : wrap 64 (el x.elements 0 + n) + (if wrap 64 (el x.elements 0 + n) < n then 1 else 0) * 2 ^ 64 =
        el x.elements 0 + n ∧
      (if wrap 64 (el x.elements 0 + n) < n then 1 else 0) ≤ 1 ∧ wrap 64 (el x.elements 0 + n) < 2 ^ 64 := by
    have := hx.lim 0
    unfold wrap
    split <;> omega
  obtain ⟨s1, s2, s3⟩ := st
  generalize (if wrap 64 (el x.elements 0 + n) < n then 1 else 0) = c0 at *
  generalize wrap 64 (el x.elements 0 + n) = new at *
  have v0 := val_set new hx0
  simp only [Nat.mul_zero, pow_zero, Nat.mul_one] at v0
  have l0 := hx.lim.set hx0 s3
  have len0 : (x.elements.set 0 new).length = size := by simpa using hxl
  have el0 : ∀ i, 1 ≤ i → el (x.elements.set 0 new) i = el x.elements i := by
    intro i hi; rw [el_set hx0, if_neg (by omega)]
  generalize x.elements.set 0 new = els0 at *
  obtain ⟨els1, c1, e1, e2, e3, e4, e5, e6⟩ := carry_loop_spec none x.element_pos 1 els0 c0 l0 s2
    (by omega) (by intro m hm; cases hm)
  have z : ∀ k, part [] k = 0 := by intro k; simp [part, val]
  simp only [Option.getD_none, z, Nat.mul_one] at e5
  rw [show 1 + x.element_pos = x.element_pos + 1 by ring] at e5
  have hab : ∀ i, x.element_pos < i → el els1 i = 0 := by
    intro i hi
    rw [e6 i (by omega), el0 i (by omega)]; exact hx.above i (by omega)
  have hta : topDigit a = x.element_pos := topDigit_eq hx.lt' hx.ge
  have r := rep_bigOf hs h
  simp only [e1, Exec.ok_bind]
  by_cases hc : c1 = 0
  · subst hc
    simp only [ne_eq, not_true_eq_false, if_false]
    have hv1 : val els1 = a + n := by omega
    have he : els1 = (bigOf size (a + n)).elements := by
      apply val_inj e3 r.lim
      · rw [r.len]; omega
      · rw [r.val]; omega
    have ht : topDigit (a + n) = x.element_pos := by
      apply topDigit_eq
      · have e := part_lt e3 (x.element_pos + 1)
        rw [part_eq_val fun i hi => hab i (by omega)] at e
        omega
      · rcases hx.ge with hh | hh
        · left; exact hh
        · right; omega
    refine ⟨x.bit_pos, ?_, by rw [ht, hta, if_pos rfl]⟩
    rw [← he]
    show Exec.ok _ = Exec.ok (Big.mk _ (topDigit (a + n)) _)
    rw [ht]
  · have hc1 : c1 = 1 := by omega
    subst hc1
    have hms : x.element_pos + 1 < size := by
      by_contra hcon
      have : x.element_pos + 1 = size := by omega
      rw [this] at e5; omega
    have hi : x.element_pos + 1 < els1.length := by omega
    simp only [ne_eq, hc, not_false_eq_true, if_true,
      cassert_true (cfg := cfg) (b := decide (x.element_pos + 1 < els1.length)) (by simpa using hi),
      wr_eq hi, Exec.ok_bind]
    have vs := val_set 1 hi
    rw [hab (x.element_pos + 1) (by omega)] at vs
    have ht : topDigit (a + n) = x.element_pos + 1 := by
      apply topDigit_eq
      · have e := part_lt (e3.set hi (show 1 < 2 ^ 64 by norm_num)) (x.element_pos + 1 + 1)
        rw [part_eq_val fun i hi' => by
          rw [el_set hi, if_neg (by omega)]; exact hab i (by omega)] at e
        omega
      · right; omega
    refine ⟨1, ?_, by rw [ht, hta, if_neg (by omega)]⟩
    have he : els1.set (x.element_pos + 1) 1 = (bigOf size (a + n)).elements := by
      apply val_inj (e3.set hi (by norm_num)) r.lim
      · rw [r.len]; simp; omega
      · rw [r.val]; omega
    rw [← he]
    show Exec.ok _ = Exec.ok (Big.mk _ (topDigit (a + n)) _)
    rw [ht]

/-! ## Subtraction -/

/-- One element of a subtraction. -/
theorem sub_step {a b c : Nat} (ha : a < 2 ^ 64) (hb : b < 2 ^ 64) (hc : c ≤ 1) :
    let w := wrap 64 (b + c)
    let n := subw 64 a w
    let c' := (if w < c then 1 else 0) ||| (if a < w then 1 else 0)
    n + b + c = a + c' * 2 ^ 64 ∧ c' ≤ 1 ∧ n < 2 ^ 64 := by
  intro w n c'
  have hw : w = (b + c) % 2 ^ 64 := rfl
  have hn : n = (a + (2 ^ 64 - w % 2 ^ 64)) % 2 ^ 64 := rfl
  clear_value w n
  have : c' = (if w < c then 1 else 0) ||| (if a < w then 1 else 0) := rfl
  clear_value c'
  split at this <;> split at this <;> simp at this <;> omega

theorem sub_loop_spec {f : Nat → Exec Nat} {n : List Nat} (hn : Lim n) (count : Nat) :
    ∀ (idx : Nat) (els : List Nat) (carry : Nat), Lim els → carry ≤ 1 → idx + count ≤ els.length →
    (∀ i, idx ≤ i → i < idx + count → f i = .ok (el n i)) →
    ∃ els' c, sub_loop f count idx els carry = .ok (els', c) ∧ els'.length = els.length ∧ Lim els' ∧
      c ≤ 1 ∧
      val els' + carry * 2 ^ (64 * idx) + part n (idx + count) =
        val els + c * 2 ^ (64 * (idx + count)) + part n idx ∧
      ∀ i, i < idx ∨ idx + count ≤ i → el els' i = el els i := by
  induction count with
  | zero =>
    intro idx els carry h1 h2 h3 h4
    exact ⟨els, carry, rfl, rfl, h1, h2, rfl, fun _ _ => rfl⟩
  | succ count ih =>
    intro idx els carry h1 h2 h3 h4
    have hi : idx < els.length := by omega
    simp only [sub_loop, rd_eq hi, h4 idx le_rfl (by omega), wr_eq hi, Exec.ok_bind]
    obtain ⟨s1, s2, s3⟩ := sub_step (h1 idx) (hn idx) h2
    generalize ((if wrap 64 (el n idx + carry) < carry then 1 else 0) |||
      if el els idx < wrap 64 (el n idx + carry) then 1 else 0) = c1 at *
    generalize subw 64 (el els idx) (wrap 64 (el n idx + carry)) = new at *
    obtain ⟨els', c, e1, e2, e3, e4, e5, e6⟩ := ih (idx + 1) (els.set idx new) c1
      (h1.set hi s3) s2 (by simp; omega) (fun i h h' => h4 i (by omega) (by omega))
    refine ⟨els', c, e1, by simpa using e2, e3, e4, ?_, ?_⟩
    · have v := val_set new hi
      rw [part_succ, pow_step, show idx + 1 + count = idx + (count + 1) by ring] at e5
      have s1' := congrArg (· * 2 ^ (64 * idx)) s1
      simp only [add_mul] at s1'
      linarith
    · intro i hi'
      rw [e6 i (by omega), el_set hi, if_neg (by omega)]

theorem borrow_spec (cfg : Cfg) (fuel : Nat) : ∀ (idx j : Nat) (els : List Nat), Lim els →
    idx ≤ j → j < els.length → el els j ≠ 0 → j - idx < fuel →
    ∃ els', borrow_loop cfg fuel idx els = .ok els' ∧ els'.length = els.length ∧ Lim els' ∧
      val els' + 2 ^ (64 * idx) = val els ∧ ∀ i, i < idx ∨ j < i → el els' i = el els i := by
  induction fuel with
  | zero => intro idx j els h1 h2 h3 h4 h5; omega
  | succ fuel ih =>
    intro idx j els h1 h2 h3 h4 h5
    have hi : idx < els.length := by omega
    simp only [borrow_loop, rd_eq hi, Exec.ok_bind]
    split
    · rename_i h0
      have hj : idx + 1 ≤ j := by
        rcases Nat.eq_or_lt_of_le h2 with h | h
        · rw [← h] at h4; exact absurd h0 h4
        · omega
      obtain ⟨els', e1, e2, e3, e4, e5⟩ := ih (idx + 1) j (els.set idx (2 ^ 64 - 1))
        (h1.set hi (by norm_num)) hj (by simpa using h3) (by rwa [el_set hi, if_neg (by omega)]) (by omega)
      simp only [wr_eq hi, Exec.ok_bind, cassert_true (cfg := cfg)
        (b := decide (idx + 1 < (els.set idx (2 ^ 64 - 1)).length)) (by simp; omega)]
      refine ⟨els', e1, by simpa using e2, e3, ?_, ?_⟩
      · have v := val_set (2 ^ 64 - 1) hi
        rw [h0] at v
        rw [pow_step] at e4
        have e : (2 ^ 64 - 1) * 2 ^ (64 * idx) + 2 ^ (64 * idx) = 2 ^ 64 * 2 ^ (64 * idx) := by
          rw [← Nat.succ_mul]; congr 1
        omega
      · intro i h'
        rw [e5 i (by omega), el_set hi, if_neg (by omega)]
    · rename_i h0
      refine ⟨els.set idx (el els idx - 1), wr_eq hi, by simp, h1.set hi (by have := h1 idx; omega), ?_, ?_⟩
      · have v := val_set (el els idx - 1) hi
        have e : (el els idx - 1) * 2 ^ (64 * idx) + 2 ^ (64 * idx) = el els idx * 2 ^ (64 * idx) := by
          rw [← Nat.succ_mul]; congr 1; omega
        omega
      · intro i h'
        rw [el_set hi, if_neg (by omega)]

theorem find_leading_spec {els : List Nat} (p : Nat) (hp : p < els.length) :
    ∃ q, find_leading els p = .ok q ∧ q ≤ p ∧ (q = 0 ∨ el els q ≠ 0) ∧
      ∀ i, q < i → i ≤ p → el els i = 0 := by
  induction p with
  | zero => exact ⟨0, rfl, le_rfl, Or.inl rfl, fun i h h' => by omega⟩
  | succ p ih =>
    simp only [find_leading, rd_eq hp, Exec.ok_bind]
    by_cases h : el els (p + 1) = 0
    · obtain ⟨q, a, b, c, d⟩ := ih (by omega)
      refine ⟨q, by simp [h, a], by omega, c, fun i h' h'' => ?_⟩
      rcases Nat.eq_or_lt_of_le h'' with hh | hh
      · rw [hh, h]
      · exact d i h' (by omega)
    · exact ⟨p + 1, by simp [h], le_rfl, Or.inr h, fun i h h' => by omega⟩

/-- `Rep` from the result of `find_leading`. -/
theorem rep_find {size v q p : Nat} {l : List Nat} (hl : l.length = size) (lim : Lim l) (hv : val l = v)
    (hp : q ≤ p) (hps : p < size) (habove : ∀ i, p < i → el l i = 0) (hq : q = 0 ∨ el l q ≠ 0)
    (hz : ∀ i, q < i → i ≤ p → el l i = 0) : Rep size v ⟨l, q, log2p1 (el l q)⟩ := by
  refine ⟨hl, lim, hv, by show q < size; omega, ?_, hq, log2p1_eq (lim q)⟩
  intro i hi
  have hi' : q < i := hi
  by_cases h : i ≤ p
  · exact hz i hi' h
  · exact habove i (by omega)

theorem sub_weak (cfg : Cfg) {size a b : Nat} {x n : Big} (hx : Rep size a x) (hn : Weak size b n)
    (hpos : n.element_pos ≤ x.element_pos) (h : b ≤ a) : sub cfg x n = .ok (bigOf size (a - b)) := by
  have hs : 0 < size := lt_of_le_of_lt (Nat.zero_le _) hx.pos
  have hx0 : 0 < x.elements.length := by rw [hx.len]; exact hs
  have hn0 : 0 < n.elements.length := by rw [hn.len]; exact hs
  have hpx := hx.pos
  have hpn := hn.pos
  have hxl := hx.len
  have hnl := hn.len
  have hxv := hx.val
  have hnv : part n.elements (n.element_pos + 1) = b := by
    rw [part_eq_val fun i hi => hn.above i (by omega), hn.val]
  unfold sub
  simp only [rd_eq hx0, rd_eq hn0, Exec.ok_bind, wr_eq hx0]
  have st : subw 64 (el x.elements 0) (el n.elements 0) + el n.elements 0 =
      el x.elements 0 + (if el x.elements 0 < el n.elements 0 then 1 else 0) * 2 ^ 64 ∧
      (if el x.elements 0 < el n.elements 0 then 1 else 0) ≤ 1 ∧
      subw 64 (el x.elements 0) (el n.elements 0) < 2 ^ 64 := by
    have := hx.lim 0
    have := hn.lim 0
    unfold subw
    split <;> omega
  obtain ⟨s1, s2, s3⟩ := st
  generalize (if el x.elements 0 < el n.elements 0 then 1 else 0) = c0 at *
  generalize subw 64 (el x.elements 0) (el n.elements 0) = new at *
  have v0 := val_set new hx0
  simp only [Nat.mul_zero, pow_zero, Nat.mul_one] at v0
  have hp1 : part n.elements 1 = el n.elements 0 := by rw [part_succ, part_zero]; simp
  have l0 := hx.lim.set hx0 s3
  have len0 : (x.elements.set 0 new).length = size := by simpa using hxl
  have el0 : ∀ i, 1 ≤ i → el (x.elements.set 0 new) i = el x.elements i := by
    intro i hi; rw [el_set hx0, if_neg (by omega)]
  generalize x.elements.set 0 new = els0 at *
  obtain ⟨els1, c1, e1, e2, e3, e4, e5, e6⟩ := sub_loop_spec hn.lim n.element_pos 1 els0 c0 l0 s2
    (by omega) (fun i h1 h2 => rd_eq (by omega))
  rw [hp1, show 1 + n.element_pos = n.element_pos + 1 by ring, hnv] at e5
  simp only [Nat.mul_one] at e5
  have hab1 : ∀ i, x.element_pos < i → el els1 i = 0 := by
    intro i hi
    rw [e6 i (by omega), el0 i (by omega)]; exact hx.above i (by omega)
  simp only [e1, Exec.ok_bind]
  have fin : ∀ els2 : List Nat, els2.length = size → Lim els2 → val els2 = a - b →
      (∀ i, x.element_pos < i → el els2 i = 0) →
      (do
        let idx ← find_leading els2 x.element_pos
        let top ← rd els2 idx
        .ok ⟨els2, idx, log2p1 top⟩ : Exec Big) = .ok (bigOf size (a - b)) := by
    intro els2 g1 g2 g3 g4
    obtain ⟨q, q1, q2, q3, q4⟩ := find_leading_spec (els := els2) x.element_pos (by omega)
    simp only [q1, Exec.ok_bind, rd_eq (show q < els2.length by omega)]
    rw [(rep_find g1 g2 g3 q2 hpx g4 q3 q4).eq]
  by_cases hc : c1 = 0
  · subst hc
    simp only [ne_eq, not_true_eq_false, if_false, Exec.ok_bind]
    exact fin els1 (by omega) e3 (by omega) hab1
  · have hc1 : c1 = 1 := by omega
    subst hc1
    have hex : ∃ j, n.element_pos + 1 ≤ j ∧ el els1 j ≠ 0 := by
      by_contra hcon
      push Not at hcon
      have e := part_eq_val (l := els1) (k := n.element_pos + 1) hcon
      have := part_lt e3 (n.element_pos + 1)
      omega
    obtain ⟨j, j1, j2⟩ := hex
    have jl : j ≤ x.element_pos := by
      by_contra hcon
      exact j2 (hab1 j (by omega))
    obtain ⟨els2, f1, f2, f3, f4, f5⟩ := borrow_spec cfg (els1.length + 1) (n.element_pos + 1) j els1 e3
      j1 (by omega) j2 (by omega)
    simp only [ne_eq, hc, not_false_eq_true, if_true, f1, Exec.ok_bind]
    exact fin els2 (by omega) f3 (by omega) fun i hi => by rw [f5 i (by omega)]; exact hab1 i hi

theorem sub_spec (cfg : Cfg) {size a b : Nat} {x n : Big} (hx : Rep size a x) (hn : Rep size b n)
    (h : b ≤ a) : sub cfg x n = .ok (bigOf size (a - b)) := by
  refine sub_weak cfg hx hn.weak ?_ h
  by_contra hc
  rcases hn.ge with hh | hh
  · omega
  · have := hx.lt'
    have : 2 ^ (64 * (x.element_pos + 1)) ≤ 2 ^ (64 * n.element_pos) :=
      Nat.pow_le_pow_right (by norm_num) (by omega)
    omega

/-! ## Comparison -/

theorem compare_loop_spec {a b : List Nat} (ha : Lim a) (hb : Lim b) (p : Nat) (hpa : p < a.length)
    (hpb : p < b.length) (h : val a + part b (p + 1) = val b + part a (p + 1)) :
    ∃ c, compare_loop a b p = .ok c ∧ (c > 0 ∧ val a < val b ∨ c < 0 ∧ val b < val a ∨
      c = 0 ∧ val a + el b 0 = val b + el a 0) := by
  induction p with
  | zero =>
    refine ⟨0, rfl, Or.inr (Or.inr ⟨rfl, ?_⟩)⟩
    simpa [part_succ, part_zero] using h
  | succ p ih =>
    simp only [compare_loop, rd_eq hpa, rd_eq hpb, Exec.ok_bind]
    have pa := part_lt ha (p + 1)
    have pb := part_lt hb (p + 1)
    rw [part_succ, part_succ (l := a)] at h
    generalize el a (p + 1) = x at *
    generalize el b (p + 1) = y at *
    have key : ∀ x y : Nat, x < y → x * 2 ^ (64 * (p + 1)) + 2 ^ (64 * (p + 1)) ≤ y * 2 ^ (64 * (p + 1)) := by
      intro x y hxy
      rw [← Nat.succ_mul]; exact Nat.mul_le_mul_right _ hxy
    split
    · rename_i hxy
      have := key x y hxy
      exact ⟨1, rfl, Or.inl ⟨by norm_num, by omega⟩⟩
    · split
      · rename_i _ hxy
        have := key y x hxy
        exact ⟨-1, rfl, Or.inr (Or.inl ⟨by norm_num, by omega⟩)⟩
      · have : x = y := by omega
        subst this
        exact ih (by omega) (by omega) (by omega)

theorem compare_common_spec {size a b : Nat} {x y : Big} (hx : Rep size a x) (hy : Rep size b y) :
    ∃ c, compare_common x y = .ok c ∧ (c > 0 ∧ a < b ∨ c < 0 ∧ b < a ∨
      c = 0 ∧ a + el y.elements 0 = b + el x.elements 0) := by
  unfold compare_common
  have hpx := hx.pos
  have hpy := hy.pos
  have hxl := hx.len
  have hyl := hy.len
  have big : ∀ {a b : Nat} {x y : Big}, Rep size a x → Rep size b y → x.element_pos < y.element_pos →
      a < b := by
    intro a b x y hx hy hlt
    have h1 := hx.lt'
    rcases hy.ge with hh | hh
    · omega
    · have : 2 ^ (64 * (x.element_pos + 1)) ≤ 2 ^ (64 * y.element_pos) :=
        Nat.pow_le_pow_right (by norm_num) (by omega)
      omega
  split
  · rename_i h
    exact ⟨1, rfl, Or.inl ⟨by norm_num, big hx hy h⟩⟩
  · split
    · rename_i _ h
      exact ⟨-1, rfl, Or.inr (Or.inl ⟨by norm_num, big hy hx h⟩)⟩
    · have e : x.element_pos = y.element_pos := by omega
      have := compare_loop_spec hx.lim hy.lim x.element_pos (by omega) (by omega) (by
        rw [part_eq_val fun i hi => hx.above i (by omega), part_eq_val fun i hi => hy.above i (by omega)]
        ring)
      rwa [hx.val, hy.val] at this

theorem compare_with_spec {size a b : Nat} {x y : Big} (hx : Rep size a x) (hy : Rep size b y)
    {on_less on_greater : Bool} {last : Nat → Nat → Bool} {r : Bool}
    (h1 : a < b → r = on_less) (h2 : b < a → r = on_greater)
    (h3 : ∀ u v, a + v = b + u → r = last u v) :
    compare_with on_less on_greater last x y = .ok r := by
  have hs : 0 < size := lt_of_le_of_lt (Nat.zero_le _) hx.pos
  obtain ⟨c, e, h⟩ := compare_common_spec hx hy
  simp only [compare_with, e, Exec.ok_bind]
  rcases h with ⟨hc, h⟩ | ⟨hc, h⟩ | ⟨hc, h⟩
  · rw [if_pos hc, h1 h]
  · rw [if_neg (by omega), if_pos hc, h2 h]
  · rw [if_neg (by omega), if_neg (by omega), rd_eq (by rw [hx.len]; exact hs),
      rd_eq (by rw [hy.len]; exact hs)]
    simp only [Exec.ok_bind]
    rw [h3 _ _ h]

theorem compare_element_spec {size a n : Nat} {x : Big} (hx : Rep size a x) (hn : n < 2 ^ 64)
    {wide : Bool} {last : Nat → Nat → Bool} {r : Bool}
    (h1 : n < a → r = wide) (h3 : r = last a n) :
    compare_element wide last x n = .ok r := by
  have hs : 0 < size := lt_of_le_of_lt (Nat.zero_le _) hx.pos
  unfold compare_element
  by_cases h : x.element_pos = 0
  · rw [if_neg (by simpa using h), rd_eq (by rw [hx.len]; exact hs)]
    have := part_eq_val (l := x.elements) (k := 1) fun i hi => hx.above i (by omega)
    rw [part_succ, part_zero, hx.val] at this
    simp at this
    simp only [Exec.ok_bind, this, h3]
  · rw [if_pos h]
    rcases hx.ge with hh | hh
    · exact absurd hh h
    · have : 2 ^ 64 ≤ 2 ^ (64 * x.element_pos) := Nat.pow_le_pow_right (by norm_num) (by omega)
      rw [h1 (by omega)]

end Big
end Grisu
