import Verif.SpecBig
import Verif.Proofs.Arith
import Mathlib.Tactic

/-! # Helper lemmas about the multi-word integers of tests/bigint.h -/

namespace Grisu

/-- `log2` bounds -/
theorem bitLength_lt (v : Nat) : v < 2 ^ bitLength v := by
  unfold bitLength
  split
  · subst_vars; simp
  · exact Nat.lt_log2_self

theorem le_bitLength {v : Nat} (h : v ≠ 0) : 2 ^ (bitLength v - 1) ≤ v := by
  simp only [bitLength, h, if_false, Nat.add_sub_cancel]
  exact Nat.log2_self_le h

theorem bitLength_unique {v n : Nat} (h0 : v ≠ 0) (h1 : 2 ^ n ≤ v) (h2 : v < 2 ^ (n + 1)) :
    bitLength v = n + 1 := by
  have := (Nat.log2_eq_iff h0).mpr ⟨h1, h2⟩
  simp [bitLength, h0, this]

theorem bitLength_div {v k : Nat} : bitLength (v / 2 ^ k) = bitLength v - k := by
  by_cases h : v < 2 ^ k
  · rw [Nat.div_eq_of_lt h]
    by_cases h0 : v = 0
    · subst h0; simp [bitLength]
    · have h1 := le_bitLength h0
      have : bitLength v - 1 < k := (Nat.pow_lt_pow_iff_right (by norm_num)).mp (lt_of_le_of_lt h1 h)
      simp [bitLength] at *; omega
  · push Not at h
    have h0 : v ≠ 0 := by have := Nat.two_pow_pos k; omega
    have hk : k < bitLength v :=
      (Nat.pow_lt_pow_iff_right (by norm_num)).mp (lt_of_le_of_lt h (bitLength_lt v))
    have e : bitLength v - k = (bitLength v - 1 - k) + 1 := by omega
    rw [e]
    apply bitLength_unique
    · exact (Nat.div_pos h (Nat.two_pow_pos k)).ne'
    · rw [Nat.le_div_iff_mul_le (Nat.two_pow_pos k), ← pow_add]
      have := le_bitLength h0
      rwa [show bitLength v - 1 - k + k = bitLength v - 1 by omega]
    · rw [Nat.div_lt_iff_lt_mul (Nat.two_pow_pos k), ← pow_add]
      have := bitLength_lt v
      rwa [show bitLength v - 1 - k + 1 + k = bitLength v by omega]

theorem log2p1_eq {x : Nat} (h : x < 2 ^ 64) : log2p1 x = bitLength x := by
  by_cases h0 : x = 0
  · subst h0; rfl
  have hb : bitLength x ≤ 64 := by
    have := le_bitLength h0
    have := (Nat.pow_lt_pow_iff_right (a := 2) (by norm_num)).mp (lt_of_le_of_lt this h)
    omega
  have hpos : 0 < bitLength x := by simp [bitLength, h0]
  have nz : ∀ (y s : Nat), y / 2 ^ s ≠ 0 ↔ s < bitLength y := by
    intro y s
    have e := @bitLength_div y s
    constructor
    · intro h
      have : bitLength (y / 2 ^ s) ≠ 0 := by simp [bitLength, h]
      omega
    · intro h h2
      rw [h2] at e; simp [bitLength] at e; simp [bitLength] at h; omega
  have step : ∀ (s : Nat × Nat) (k : Nat), 0 < bitLength s.1 → s.2 + bitLength s.1 = bitLength x →
      bitLength s.1 ≤ 2 * k →
      let t := if s.1 / 2 ^ k ≠ 0 then (s.1 / 2 ^ k, s.2 + k) else s
      0 < bitLength t.1 ∧ t.2 + bitLength t.1 = bitLength x ∧ bitLength t.1 ≤ k := by
    intro s k h1 h2 h3
    have := nz s.1 k
    have e := @bitLength_div s.1 k
    dsimp only
    split
    · simp only; omega
    · omega
  have f0 := step (x, 0) 32 hpos (by simp) hb
  have f1 := step _ 16 f0.1 f0.2.1 f0.2.2
  have f2 := step _ 8 f1.1 f1.2.1 f1.2.2
  have f3 := step _ 4 f2.1 f2.2.1 f2.2.2
  have f4 := step _ 2 f3.1 f3.2.1 f3.2.2
  have f5 := step _ 1 f4.1 f4.2.1 f4.2.2
  have fin : ∀ s : Nat × Nat, 0 < bitLength s.1 → s.2 + bitLength s.1 = bitLength x →
      bitLength s.1 ≤ 1 → s.2 + s.1 = bitLength x := by
    intro s a b c
    have hs : bitLength s.1 = 1 := by omega
    have h1 := bitLength_lt s.1
    have h2 : s.1 ≠ 0 := by intro h; simp [h, bitLength] at hs
    rw [hs] at h1 b
    omega
  exact fin _ f5.1 f5.2.1 f5.2.2

/-! ## Arrays of elements -/

/-- The element, 0 outside of the array. -/
def el (l : List Nat) (i : Nat) : Nat := l.getD i 0

/-- The number an array stands for. -/
def val : List Nat → Nat
  | [] => 0
  | x :: l => x + 2 ^ 64 * val l

/-- The number the first `k` elements stand for. -/
def part (l : List Nat) (k : Nat) : Nat := val (l.take k)

/-- Every element is a 64-bit number. -/
def Lim (l : List Nat) : Prop := ∀ i, el l i < 2 ^ 64

theorem rd_eq {l : List Nat} {i : Nat} (h : i < l.length) : rd l i = .ok (el l i) := by
  simp [rd, el, List.getElem?_eq_getElem h]

theorem wr_eq {l : List Nat} {i v : Nat} (h : i < l.length) : wr l i v = .ok (l.set i v) := by
  simp [wr, h]

theorem el_set {l : List Nat} {i j v : Nat} (h : i < l.length) :
    el (l.set i v) j = if j = i then v else el l j := by
  unfold el
  by_cases hj : j = i
  · subst hj; simp [h]
  · simp [hj, Ne.symm hj]

theorem el_of_ge {l : List Nat} {i : Nat} (h : l.length ≤ i) : el l i = 0 := by
  simp [el, List.getElem?_eq_none h]

theorem el_cons_succ {l : List Nat} {x i : Nat} : el (x :: l) (i + 1) = el l i := by simp [el]
theorem el_cons_zero {l : List Nat} {x : Nat} : el (x :: l) 0 = x := by simp [el]

theorem Lim.set {l : List Nat} {i v : Nat} (h : Lim l) (hi : i < l.length) (hv : v < 2 ^ 64) :
    Lim (l.set i v) := by
  intro j
  rw [el_set hi]
  split
  · exact hv
  · exact h j

theorem Lim.tail {l : List Nat} {x : Nat} (h : Lim (x :: l)) : Lim l := fun i => by
  have := h (i + 1); rwa [el_cons_succ] at this

theorem val_set {l : List Nat} {i : Nat} (v : Nat) (h : i < l.length) :
    val (l.set i v) + el l i * 2 ^ (64 * i) = val l + v * 2 ^ (64 * i) := by
  induction l generalizing i with
  | nil => simp at h
  | cons x l ih =>
    cases i with
    | zero => simp [val, el_cons_zero]; omega
    | succ i =>
      have := @ih i (by simpa using h)
      rw [List.set_cons_succ, el_cons_succ]
      simp only [val]
      rw [show 64 * (i + 1) = 64 + 64 * i by ring, pow_add]
      generalize 2 ^ (64 * i) = c at *
      have e : 2 ^ 64 * (val (l.set i v) + el l i * c) = 2 ^ 64 * (val l + v * c) := by rw [this]
      linarith [e]

theorem part_zero {l : List Nat} : part l 0 = 0 := by simp [part, val]

theorem part_succ {l : List Nat} {k : Nat} : part l (k + 1) = part l k + el l k * 2 ^ (64 * k) := by
  unfold part
  induction l generalizing k with
  | nil => simp [val, el]
  | cons x l ih =>
    cases k with
    | zero => simp [val, el_cons_zero]
    | succ k =>
      have := @ih k
      rw [List.take_succ_cons, List.take_succ_cons, el_cons_succ]
      simp only [val]
      rw [this, show 64 * (k + 1) = 64 + 64 * k by ring, pow_add]
      ring

theorem part_lt {l : List Nat} (h : Lim l) (k : Nat) : part l k < 2 ^ (64 * k) := by
  induction k with
  | zero => simp [part_zero]
  | succ k ih =>
    rw [part_succ, show 64 * (k + 1) = 64 + 64 * k by ring, pow_add]
    have := h k
    have h2 : el l k + 1 ≤ 2 ^ 64 := this
    have h3 := Nat.mul_le_mul_right (2 ^ (64 * k)) h2
    linarith

theorem part_all {l : List Nat} : part l l.length = val l := by simp [part]

/-- Above the leading element the array contributes nothing. -/
theorem part_eq_val {l : List Nat} {k : Nat} (h : ∀ i, k ≤ i → el l i = 0) : part l k = val l := by
  have : ∀ n, part l (k + n) = part l k := by
    intro n
    induction n with
    | zero => rfl
    | succ n ih => rw [← add_assoc, part_succ, ih, h _ (by omega)]; simp
  by_cases hk : k ≤ l.length
  · rw [← part_all, ← this (l.length - k)]; congr 1; omega
  · unfold part; rw [List.take_of_length_le (by omega)]

theorem val_lt {l : List Nat} (h : Lim l) : val l < 2 ^ (64 * l.length) := by
  rw [← part_all]; exact part_lt h _

/-- The elements are the digits. -/
theorem el_eq_digit {l : List Nat} (h : Lim l) (i : Nat) : el l i = val l / 2 ^ (64 * i) % 2 ^ 64 := by
  induction l generalizing i with
  | nil => simp [el, val]
  | cons x l ih =>
    have hx : x < 2 ^ 64 := by have := h 0; rwa [el_cons_zero] at this
    cases i with
    | zero =>
      simp only [val, el_cons_zero, Nat.mul_zero, pow_zero, Nat.div_one]
      rw [Nat.add_mul_mod_self_left, Nat.mod_eq_of_lt hx]
    | succ i =>
      rw [el_cons_succ, ih h.tail, show 64 * (i + 1) = 64 + 64 * i by ring, pow_add, ← Nat.div_div_eq_div_mul]
      simp only [val]
      rw [Nat.add_mul_div_left _ _ (by norm_num), Nat.div_eq_of_lt hx, Nat.zero_add]

/-- Internal form of `bigOf`. -/
structure Rep (size v : Nat) (b : Big) : Prop where
  len : b.elements.length = size
  lim : Lim b.elements
  val : val b.elements = v
  pos : b.element_pos < size
  above : ∀ i, b.element_pos < i → el b.elements i = 0
  top : b.element_pos = 0 ∨ el b.elements b.element_pos ≠ 0
  bit : b.bit_pos = bitLength (el b.elements b.element_pos)

/-- The digits are right; the recorded position may be too high and the recorded length of the leading element
anything. -/
structure Weak (size v : Nat) (b : Big) : Prop where
  len : b.elements.length = size
  lim : Lim b.elements
  val : val b.elements = v
  pos : b.element_pos < size
  above : ∀ i, b.element_pos < i → el b.elements i = 0

theorem Rep.weak {size v : Nat} {b : Big} (h : Rep size v b) : Weak size v b := ⟨h.len, h.lim, h.val, h.pos, h.above⟩

/-- The position of the leading element, from its characterisation. -/
theorem topDigit_eq {v p : Nat} (h1 : v < 2 ^ (64 * (p + 1))) (h2 : p = 0 ∨ 2 ^ (64 * p) ≤ v) :
    topDigit v = p := by
  unfold topDigit
  by_cases h0 : v = 0
  · subst h0
    rcases h2 with h | h
    · subst h; simp [bitLength]
    · have := Nat.two_pow_pos (64 * p); omega
  have h3 := le_bitLength h0
  have h4 : bitLength v - 1 < 64 * (p + 1) :=
    (Nat.pow_lt_pow_iff_right (by norm_num)).mp (lt_of_le_of_lt h3 h1)
  have h5 : 64 * p ≤ bitLength v - 1 := by
    rcases h2 with h | h
    · subst h; omega
    · have := (Nat.pow_lt_pow_iff_right (a := 2) (by norm_num)).mp (lt_of_le_of_lt h (bitLength_lt v))
      omega
  omega

theorem topDigit_lt {v size : Nat} (hs : 0 < size) (h : v < 2 ^ (64 * size)) : topDigit v < size := by
  unfold topDigit
  by_cases h0 : v = 0
  · subst h0; simpa [bitLength] using hs
  have h3 := le_bitLength h0
  have h4 : bitLength v - 1 < 64 * size :=
    (Nat.pow_lt_pow_iff_right (by norm_num)).mp (lt_of_le_of_lt h3 h)
  omega

theorem lt_topDigit (v : Nat) : v < 2 ^ (64 * (topDigit v + 1)) := by
  refine lt_of_lt_of_le (bitLength_lt v) (Nat.pow_le_pow_right (by norm_num) ?_)
  unfold topDigit; omega

theorem topDigit_le {v : Nat} (h : v ≠ 0) : 2 ^ (64 * topDigit v) ≤ v := by
  refine le_trans (Nat.pow_le_pow_right (by norm_num) ?_) (le_bitLength h)
  unfold topDigit; omega

theorem el_bigOf {size v i : Nat} (h : v < 2 ^ (64 * size)) :
    el (bigOf size v).elements i = v / 2 ^ (64 * i) % 2 ^ 64 := by
  by_cases hi : i < size
  · simp [el, bigOf, hi]
  · rw [el_of_ge (by simp [bigOf]; omega),
      Nat.div_eq_of_lt (lt_of_lt_of_le h (Nat.pow_le_pow_right (by norm_num) (by omega))), Nat.zero_mod]

theorem ext_el {l m : List Nat} (h : l.length = m.length) (he : ∀ i, el l i = el m i) : l = m := by
  apply List.ext_getElem h
  intro i h1 h2
  have := he i
  simpa [el, h1, h2] using this

theorem val_inj {l m : List Nat} (hl : Lim l) (hm : Lim m) (h : l.length = m.length)
    (hv : val l = val m) : l = m :=
  ext_el h fun i => by rw [el_eq_digit hl, el_eq_digit hm, hv]

theorem val_of_el {l : List Nat} {v : Nat} (h : v < 2 ^ (64 * l.length))
    (he : ∀ i, el l i = v / 2 ^ (64 * i) % 2 ^ 64) : val l = v := by
  have : ∀ k, part l k = v % 2 ^ (64 * k) := by
    intro k
    induction k with
    | zero => simp [part_zero, Nat.mod_one]
    | succ k ih =>
      rw [part_succ, ih, he, show 64 * (k + 1) = 64 * k + 64 by ring, pow_add, Nat.mod_mul]
      ring
  rw [← part_all, this, Nat.mod_eq_of_lt h]

theorem rep_bigOf {size v : Nat} (hs : 0 < size) (h : v < 2 ^ (64 * size)) : Rep size v (bigOf size v) := by
  have hlen : (bigOf size v).elements.length = size := by simp [bigOf]
  have htop : v / 2 ^ (64 * topDigit v) < 2 ^ 64 := by
    rw [Nat.div_lt_iff_lt_mul (Nat.two_pow_pos _), ← pow_add]
    have := lt_topDigit v
    rwa [show 64 + 64 * topDigit v = 64 * (topDigit v + 1) by ring]
  have hel : el (bigOf size v).elements (topDigit v) = v / 2 ^ (64 * topDigit v) := by
    rw [el_bigOf h, Nat.mod_eq_of_lt htop]
  refine ⟨hlen, ?_, ?_, topDigit_lt hs h, ?_, ?_, ?_⟩
  · intro i; rw [el_bigOf h]; exact Nat.mod_lt _ (by norm_num)
  · exact val_of_el (by rwa [hlen]) fun i => el_bigOf h
  · intro i hi
    rw [el_bigOf h, Nat.div_eq_of_lt]
    · simp
    · exact lt_of_lt_of_le (lt_topDigit v) (Nat.pow_le_pow_right (by norm_num)
        (by have : topDigit v < i := hi; omega))
  · show topDigit v = 0 ∨ el _ (topDigit v) ≠ 0
    by_cases h0 : v = 0
    · left; subst h0; simp [topDigit, bitLength]
    · right; rw [hel]; exact (Nat.div_pos (topDigit_le h0) (Nat.two_pow_pos _)).ne'
  · show bitLength _ = bitLength (el _ (topDigit v))
    rw [hel]

theorem Rep.lt {size v : Nat} {b : Big} (h : Rep size v b) : v < 2 ^ (64 * size) := by
  have := val_lt h.lim; rwa [h.len, h.val] at this

theorem Rep.ge {size v : Nat} {b : Big} (h : Rep size v b) :
    b.element_pos = 0 ∨ 2 ^ (64 * b.element_pos) ≤ v := by
  rcases h.top with h0 | h0
  · exact Or.inl h0
  · right
    have e := el_eq_digit h.lim b.element_pos
    rw [h.val] at e
    have : v / 2 ^ (64 * b.element_pos) ≠ 0 := by
      intro hz; rw [hz] at e; simp at e; exact h0 e
    exact (Nat.div_pos_iff.mp (Nat.pos_of_ne_zero this)).2

theorem Rep.lt' {size v : Nat} {b : Big} (h : Rep size v b) : v < 2 ^ (64 * (b.element_pos + 1)) := by
  rw [← h.val, ← part_eq_val (k := b.element_pos + 1) (fun i hi => h.above i (by omega))]
  exact part_lt h.lim _

theorem Rep.eq {size v : Nat} {b : Big} (h : Rep size v b) : b = bigOf size v := by
  have hs : 0 < size := lt_of_le_of_lt (Nat.zero_le _) h.pos
  have r := rep_bigOf hs h.lt
  have he : b.elements = (bigOf size v).elements :=
    val_inj h.lim r.lim (by rw [h.len, r.len]) (by rw [h.val, r.val])
  have hp : b.element_pos = (bigOf size v).element_pos := (topDigit_eq h.lt' h.ge).symm
  have hb : b.bit_pos = (bigOf size v).bit_pos := by rw [h.bit, r.bit, he, hp]
  cases b
  simp only at he hp hb
  subst he hp hb
  rfl

/-- `Rep` from the array and the leading position. -/
theorem rep_mk {size v p bit : Nat} {l : List Nat} (hl : l.length = size) (lim : Lim l) (hv : val l = v)
    (hp : p < size) (above : ∀ i, p < i → el l i = 0) (hge : p = 0 ∨ 2 ^ (64 * p) ≤ v)
    (hbit : bit = log2p1 (el l p)) : Rep size v ⟨l, p, bit⟩ := by
  refine ⟨hl, lim, hv, hp, above, ?_, ?_⟩
  · rcases hge with h | h
    · exact Or.inl h
    · right
      show el l p ≠ 0
      intro h0
      have e : part l p = val l := part_eq_val fun i hi => by
        rcases Nat.eq_or_lt_of_le hi with h | h
        · rw [← h, h0]
        · exact above i h
      have := part_lt lim p
      omega
  · rw [hbit]; exact log2p1_eq (lim p)

end Grisu
