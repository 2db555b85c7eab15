import Verif.Proofs.BigIntRealign

/-! # `long_division` -/

namespace Grisu
namespace Big

theorem low_digits {n u i : Nat} (h : i < u / 64) : dg (n * 2 ^ u) i = 0 := by
  unfold dg
  have : n * 2 ^ u = 2 ^ (64 * i) * (2 ^ 64 * (2 ^ (u - 64 * i - 64) * n)) := by
    rw [← Nat.mul_assoc, ← Nat.mul_assoc, ← pow_add, ← pow_add, Nat.mul_comm]; congr 2; omega
  rw [this, Nat.mul_div_cancel_left _ (Nat.two_pow_pos _), Nat.mul_mod_right]

/-- `realign`: either the rest is already smaller than the divisor, or the two numbers become aligned, or the divisor
is moved to a wrong number that is greater than the rest when nothing is left to do. -/
theorem realign_spec {size p a n t Q r : Nat} {d : Div} (hsz : size < 2 ^ 57) (hn : n ≠ 0) (hr : r ≠ 0)
    (I : Inv size p a n t Q r d) (hlt : r < n * 2 ^ t)
    (hgap : bitLength n ≤ bitLength r →
      realigned (n * 2 ^ t) (bitLength n + t - bitLength r) r = n * 2 ^ (bitLength r - bitLength n) ∨
      (r < n ∧ r < realigned (n * 2 ^ t) (bitLength n + t - bitLength r) r)) :
    (realign d = .ok none ∧ r < n) ∨
    (∃ t' d', realign d = .ok (some d') ∧ t' ≤ t ∧ Inv size d.this.element_pos a n t' Q r d' ∧
      bitLength r = bitLength (n * 2 ^ t') ∧ d'.shifted_element_pos = d'.this.element_pos ∧
      d'.shifted_bit_pos = d'.this.bit_pos ∧ d'.quotient = d.quotient) ∨
    (r < n ∧ ∃ d' N, realign d = .ok (some d') ∧ d'.this = d.this ∧ d'.quotient = d.quotient ∧ d'.base_idx = 0 ∧
      d'.base_trailing_zeros = 0 ∧ Sh d.this.element_pos N d'.shifted ∧ r < N) := by
  obtain ⟨br, br1, br2⟩ := bitLength_rep I.rep hr
  have hmono := bitLength_mono (le_of_lt hlt)
  have hbn := @bitLength_mul_pow n t hn
  have hbn0 : bitLength n ≠ 0 := by simp [bitLength, hn]
  have hdiv : ∀ g, g ≤ t → n * 2 ^ t / 2 ^ g = n * 2 ^ (t - g) := by
    intro g hg
    rw [show t = t - g + g by omega, pow_add, ← Nat.mul_assoc, Nat.mul_div_cancel _ (Nat.two_pow_pos _)]
    simp
  rcases realign_core hsz hr (by omega) I.rep I.sh I.shlen I.total I.sbit I.sbit1 I.sbit2 hmono (by omega)
    (fun i hi => ⟨low_digits (by omega), by rw [hdiv _ (by omega)]; exact low_digits hi⟩) with
    ⟨h1, h2⟩ | ⟨h1, l', h2, h3, h4⟩
  · left
    refine ⟨h2, ?_⟩
    by_contra hcon
    have := bitLength_mono (show n ≤ r by omega)
    omega
  · right
    rw [hbn] at h1 h2 h4
    have hal : bitLength r = bitLength (n * 2 ^ (t - (bitLength n + t - bitLength r))) := by
      rw [bitLength_mul_pow hn]; omega
    rcases hgap (by omega) with h | ⟨g1, g2⟩
    · left
      rw [show bitLength r - bitLength n = t - (bitLength n + t - bitLength r) by omega] at h
      rw [h] at h4
      exact ⟨t - (bitLength n + t - bitLength r), _, h2, by omega,
        ⟨I.rep, le_rfl, h4, h3, rfl, rfl, rfl, by rw [← hal]; exact br, br1, br2, I.sum, I.qlen, I.qlim, I.qval⟩,
        hal, rfl, rfl, rfl⟩
    · right
      have : bitLength r ≤ bitLength n := bitLength_mono (le_of_lt g1)
      refine ⟨g1, _, _, h2, rfl, rfl, ?_, ?_, h4, g2⟩
      · show (t - (bitLength n + t - bitLength r)) / 64 = 0
        omega
      · show (t - (bitLength n + t - bitLength r)) % 64 = 0
        omega

/-- What the code needs of the rests.  After each one of the quotient the divisor must be moved down to the right number,
or at least to one greater than the rest if that is the remainder, and an odd divisor must not be shifted down across an
element boundary. -/
structure Divides (a n : Nat) : Prop where
  gap : ∀ t r, (a / n).testBit t = true → r = a % (n * 2 ^ t) → r ≠ 0 → bitLength n ≤ bitLength r →
    realigned (n * 2 ^ t) (bitLength n + t - bitLength r) r = n * 2 ^ (bitLength r - bitLength n) ∨
    (r < n ∧ r < realigned (n * 2 ^ t) (bitLength n + t - bitLength r) r)
  cross : ∀ k, k ≠ 0 → 2 ∣ n ∨ bitLength (a % (n * 2 ^ (64 * k))) ≠ bitLength (n * 2 ^ (64 * k))

/-- A movement by less than an element is right. -/
theorem gap_of_lt {n t r : Nat} (hn : n ≠ 0) (h : bitLength n + t < bitLength r + 64) (h0 : bitLength n ≤ bitLength r)
    (hlt : r < n * 2 ^ t) :
    realigned (n * 2 ^ t) (bitLength n + t - bitLength r) r = n * 2 ^ (bitLength r - bitLength n) := by
  have hmono := bitLength_mono (le_of_lt hlt)
  have hbn := @bitLength_mul_pow n t hn
  rw [realigned_of_lt (by omega)
    (lt_of_lt_of_le (bitLength_lt _) (Nat.pow_le_pow_right (by norm_num) (by unfold topDigit; omega)))]
  generalize hg : bitLength n + t - bitLength r = g
  rw [show t = bitLength r - bitLength n + g by omega, pow_add, ← Nat.mul_assoc, Nat.mul_div_cancel _ (Nat.two_pow_pos _)]

/-- The comparison at the end: nothing is left to do. -/
theorem compare_done {size p r N : Nat} {cfg : Cfg} {d : Div} (hrep : Rep size r d.this) (hp : p = d.this.element_pos)
    (hsh : Sh p N d.shifted) (hb : d.base_idx = 0) (hz : d.base_trailing_zeros = 0) (hlt : r < N) :
    compare_and_subtract cfg false d = .ok (false, d) := by
  subst hp
  have hpos := hrep.pos
  have hlen := hrep.len
  obtain ⟨c, c1, c2⟩ := compare_shifted_spec hrep.lim hsh.lim (d.this.element_pos + 1) (by omega)
    (fun i hi => hsh.def_ i (by omega)) r N (by
      rw [hsh.part (by omega), Nat.mod_eq_of_lt hsh.lt, el_of_top_zero hrep]; ring)
  unfold compare_and_subtract
  rw [c1]
  simp only [Exec.ok_bind]
  match c, c2 with
  | none, _ => simp [shift_once, hb, hz]
  | some 0, c2 => simp only at c2; omega
  | some (m + 1), c2 => exact absurd c2.1 (by omega)

theorem mod_of_sum {a n t Q r : Nat} (h : a = Q * n + r) (hQ : 2 ^ t ∣ Q) (hr : r < n * 2 ^ t) :
    a % (n * 2 ^ t) = r := by
  obtain ⟨k, rfl⟩ := hQ
  rw [h, show 2 ^ t * k * n + r = (n * 2 ^ t) * k + r by ring, Nat.mul_add_mod, Nat.mod_eq_of_lt hr]

theorem bit_of_sum {a n t Q r : Nat} (h : a = (Q + 2 ^ t) * n + r) (hQ : 2 ^ (t + 1) ∣ Q) (hr : r < n * 2 ^ t) :
    (a / n).testBit t = true := by
  have hn : 0 < n := by
    rcases Nat.eq_zero_or_pos n with h0 | h0
    · subst h0; simp at hr
    · exact h0
  have hd : r / n < 2 ^ t := (Nat.div_lt_iff_lt_mul hn).mpr (by rw [Nat.mul_comm]; exact hr)
  have e : a / n = Q + 2 ^ t + r / n := by
    rw [h, Nat.mul_comm, Nat.mul_add_div hn]
  obtain ⟨k, rfl⟩ := hQ
  rw [e, Nat.testBit_eq_decide_div_mod_eq, decide_eq_true_iff,
    show 2 ^ (t + 1) * k + 2 ^ t + r / n = 2 ^ t * (2 * k + 1) + r / n by rw [pow_succ]; ring,
    Nat.mul_add_div (Nat.two_pow_pos t), Nat.div_eq_of_lt hd]
  omega

/-- The loop computes the rest of the quotient. -/
theorem division_loop_spec (cfg : Cfg) {size a n : Nat} (hsz : size < 2 ^ 57) (hn : n ≠ 0) (D : Divides a n)
    (fuel : Nat) :
    ∀ (p t Q r : Nat) (d : Div), t < fuel → r ≠ 0 → r < n * 2 ^ t → 2 ^ t ∣ Q → (a / n).testBit t = true →
      Inv size p a n t Q r d →
    ∃ d', division_loop cfg fuel d = .ok d' ∧ d'.this = bigOf size (a % n) ∧
      d'.quotient.elements.length = size ∧ Lim d'.quotient.elements ∧ val d'.quotient.elements = a / n ∧
      d'.quotient.element_pos = d.quotient.element_pos ∧ d'.quotient.bit_pos = d.quotient.bit_pos := by
  have fin : ∀ Q r, a = Q * n + r → r < n → a / n = Q ∧ a % n = r := by
    intro Q r h hr
    subst h
    rw [Nat.mul_comm, Nat.mul_add_div (by omega), Nat.div_eq_of_lt hr, Nat.mul_add_mod, Nat.mod_eq_of_lt hr]
    exact ⟨by ring, rfl⟩
  induction fuel with
  | zero => intro p t Q r d h; omega
  | succ fuel ih =>
    intro p t Q r d ht hr hlt hQ hbit I
    unfold division_loop
    have hmod := mod_of_sum I.sum hQ hlt
    rcases realign_spec hsz hn hr I hlt (D.gap t r hbit hmod.symm hr) with
      ⟨h1, h2⟩ | ⟨t', d1, h1, h2, I1, h3, h4, h5, h6⟩ | ⟨h1, d1, N, h2, h3, h4, h5, h6, h7, h8⟩
    · obtain ⟨f1, f2⟩ := fin Q r I.sum h2
      rw [h1]
      refine ⟨d, rfl, by rw [f2, ← I.rep.eq], I.qlen, I.qlim, by rw [f1, I.qval], rfl, rfl⟩
    · rw [h1]
      simp only [Exec.ok_bind]
      have hQ0 : 2 ^ t' ∣ Q := dvd_trans (pow_dvd_pow 2 h2) hQ
      have hQ1 : 2 ^ (t' + 1) ∣ Q ∨ (2 ^ t' ∣ Q ∧ r < n * 2 ^ t') := by
        by_cases he : t' = t
        · subst he; exact Or.inr ⟨hQ, hlt⟩
        · exact Or.inl (dvd_trans (pow_dvd_pow 2 (by omega)) hQ)
      obtain ⟨cont, d2, c1, c2⟩ := compare_and_subtract_spec cfg (first := false) hsz hn hr I1 h3 h4 h5 hQ1
        (by simp) (fun g1 g2 g3 => by
          rcases D.cross (t' / 64) (by omega) with h | h
          · exact h
          · rw [show 64 * (t' / 64) = t' by omega, mod_of_sum I1.sum hQ0 g1] at h
            exact absurd h3 h)
      rw [c1]
      simp only [Exec.ok_bind]
      rcases c2 with ⟨g1, g2, g3, _⟩ | ⟨t2, g1, g2, g3, g4, g5, g6⟩
      · subst g1 g2
        obtain ⟨f1, f2⟩ := fin Q r I.sum g3
        refine ⟨d2, rfl, by rw [f2, ← I1.rep.eq], I1.qlen, I1.qlim, by rw [f1, I1.qval], by rw [h6], by rw [h6]⟩
      · simp only [Bool.false_eq_true, if_false] at g4 g5
        rcases g6 with ⟨k1, k2, k3, k4, k5, k6⟩ | ⟨k1, r', k2, k3, k4⟩
        · subst k1
          obtain ⟨f1, f2⟩ := fin (Q + 2 ^ t2) 0 k2 (by omega)
          exact ⟨d2, rfl, by rw [f2, k3], k4, k5, by rw [f1, k6], by rw [g4, h6], by rw [g5, h6]⟩
        · subst k1
          have hlt2 : t2 < t := by
            by_cases he : t' = t
            · subst he; exact g2 hlt
            · omega
          obtain ⟨d3, e1, e2, e3, e4, e5, e6, e7⟩ := ih _ t2 (Q + 2 ^ t2) r' d2 (by omega) k2 k3
            ((Nat.dvd_add_right (dvd_trans (pow_dvd_pow 2 (by omega)) g3)).mpr dvd_rfl)
            (bit_of_sum k4.sum g3 k3) k4
          exact ⟨d3, e1, e2, e3, e4, e5, by rw [e6, g4, h6], by rw [e7, g5, h6]⟩
    · obtain ⟨f1, f2⟩ := fin Q r I.sum h1
      rw [h2]
      simp only [Exec.ok_bind]
      have hrep : Rep size r d1.this := by rw [h3]; exact I.rep
      rw [compare_done (cfg := cfg) hrep (by rw [h3]) h7 h5 h6 h8]
      simp only [Exec.ok_bind, Bool.false_eq_true, if_false]
      exact ⟨d1, rfl, by rw [f2, h3, ← I.rep.eq], by rw [h4]; exact I.qlen, by rw [h4]; exact I.qlim,
        by rw [h4, f1, I.qval], by rw [h4], by rw [h4]⟩

theorem shift_into_spec {v s : Nat} {els : List Nat} (hs : s ≤ 64) (idx : Nat) : ∀ t : List (Option Nat),
    idx < els.length → idx < t.length → (∀ i, i ≤ idx → el els i = dg v i) →
    ∃ t', shift_into els s idx t = .ok t' ∧ t'.length = t.length ∧
      (∀ i, 1 ≤ i → i ≤ idx → el (filled t') i = dg (v * 2 ^ s) i ∧ Def t' i) ∧
      (∀ i, i = 0 ∨ idx < i → el (filled t') i = el (filled t) i ∧ (Def t i → Def t' i)) := by
  induction idx with
  | zero =>
    intro t h1 h2 h3
    exact ⟨t, rfl, rfl, fun i h h' => by omega, fun _ _ => ⟨rfl, id⟩⟩
  | succ idx ih =>
    intro t h1 h2 h3
    have h2' : idx + 1 < (filled t).length := by rw [filled_length]; exact h2
    simp only [shift_into, rd_eq h1, rd_eq (show idx < els.length by omega), wru_eq h2, Exec.ok_bind]
    rw [h3 (idx + 1) le_rfl, h3 idx (by omega), shl_digit hs]
    obtain ⟨t', e1, e2, e3, e4⟩ := ih (t.set (idx + 1) (some (dg (v * 2 ^ s) (idx + 1)))) (by omega)
      (by simp; omega) (fun i hi => h3 i (by omega))
    refine ⟨t', e1, by simpa using e2, ?_, ?_⟩
    · intro i hi hi'
      rcases Nat.eq_or_lt_of_le hi' with h | h
      · obtain ⟨g1, g2⟩ := e4 (idx + 1) (by omega)
        rw [h, g1, filled_set, el_set h2', if_pos rfl]
        exact ⟨rfl, g2 (def_set h2 (Or.inl rfl))⟩
      · exact e3 i hi (by omega)
    · intro i hi
      obtain ⟨g1, g2⟩ := e4 i (by omega)
      rw [g1, filled_set, el_set h2', if_neg (by omega)]
      exact ⟨rfl, fun h => g2 (def_set h2 (Or.inr h))⟩

theorem fill_zeros_spec (count : Nat) : ∀ t : List (Option Nat), count ≤ t.length →
    ∃ t', fill_zeros count t = .ok t' ∧ t'.length = t.length ∧
      (∀ i, i < count → el (filled t') i = 0 ∧ Def t' i) ∧
      (∀ i, count ≤ i → el (filled t') i = el (filled t) i ∧ (Def t i → Def t' i)) := by
  induction count with
  | zero => intro t _; exact ⟨t, rfl, rfl, fun i h => by omega, fun _ _ => ⟨rfl, id⟩⟩
  | succ count ih =>
    intro t h
    have hi : count < t.length := by omega
    have hi' : count < (filled t).length := by rw [filled_length]; exact hi
    simp only [fill_zeros, wru_eq hi, Exec.ok_bind]
    obtain ⟨t', e1, e2, e3, e4⟩ := ih (t.set count (some 0)) (by simp; omega)
    refine ⟨t', e1, by simpa using e2, ?_, ?_⟩
    · intro i hc
      by_cases hh : i = count
      · obtain ⟨g1, g2⟩ := e4 count le_rfl
        rw [hh, g1, filled_set, el_set hi', if_pos rfl]
        exact ⟨rfl, g2 (def_set hi (Or.inl rfl))⟩
      · exact e3 i (by omega)
    · intro i hc
      obtain ⟨g1, g2⟩ := e4 i (by omega)
      rw [g1, filled_set, el_set hi', if_neg (by omega)]
      exact ⟨rfl, fun h => g2 (def_set hi (Or.inr h))⟩

theorem copy_into_spec {els : List Nat} {base : Nat} (count : Nat) : ∀ (idx : Nat) (t : List (Option Nat)),
    idx + count ≤ els.length → base + idx + count ≤ t.length →
    ∃ t', copy_into els base count idx t = .ok t' ∧ t'.length = t.length ∧
      (∀ i, idx ≤ i → i < idx + count → el (filled t') (base + i) = el els i ∧ Def t' (base + i)) ∧
      (∀ i, i < base + idx ∨ base + idx + count ≤ i → el (filled t') i = el (filled t) i ∧ (Def t i → Def t' i)) := by
  induction count with
  | zero =>
    intro idx t _ _
    exact ⟨t, rfl, rfl, fun i h h' => by omega, fun _ _ => ⟨rfl, id⟩⟩
  | succ count ih =>
    intro idx t h1 h2
    have hi : base + idx < t.length := by omega
    have hi' : base + idx < (filled t).length := by rw [filled_length]; exact hi
    simp only [copy_into, rd_eq (show idx < els.length by omega), wru_eq hi, Exec.ok_bind]
    obtain ⟨t', e1, e2, e3, e4⟩ := ih (idx + 1) (t.set (base + idx) (some (el els idx))) (by omega) (by simp; omega)
    refine ⟨t', e1, by simpa using e2, ?_, ?_⟩
    · intro i h h'
      by_cases hh : i = idx
      · obtain ⟨g1, g2⟩ := e4 (base + idx) (by omega)
        rw [hh, g1, filled_set, el_set hi', if_pos rfl]
        exact ⟨rfl, g2 (def_set hi (Or.inl rfl))⟩
      · exact e3 i (by omega) (by omega)
    · intro i h
      obtain ⟨g1, g2⟩ := e4 i (by omega)
      rw [g1, filled_set, el_set hi', if_neg (by omega)]
      exact ⟨rfl, fun h => g2 (def_set hi (Or.inr h))⟩

theorem shift_up_spec {v s base : Nat} (hs : s ≤ 64) (count : Nat) : ∀ t : List (Option Nat),
    base + count < t.length → (∀ i, i ≤ base + count → Def t i) →
    (∀ i, i ≤ base + count → el (filled t) i = dg v i) →
    ∃ t', shift_up_loop base s count t = .ok t' ∧ t'.length = t.length ∧ (∀ i, Def t i → Def t' i) ∧
      (∀ i, base + 1 ≤ i → i ≤ base + count → el (filled t') i = dg (v * 2 ^ s) i) ∧
      (∀ i, i ≤ base ∨ base + count < i → el (filled t') i = el (filled t) i) := by
  induction count with
  | zero =>
    intro t _ _ _
    exact ⟨t, rfl, rfl, fun _ => id, fun i h h' => by omega, fun _ _ => rfl⟩
  | succ count ih =>
    intro t h1 h2 h3
    have hi : base + count + 1 < t.length := by omega
    have hi' : base + count + 1 < (filled t).length := by rw [filled_length]; exact hi
    simp only [shift_up_loop, rdu_eq (h2 (base + count + 1) le_rfl), rdu_eq (h2 (base + count) (by omega)),
      wru_eq hi, Exec.ok_bind]
    rw [h3 (base + count + 1) le_rfl, h3 (base + count) (by omega), shl_digit hs]
    obtain ⟨t', e1, e2, e3, e4, e5⟩ := ih (t.set (base + count + 1) (some (dg (v * 2 ^ s) (base + count + 1))))
      (by simp; omega)
      (fun i h => def_set hi (Or.inr (h2 i (by omega))))
      (fun i h => by rw [filled_set, el_set hi', if_neg (by omega)]; exact h3 i (by omega))
    refine ⟨t', e1, by simpa using e2, fun i h => e3 i (def_set hi (Or.inr h)), ?_, ?_⟩
    · intro i h h'
      by_cases hh : i = base + count + 1
      · rw [hh, e5 (base + count + 1) (by omega), filled_set, el_set hi', if_pos rfl]
      · exact e4 i h (by omega)
    · intro i h
      rw [e5 i (by omega), filled_set, el_set hi', if_neg (by omega)]

theorem dg_shifted {v k i : Nat} : dg (v * 2 ^ (64 * k)) (k + i) = dg v i := by
  unfold dg
  rw [Nat.mul_add, pow_add, ← Nat.div_div_eq_div_mul, Nat.mul_div_cancel _ (Nat.two_pow_pos _)]

theorem dg_below {v k i s : Nat} (h : i < k) : dg (v * 2 ^ (64 * k + s)) i = 0 := by
  unfold dg
  have : v * 2 ^ (64 * k + s) = 2 ^ (64 * i) * (2 ^ 64 * (2 ^ (64 * k + s - 64 * i - 64) * v)) := by
    rw [← Nat.mul_assoc, ← Nat.mul_assoc, ← pow_add, ← pow_add, Nat.mul_comm]; congr 2; omega
  rw [this, Nat.mul_div_cancel_left _ (Nat.two_pow_pos _), Nat.mul_mod_right]

theorem filled_blank {size i : Nat} : el (filled (List.replicate size none)) i = 0 := by
  by_cases h : i < size <;> simp [el, filled, h]

/-- `n_shifted` after `align`. -/
theorem align_shifted {size a b : Nat} {x n : Big} (hx : Rep size a x) (hn : Rep size b n) (hb : b ≠ 0)
    (ha : a ≠ 0) (h1 : bitLength b < bitLength a) :
    ∃ s, align x n (bigOf size 0) =
        .ok ⟨x, s, x.element_pos, x.bit_pos, bigOf size 0, (bitLength a - bitLength b) / 64,
          (bitLength a - bitLength b) % 64, bitLength a - bitLength b⟩ ∧
      s.length = size ∧ (∀ i, i ≤ x.element_pos → Def s i) ∧
      (∀ i, i ≤ x.element_pos → el (filled s) i = dg (b * 2 ^ (bitLength a - bitLength b)) i) ∧
      (∀ i, x.element_pos < i → el (filled s) i = 0) := by
  have hs : 0 < size := lt_of_le_of_lt (Nat.zero_le _) hx.pos
  have hpx := hx.pos
  have hxl := hx.len
  have hnl := hn.len
  obtain ⟨ba, ba1, ba2⟩ := bitLength_rep hx ha
  obtain ⟨bb, bb1, bb2⟩ := bitLength_rep hn hb
  unfold align
  rw [hxl]
  by_cases hp : x.element_pos = n.element_pos
  · rw [if_pos hp, show x.bit_pos - n.bit_pos = bitLength a - bitLength b by omega]
    have ht : 0 < bitLength a - bitLength b ∧ bitLength a - bitLength b < 64 := by omega
    have hsok : shift_ok (bitLength a - bitLength b) = .ok () := by unfold shift_ok; rw [if_pos ht]
    rw [Nat.div_eq_of_lt ht.2, Nat.mod_eq_of_lt ht.2]
    generalize bitLength a - bitLength b = t at *
    obtain ⟨l, l1, l2, l3, l4⟩ := shift_into_spec (v := b) (s := t) (els := n.elements) (by omega) x.element_pos
      (List.replicate size none) (by omega) (by simpa using hpx) (fun i _ => rep_dg hn i)
    have hl0 : 0 < l.length := by rw [l2]; simpa using hs
    have hl0' : 0 < (filled l).length := by rw [filled_length]; exact hl0
    simp only [hsok, Exec.ok_bind, l1, rd_eq (show 0 < n.elements.length by omega), wru_eq hl0]
    rw [rep_dg hn 0, shl_digit0]
    refine ⟨_, rfl, by simp only [List.length_set, l2, List.length_replicate], ?_, ?_, ?_⟩
    · intro i hi
      by_cases h0 : i = 0
      · exact def_set hl0 (Or.inl h0)
      · exact def_set hl0 (Or.inr (l3 i (by omega) hi).2)
    · intro i hi
      rw [filled_set, el_set hl0']
      split
      · subst_vars; rfl
      · exact (l3 i (by omega) hi).1
    · intro i hi
      rw [filled_set, el_set hl0', if_neg (by omega), (l4 i (by omega)).1, filled_blank]
  · rw [if_neg hp]
    have hpgt : n.element_pos < x.element_pos := by omega
    have hbl : x.element_pos < (List.replicate size (none : Option Nat)).length := by simpa using hpx
    have hbl' : x.element_pos < (filled (List.replicate size (none : Option Nat))).length := by
      rw [filled_length]; exact hbl
    -- the three cases of the code
    obtain ⟨base, shft, s0, c1, c2, c3, c4, c5, c6, c7⟩ : ∃ base shft s0,
        (if x.bit_pos > n.bit_pos then
            Exec.ok (x.element_pos - n.element_pos, x.bit_pos - n.bit_pos, List.replicate size none)
          else if x.bit_pos < n.bit_pos then do
            let s ← wru (List.replicate size none) x.element_pos 0
            .ok (x.element_pos - n.element_pos - 1, 64 + x.bit_pos - n.bit_pos, s)
          else .ok (x.element_pos - n.element_pos, 0, List.replicate size none) :
            Exec (Nat × Nat × List (Option Nat))) = .ok (base, shft, s0) ∧
        bitLength a - bitLength b = 64 * base + shft ∧ shft < 64 ∧ base + n.element_pos ≤ x.element_pos ∧
        s0.length = size ∧ (∀ i, base + n.element_pos < i → i ≤ x.element_pos → Def s0 i) ∧
        (∀ i, el (filled s0) i = 0) := by
      by_cases g1 : x.bit_pos > n.bit_pos
      · rw [if_pos g1]
        exact ⟨_, _, _, rfl, by omega, by omega, by omega, by simp, fun i h h' => by omega, fun i => filled_blank⟩
      · rw [if_neg g1]
        by_cases g2 : x.bit_pos < n.bit_pos
        · rw [if_pos g2]
          simp only [wru_eq hbl, Exec.ok_bind]
          refine ⟨_, _, _, rfl, by omega, by omega, by omega, by simp, fun i h h' => def_set hbl (Or.inl (by omega)),
            fun i => ?_⟩
          rw [filled_set, el_set hbl']
          split
          · rfl
          · exact filled_blank
        · rw [if_neg g2]
          exact ⟨_, _, _, rfl, by omega, by omega, by omega, by simp, fun i h h' => by omega, fun i => filled_blank⟩
    dsimp only
    rw [c1, c2]
    simp only [Exec.ok_bind]
    obtain ⟨k, k1, k2, k3, k4⟩ := fill_zeros_spec base s0 (by omega)
    rw [k1]
    simp only [Exec.ok_bind]
    obtain ⟨l, l1, l2, l3, l4⟩ := copy_into_spec (els := n.elements) (base := base) (n.element_pos + 1) 0 k
      (by omega) (by omega)
    rw [l1]
    simp only [Exec.ok_bind]
    have hll : l.length = size := by omega
    have ldef : ∀ i, i ≤ x.element_pos → Def l i := by
      intro i hi
      by_cases g1 : i < base
      · exact (l4 i (by omega)).2 (k3 i g1).2
      · by_cases g2 : i ≤ base + n.element_pos
        · have := (l3 (i - base) (by omega) (by omega)).2
          rwa [show base + (i - base) = i by omega] at this
        · exact (l4 i (by omega)).2 ((k4 i (by omega)).2 (c6 i (by omega) hi))
    have lel : ∀ i, el (filled l) i = dg (b * 2 ^ (64 * base)) i := by
      intro i
      by_cases g1 : i < base
      · rw [(l4 i (by omega)).1, (k3 i g1).1]
        exact (dg_below (s := 0) g1).symm
      · have e : dg (b * 2 ^ (64 * base)) i = dg b (i - base) := by
          have := @dg_shifted b base (i - base)
          rwa [show base + (i - base) = i by omega] at this
        rw [e]
        by_cases g2 : i ≤ base + n.element_pos
        · have := (l3 (i - base) (by omega) (by omega)).1
          rw [show base + (i - base) = i by omega] at this
          rw [this, rep_dg hn]
        · rw [(l4 i (by omega)).1, (k4 i (by omega)).1, c7, ← rep_dg hn, hn.above _ (by omega)]
    have hshape : (64 * base + shft) / 64 = base ∧ (64 * base + shft) % 64 = shft ∧
        base * 64 + shft = 64 * base + shft := by omega
    rw [hshape.1, hshape.2.1, hshape.2.2]
    have labove : ∀ i, x.element_pos < i → el (filled l) i = 0 := by
      intro i hi
      rw [(l4 i (by omega)).1, (k4 i (by omega)).1, c7]
    by_cases g : shft = 0
    · subst g
      rw [if_neg (by simp)]
      simp only [Exec.ok_bind]
      exact ⟨l, rfl, hll, ldef, fun i _ => by rw [lel i, Nat.add_zero], labove⟩
    · rw [if_pos g, show shift_ok shft = .ok () by unfold shift_ok; rw [if_pos (by omega)]]
      simp only [Exec.ok_bind]
      obtain ⟨m, m1, m2, m3, m4, m5⟩ := shift_up_spec (v := b * 2 ^ (64 * base)) (s := shft) (base := base) (by omega)
        (x.element_pos - base) l (by omega) (fun i hi => ldef i (by omega)) (fun i hi => lel i)
      rw [m1]
      have hm0 : base < m.length := by omega
      have hm0' : base < (filled m).length := by rw [filled_length]; exact hm0
      simp only [Exec.ok_bind, rdu_eq (m3 base (ldef base (by omega))), wru_eq hm0]
      have hv : b * 2 ^ (64 * base) * 2 ^ shft = b * 2 ^ (64 * base + shft) := by rw [pow_add, Nat.mul_assoc]
      have hbase : wrap 64 (el (filled m) base * 2 ^ shft) = dg (b * 2 ^ (64 * base + shft)) base := by
        rw [m5 base (by omega), lel base, ← hv]
        rcases Nat.eq_zero_or_pos base with h0 | h0
        · rw [h0]; exact shl_digit0
        · have := @shl_digit (b * 2 ^ (64 * base)) (base - 1) shft (by omega)
          rw [show base - 1 + 1 = base by omega,
            show dg (b * 2 ^ (64 * base)) (base - 1) = 0 from dg_below (s := 0) (by omega)] at this
          simpa using this
      rw [hbase]
      refine ⟨_, rfl, by simp only [List.length_set]; omega, ?_, ?_, ?_⟩
      · intro i hi
        exact def_set hm0 (Or.inr (m3 i (ldef i hi)))
      · intro i hi
        rw [filled_set, el_set hm0']
        split
        · rename_i hh; rw [hh]
        · by_cases g2 : i < base
          · rw [m5 i (by omega), lel i, dg_below g2]; exact dg_below (s := 0) g2
          · rw [m4 i (by omega) (by omega), hv]
      · intro i hi
        rw [filled_set, el_set hm0', if_neg (by omega), m5 i (by omega), labove i hi]

/-- `align`. -/
theorem align_spec {size a b : Nat} {x n : Big} (hx : Rep size a x) (hn : Rep size b n) (hb : b ≠ 0)
    (ha : a ≠ 0) (h1 : bitLength b < bitLength a) :
    ∃ d, align x n (bigOf size 0) = .ok d ∧
      Inv size x.element_pos a b (bitLength a - bitLength b) 0 a d ∧
      bitLength a = bitLength (b * 2 ^ (bitLength a - bitLength b)) ∧
      d.shifted_element_pos = d.this.element_pos ∧ d.shifted_bit_pos = d.this.bit_pos := by
  have hs : 0 < size := lt_of_le_of_lt (Nat.zero_le _) hx.pos
  have hpx := hx.pos
  obtain ⟨ba, ba1, ba2⟩ := bitLength_rep hx ha
  have hal : bitLength a = bitLength (b * 2 ^ (bitLength a - bitLength b)) := by
    rw [bitLength_mul_pow hb]; omega
  obtain ⟨s, e1, e2, e3, e4, e5⟩ := align_shifted hx hn hb ha h1
  have hlt : b * 2 ^ (bitLength a - bitLength b) < 2 ^ (64 * (x.element_pos + 1)) :=
    lt_of_lt_of_le (bitLength_lt _) (Nat.pow_le_pow_right (by norm_num) (by omega))
  have hlim : Lim (filled s) := by
    intro i
    by_cases hi : i ≤ x.element_pos
    · rw [e4 i hi]; exact dg_lt
    · rw [e5 i (by omega)]; norm_num
  have hq := rep_bigOf (size := size) (v := 0) hs (Nat.two_pow_pos _)
  exact ⟨_, e1, ⟨hx, le_rfl, ⟨by show x.element_pos < s.length; omega, e3, e4, hlt, hlim⟩, e2, rfl, rfl, rfl,
    by rw [← hal]; exact ba, ba1, ba2, by simp, hq.len, hq.lim, hq.val⟩, hal, rfl, rfl⟩

/-- `long_division` is right for numbers that meet the two conditions. -/
theorem long_division_divides (cfg : Cfg) {size a b fuel : Nat} {x n : Big} (hx : Rep size a x)
    (hn : Rep size b n) (hsz : size < 2 ^ 57) (hb : b ≠ 0) (D : Divides a b)
    (hf : bitLength a < bitLength b + fuel) :
    long_division cfg fuel x n = .ok (bigOf size (a / b), bigOf size (a % b)) := by
  have hs : 0 < size := lt_of_le_of_lt (Nat.zero_le _) hx.pos
  have hxl := hx.len
  obtain ⟨bb, bb1, bb2⟩ := bitLength_rep hn hb
  have small : bitLength a < bitLength b → a / b = 0 ∧ a % b = a := by
    intro h
    have : a < b := by
      by_contra hcon
      have := bitLength_mono (show b ≤ a by omega)
      omega
    exact ⟨Nat.div_eq_of_lt this, Nat.mod_eq_of_lt this⟩
  have hbl : bitLength a ≤ 64 * x.element_pos + x.bit_pos := by
    by_cases ha : a = 0
    · subst ha; simp [bitLength]
    · exact le_of_eq (bitLength_rep hx ha).1
  have hx64 : x.bit_pos ≤ 64 := by
    by_cases ha : a = 0
    · have := hx.eq
      rw [ha] at this
      rw [this]; simp [bigOf, bitLength]
    · exact (bitLength_rep hx ha).2.2
  unfold long_division
  rw [hxl, ofElement_spec hs (by norm_num)]
  simp only [Exec.ok_bind]
  split
  · rename_i h
    obtain ⟨s1, s2⟩ := small (by omega)
    rw [s1, s2, ← hx.eq]
  · split
    · rename_i _ h
      obtain ⟨s1, s2⟩ := small (by omega)
      rw [s1, s2, ← hx.eq]
    · have ha : a ≠ 0 := by
        intro h0
        have := hx.eq
        rw [h0] at this
        have h1 : x.bit_pos = 0 := by rw [this]; simp [bigOf, bitLength]
        have h2 : x.element_pos = 0 := by rw [this]; simp [bigOf, topDigit, bitLength]
        omega
      obtain ⟨ba, ba1, ba2⟩ := bitLength_rep hx ha
      split
      · rename_i _ _ h
        apply divide_equal_length_spec cfg hx hn h.1
        have e1 := bitLength_lt a
        have e2 := le_bitLength hb
        rw [show bitLength a = bitLength b - 1 + 1 by omega, pow_succ] at e1
        omega
      · rename_i _ h1 h2
        obtain ⟨d, d1, I, hal, d2, d3⟩ := align_spec hx hn hb ha (by omega)
        rw [d1]
        simp only [Exec.ok_bind]
        obtain ⟨cont, d', c1, c2⟩ := compare_and_subtract_spec cfg (first := true) hsz hb ha I hal d2 d3
          (Or.inl (dvd_zero _)) (fun _ => by omega) (fun g1 g2 g3 => by
            rcases D.cross ((bitLength a - bitLength b) / 64) (by omega) with h | h
            · exact h
            · rw [show 64 * ((bitLength a - bitLength b) / 64) = bitLength a - bitLength b by omega,
                Nat.mod_eq_of_lt g1] at h
              exact absurd hal h)
        rw [c1]
        simp only [Exec.ok_bind]
        rcases c2 with ⟨_, _, _, h⟩ | ⟨t, g1, g2, g3, g4, g5, g6⟩
        · exact absurd h (by simp)
        · simp only [if_true, Nat.zero_add] at g4 g5 g6
          -- the quotient as a canonical number
          have quot : ∀ q : Big, q.elements.length = size → Lim q.elements → val q.elements = a / b →
              q.element_pos = t / 64 → q.bit_pos = t % 64 + 1 →
              2 ^ t ≤ a / b → a / b < 2 ^ (t + 1) → q = bigOf size (a / b) := by
            intro q q1 q2 q3 q4 q5 q6 q7
            have hne : a / b ≠ 0 := by have := Nat.two_pow_pos t; omega
            have hbl := bitLength_unique hne q6 q7
            have htsz : t < 64 * size := by
              have h1 := lt_of_le_of_lt q6 (lt_of_le_of_lt (Nat.div_le_self a b) hx.lt)
              exact (Nat.pow_lt_pow_iff_right (a := 2) (by norm_num)).mp h1
            have he : ∀ i, el q.elements i = dg (a / b) i := fun i => by rw [el_eq_digit q2, q3]; rfl
            have := rep_digits (size := size) (p := t / 64) (bit := t % 64 + 1) (l := q.elements) (v := a / b) q1
              (by omega) (fun i _ => he i) (fun i hi => by
                rw [he i]
                unfold dg
                rw [Nat.div_eq_of_lt (lt_of_lt_of_le q7 (Nat.pow_le_pow_right (by norm_num) (by omega)))]
                rfl) hne (by omega) (by omega) (by omega)
            rw [← this.eq, ← q4, ← q5]
          rcases g6 with ⟨k1, k2, k3, k4, k5, k6⟩ | ⟨k1, r', k2, k3, k4⟩
          · subst k1
            have e1 : a / b = 2 ^ t := by rw [k2]; exact Nat.mul_div_cancel _ (by omega)
            have e2 : a % b = 0 := by rw [k2]; exact Nat.mul_mod_left _ _
            have := quot d'.quotient k4 k5 (by rw [k6, e1]) g4 g5 (by rw [e1])
              (by rw [e1]; exact Nat.pow_lt_pow_right (by norm_num) (by omega))
            simp only [Bool.false_eq_true, if_false]
            rw [k3, e2, this]
          · subst k1
            simp only [if_true]
            obtain ⟨d3, e1, e2, e3, e4, e5, e6, e7⟩ := division_loop_spec cfg hsz hb D fuel _ t (2 ^ t) r' d'
              (by omega) k2 k3 dvd_rfl (bit_of_sum (Q := 0) (by rw [Nat.zero_add]; exact k4.sum) (dvd_zero _) k3) k4
            rw [e1]
            simp only [Exec.ok_bind]
            have hsum := k4.sum
            have := quot d3.quotient e3 e4 e5 (by rw [e6, g4]) (by rw [e7, g5])
              ((Nat.le_div_iff_mul_le (by omega)).mpr (by omega))
              ((Nat.div_lt_iff_lt_mul (by omega)).mpr (by
                rw [pow_succ, Nat.mul_assoc, Nat.mul_comm 2 b, ← Nat.mul_assoc, Nat.mul_two, hsum,
                  Nat.mul_comm (2 ^ t) b] ; rw [Nat.mul_comm (2 ^ t) b] at *; omega))
            rw [e2, this]

/-- The conditions are met when the dividend has fewer than 64 binary digits more than the divisor. -/
theorem divides_of_close {a b : Nat} (hb : b ≠ 0) (hab : bitLength a < bitLength b + 64) : Divides a b := by
  constructor
  · intro t r ht hr h0 hl
    left
    have hq : 2 ^ t ≤ a / b := Nat.ge_two_pow_of_testBit ht
    have h1 : b * 2 ^ t ≤ a := by rw [Nat.mul_comm]; exact (Nat.le_div_iff_mul_le (by omega)).mp hq
    have h2 := bitLength_mono h1
    rw [bitLength_mul_pow hb] at h2
    exact gap_of_lt hb (by omega) hl (by rw [hr]; exact Nat.mod_lt _ (by positivity))
  · intro k hk
    right
    intro h
    have h1 := bitLength_mono (Nat.mod_le a (b * 2 ^ (64 * k)))
    rw [h, bitLength_mul_pow hb] at h1
    omega

/-- The conditions are met for an even divisor when every 63 consecutive binary digits of the quotient
contain a one. -/
theorem divides_of_windows {a b : Nat} (hb : b ≠ 0) (heven : 2 ∣ b)
    (hw : ∀ i, 2 ^ i ≤ a / b → a / b / 2 ^ i % 2 ^ 63 ≠ 0) : Divides a b := by
  refine ⟨fun t r ht hr h0 hl => Or.inl (gap_of_lt hb ?_ hl (by rw [hr]; exact Nat.mod_lt _ (by positivity))),
    fun _ _ => Or.inl heven⟩
  · subst hr
    by_cases h64 : t < 64
    · omega
    · have hq : 2 ^ t ≤ a / b := Nat.ge_two_pow_of_testBit ht
      have h1 := hw (t - 63) (le_trans (Nat.pow_le_pow_right (by norm_num) (by omega)) hq)
      have h2 : a % (b * 2 ^ t) / b = a / b % 2 ^ t := Nat.mod_mul_right_div_self _ _ _
      have h3 : a / b / 2 ^ (t - 63) % 2 ^ 63 = a / b % 2 ^ t / 2 ^ (t - 63) := by
        rw [← Nat.mod_mul_right_div_self, ← pow_add, show t - 63 + 63 = t by omega]
      rw [h3, ← h2] at h1
      have h4 : b * 2 ^ (t - 63) ≤ a % (b * 2 ^ t) := by
        have h5 : 2 ^ (t - 63) ≤ a % (b * 2 ^ t) / b := by
          by_contra hcon
          exact h1 (Nat.div_eq_of_lt (by omega))
        rw [Nat.mul_comm]
        exact (Nat.le_div_iff_mul_le (by omega)).mp h5
      have h6 := bitLength_mono h4
      rw [bitLength_mul_pow hb] at h6
      omega

/-- `long_division` is right when the dividend has fewer than 64 binary digits more than the divisor. -/
theorem long_division_spec (cfg : Cfg) {size a b fuel : Nat} {x n : Big} (hx : Rep size a x)
    (hn : Rep size b n) (hsz : size < 2 ^ 57) (hb : b ≠ 0) (hab : bitLength a < bitLength b + 64)
    (hf : 64 ≤ fuel) :
    long_division cfg fuel x n = .ok (bigOf size (a / b), bigOf size (a % b)) :=
  long_division_divides cfg hx hn hsz hb (divides_of_close hb hab) (by omega)

end Big
end Grisu
