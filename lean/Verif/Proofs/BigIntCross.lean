import Verif.Proofs.BigIntLong

/-! # When the long division goes wrong

Once a multiple that is too large has been subtracted, what the quotient and the rest stand for stays below the dividend. -/

namespace Grisu
namespace Big

theorem or_le_sum (x y : Nat) : x ||| y ≤ x + y := by
  induction x using Nat.strong_induction_on generalizing y with
  | _ x ih =>
    by_cases hx : x = 0
    · subst hx; simp
    · have h1 := ih (x / 2) (by omega) (y / 2)
      have h2 : (x ||| y) / 2 = x / 2 ||| y / 2 := Nat.or_div_two
      have h3 : (x ||| y) % 2 ≤ x % 2 + y % 2 := by
        rw [Nat.or_mod_two_pow (n := 1)]
        rcases Nat.mod_two_eq_zero_or_one x with h | h <;> rcases Nat.mod_two_eq_zero_or_one y with h' | h' <;> simp [h, h']
      omega

/-- The state between iterations after a wrong subtraction, when less than an element is left to shift. -/
structure Off (size p a n t Q r N : Nat) (d : Div) : Prop where
  rep : Rep size r d.this
  rne : r ≠ 0
  pos : d.this.element_pos ≤ p
  sh : Sh p N d.shifted
  shlen : d.shifted.length = size
  base : d.base_idx = 0
  tz : d.base_trailing_zeros = t
  total : d.total = t
  tlt : t < 64
  sbit : bitLength N = 64 * d.shifted_element_pos + d.shifted_bit_pos
  sbit1 : 1 ≤ d.shifted_bit_pos
  sbit2 : d.shifted_bit_pos ≤ 64
  nge : n * 2 ^ t ≤ N
  nbl : bitLength N = bitLength n + t
  rle : bitLength r ≤ bitLength N
  off : Q * n + r < a
  qlen : d.quotient.elements.length = size
  qlim : Lim d.quotient.elements
  qval : val d.quotient.elements = Q

/-- The quotient receives a digit of its lowest element. -/
theorem quotient_or {q : List Nat} {t : Nat} (hl : Lim q) (h0 : 0 < q.length) (ht : t < 64) :
    rd q 0 = .ok (el q 0) ∧ wr q 0 (el q 0 ||| 2 ^ t) = .ok (q.set 0 (el q 0 ||| 2 ^ t)) ∧
    Lim (q.set 0 (el q 0 ||| 2 ^ t)) ∧ val (q.set 0 (el q 0 ||| 2 ^ t)) ≤ val q + 2 ^ t := by
  refine ⟨rd_eq h0, wr_eq h0, hl.set h0 (Nat.or_lt_two_pow (hl _) (Nat.pow_lt_pow_right (by norm_num) ht)), ?_⟩
  have := val_set (el q 0 ||| 2 ^ t) h0
  have := or_le_sum (el q 0) (2 ^ t)
  simp only [Nat.mul_zero, pow_zero, Nat.mul_one] at *
  omega

theorem bitLength_half {N : Nat} : bitLength (N / 2) = bitLength N - 1 := by
  have := @bitLength_div N 1
  simpa using this

/-- The positions after a shift by one digit. -/
theorem half_pos {size r N : Nat} {d : Div} (hsz : size < 2 ^ 57) (hrep : Rep size r d.this) (hr : r ≠ 0)
    (hal : bitLength r = bitLength N) (h1 : 2 ≤ bitLength N)
    (hd1 : d.shifted_element_pos = d.this.element_pos) (hd2 : d.shifted_bit_pos = d.this.bit_pos) :
    ∃ q : Nat × Nat, (if d.this.bit_pos = 1 then (subw 64 d.shifted_element_pos 1, 64)
      else (d.shifted_element_pos, subw 64 d.shifted_bit_pos 1)) = q ∧
      bitLength (N / 2) = 64 * q.1 + q.2 ∧ 1 ≤ q.2 ∧ q.2 ≤ 64 := by
  obtain ⟨br, br1, br2⟩ := bitLength_rep hrep hr
  have := hrep.pos
  refine ⟨_, rfl, ?_⟩
  rw [bitLength_half]
  split
  · rw [subw_of_le (by omega) (by omega)]; dsimp only; omega
  · rw [subw_of_le (by omega) (by omega)]; dsimp only; omega

/-- The end of `compare_and_subtract` after a shift by one digit that leaves `N / 2`. -/
theorem shifted_subtract (cfg : Cfg) {size p a n t Q r N : Nat} {d : Div} {s : List (Option Nat)} {first : Bool}
    (hsz : size < 2 ^ 57) (hrep : Rep size r d.this) (hr : r ≠ 0) (hpos : d.this.element_pos ≤ p)
    (hsh : Sh p N s) (hlen : s.length = size) (ht : t + 1 ≤ 64) (hn : n ≠ 0)
    (hal : bitLength r = bitLength N) (hN : bitLength N = bitLength n + (t + 1)) (hlt : r < N)
    (hge : n * 2 ^ t ≤ N / 2) (hoff : (Q + 2 ^ t) * n + (r - N / 2) < a)
    (hd1 : d.shifted_element_pos = d.this.element_pos) (hd2 : d.shifted_bit_pos = d.this.bit_pos)
    (hql : d.quotient.elements.length = size) (hqlim : Lim d.quotient.elements)
    (hqv : val d.quotient.elements = Q)
    (hso : shift_once first d = (do
      let s ← shift_down_loop 1 (d.this.element_pos - 0) 0 s
      let top ← rdu s d.this.element_pos
      let s ← wru s d.this.element_pos (top / 2)
      .ok (some { d with
        shifted := s
        shifted_element_pos := (if d.this.bit_pos = 1 then (subw 64 d.shifted_element_pos 1, 64)
          else (d.shifted_element_pos, subw 64 d.shifted_bit_pos 1)).1
        shifted_bit_pos := (if d.this.bit_pos = 1 then (subw 64 d.shifted_element_pos 1, 64)
          else (d.shifted_element_pos, subw 64 d.shifted_bit_pos 1)).2
        base_idx := 0, base_trailing_zeros := t, total := t })))
    (hcmp : compare_shifted d.shifted d.this.elements (d.this.element_pos + 1) = .ok none) :
    ∃ d' Q' r' N', compare_and_subtract cfg first d = .ok (true, d') ∧ Off size p a n t Q' r' N' d' ∧ r' ≤ N' := by
  have hbn0 : bitLength n ≠ 0 := by simp [bitLength, hn]
  have hs : 0 < size := lt_of_le_of_lt (Nat.zero_le _) hrep.pos
  have hp := hrep.pos
  have hrl := hrep.len
  obtain ⟨br, br1, br2⟩ := bitLength_rep hrep hr
  have hNlt : N < 2 ^ (64 * (d.this.element_pos + 1)) :=
    lt_of_lt_of_le (bitLength_lt N) (Nat.pow_le_pow_right (by norm_num) (by omega))
  obtain ⟨l', l1, l2, l3⟩ := shift_down_all (s := 1) (b := 0) hsh hpos hNlt (by norm_num) (Nat.zero_le _) (by simp)
  rw [pow_one] at l2
  obtain ⟨q, q1, q2, q3, q4⟩ := half_pos hsz hrep hr hal (by omega) hd1 hd2
  rw [q1] at hso
  have hso' : shift_once first d = .ok (some { d with
      shifted := l', shifted_element_pos := q.1, shifted_bit_pos := q.2
      base_idx := 0, base_trailing_zeros := t, total := t }) := by
    rw [hso]
    revert l1
    cases shift_down_loop 1 (d.this.element_pos - 0) 0 s with
    | fault e => simp only [Exec.fault_bind]; intro h; exact absurd h (by simp)
    | ok u =>
      simp only [Exec.ok_bind]
      cases rdu u d.this.element_pos with
      | fault e => simp only [Exec.fault_bind]; intro h; exact absurd h (by simp)
      | ok v =>
        simp only [Exec.ok_bind, pow_one]
        intro h
        rw [h]
        rfl
  have hpartl : part (filled l') (d.this.element_pos + 1) = N / 2 := by
    rw [l2.part (by omega), Nat.mod_eq_of_lt (by omega)]
  have hrlow : N / 2 < r := by
    have e1 := bitLength_lt (N / 2)
    have e2 := le_bitLength hr
    rw [bitLength_half, ← hal] at e1
    omega
  have hsub := perform_subtraction_spec cfg (f := rdu l') (m := d.this.element_pos) hrep l2.lim le_rfl
    (fun i hi => rdu_eq (l2.def_ i (by omega))) (by rw [hpartl, el_of_top_zero hrep]; omega)
  rw [hpartl, el_of_top_zero hrep] at hsub
  obtain ⟨u1, u2, u3, u4⟩ := quotient_or (t := t) hqlim (by omega) (by omega)
  have hrep' := rep_bigOf (size := size) (v := r - N / 2) hs (by have := hrep.lt; omega)
  have hbig : (bigOf size (r - N / 2)).element_pos ≤ p := by
    have h2 := bitLength_mono (show r - N / 2 ≤ r by omega)
    show topDigit _ ≤ p
    unfold topDigit
    omega
  unfold compare_and_subtract
  rw [hcmp]
  simp only [Exec.ok_bind]
  rw [hso']
  simp only [Exec.ok_bind, Option.map_some]
  rw [u1]
  simp only [Exec.ok_bind]
  rw [u2]
  simp only [Exec.ok_bind]
  rw [hsub]
  simp only [Exec.ok_bind]
  refine ⟨_, val (d.quotient.elements.set 0 (el d.quotient.elements 0 ||| 2 ^ t)), r - N / 2, N / 2, rfl,
    ⟨hrep', by omega, hbig, l2, by show l'.length = size; omega, rfl, rfl, rfl, by omega, q2, q3, q4, hge,
      by rw [bitLength_half]; omega, bitLength_mono (by omega), ?_, by simpa using hql, u3, rfl⟩, by omega⟩
  rw [hqv] at u4
  have := Nat.mul_le_mul_right n u4
  omega

/-- One iteration off course. -/
theorem off_step (cfg : Cfg) {size p a n t Q r N : Nat} {d : Div} (hsz : size < 2 ^ 57) (hn : n ≠ 0)
    (O : Off size p a n t Q r N d) (hal : bitLength r = bitLength N)
    (hd1 : d.shifted_element_pos = d.this.element_pos) (hd2 : d.shifted_bit_pos = d.this.bit_pos) :
    ∃ cont d', compare_and_subtract cfg false d = .ok (cont, d') ∧
      ((cont = false ∧ val d'.quotient.elements * n + val d'.this.elements < a) ∨
       (cont = true ∧ ∃ t' Q' r' N', Off size p a n t' Q' r' N' d' ∧ r' ≤ N' ∧ t' ≤ t ∧ (r ≤ N → t' < t))) := by
  have hbn0 : bitLength n ≠ 0 := by simp [bitLength, hn]
  have hrep := O.rep
  have hr := O.rne
  have hs : 0 < size := lt_of_le_of_lt (Nat.zero_le _) hrep.pos
  have hp := hrep.pos
  have hrl := hrep.len
  have hql := O.qlen
  have hpos := O.pos
  have htlt := O.tlt
  have hnbl := O.nbl
  have hoff := O.off
  have hnge := O.nge
  have hshl := O.shlen
  obtain ⟨br, br1, br2⟩ := bitLength_rep hrep hr
  have hNlt : N < 2 ^ (64 * (d.this.element_pos + 1)) :=
    lt_of_lt_of_le (bitLength_lt N) (Nat.pow_le_pow_right (by norm_num) (by omega))
  have hNpart : part (filled d.shifted) (d.this.element_pos + 1) = N := by
    rw [O.sh.part (by omega), Nat.mod_eq_of_lt hNlt]
  obtain ⟨c, c1, c2⟩ := compare_shifted_spec hrep.lim O.sh.lim (d.this.element_pos + 1) (by omega)
    (fun i hi => O.sh.def_ i (by omega)) r N (by rw [hNpart, el_of_top_zero hrep]; ring)
  match c, c2 with
  | none, c2 =>
    simp only at c2
    by_cases ht : t = 0
    · refine ⟨false, d, ?_, Or.inl ⟨rfl, by rw [O.qval, hrep.val]; exact hoff⟩⟩
      unfold compare_and_subtract
      rw [c1]
      simp [shift_once, O.base, O.tz, ht]
    · obtain ⟨t', rfl⟩ : ∃ t', t = t' + 1 := ⟨t - 1, by omega⟩
      have hge : n * 2 ^ t' ≤ N / 2 := by
        rw [pow_succ, ← Nat.mul_assoc] at hnge
        omega
      have hrlow : N / 2 < r := by
        have e1 := bitLength_lt (N / 2)
        have e2 := le_bitLength hr
        rw [bitLength_half, ← hal] at e1
        omega
      obtain ⟨d', Q', r', N', g1, g2, g3⟩ := shifted_subtract cfg (first := false) (t := t') (a := a) (Q := Q) (s := d.shifted) hsz
        hrep hr hpos O.sh hshl (by omega) hn hal hnbl c2 hge (by rw [Nat.add_mul, Nat.mul_comm (2 ^ t')]; omega)
        hd1 hd2 hql O.qlim O.qval (by
          unfold shift_once
          rw [O.tz, O.base, if_neg (by omega), O.total]
          simp only [Exec.ok_bind, Nat.add_sub_cancel]) c1
      exact ⟨true, d', g1, Or.inr ⟨rfl, t', Q', r', N', g2, g3, by omega, fun _ => by omega⟩⟩
  | some 0, c2 =>
    simp only at c2
    obtain ⟨u1, u2, u3, u4⟩ := quotient_or (t := t) O.qlim (by omega) htlt
    obtain ⟨els, z1, z2, z3⟩ := zero_loop_spec (d.this.element_pos + 1) 0 d.this.elements (by omega)
    unfold compare_and_subtract
    rw [c1]
    simp only [Exec.ok_bind]
    rw [O.base, O.tz, u1]
    simp only [Exec.ok_bind]
    rw [u2]
    simp only [Exec.ok_bind]
    rw [z1]
    simp only [Exec.ok_bind]
    refine ⟨false, _, rfl, Or.inl ⟨rfl, ?_⟩⟩
    have hz : ∀ i, el els i = 0 := by
      intro i
      rw [z3 i]
      split
      · rfl
      · exact hrep.above i (by omega)
    have hv : val els = 0 := by
      rw [← part_eq_val (l := els) (k := 0) fun i _ => hz i, part_zero]
    show val (d.quotient.elements.set 0 (el d.quotient.elements 0 ||| 2 ^ t)) * n + val els < a
    rw [hv]
    rw [O.qval] at u4
    have := Nat.mul_le_mul_right n u4
    rw [Nat.add_mul, Nat.mul_comm (2 ^ t)] at this
    omega
  | some (m + 1), c2 =>
    simp only at c2
    obtain ⟨c2, c3, c4, c5⟩ := c2
    obtain ⟨u1, u2, u3, u4⟩ := quotient_or (t := t) O.qlim (by omega) htlt
    have hsub := perform_subtraction_spec cfg (f := rdu d.shifted) (m := m) hrep O.sh.lim (by omega)
      (fun i hi => rdu_eq (O.sh.def_ i (by omega))) (by omega)
    rw [show part d.this.elements (m + 1) - part (filled d.shifted) (m + 1) = r - N by omega] at hsub
    have hrep' := rep_bigOf (size := size) (v := r - N) hs (by have := hrep.lt; omega)
    have hbig : (bigOf size (r - N)).element_pos ≤ p := by
      have h2 := bitLength_mono (show r - N ≤ r by omega)
      show topDigit _ ≤ p
      unfold topDigit
      omega
    have hr2 : r < 2 * N := by
      have hN0 : N ≠ 0 := by
        intro h0
        rw [h0] at hnbl
        have : bitLength 0 = 0 := rfl
        omega
      have e1 := bitLength_lt r
      have e2 := le_bitLength hN0
      rw [hal, show bitLength N = bitLength N - 1 + 1 by omega, pow_succ] at e1
      omega
    unfold compare_and_subtract
    rw [c1]
    simp only [Exec.ok_bind]
    rw [O.base, O.tz, u1]
    simp only [Exec.ok_bind]
    rw [u2]
    simp only [Exec.ok_bind]
    rw [hsub]
    simp only [Exec.ok_bind]
    refine ⟨true, _, rfl, Or.inr ⟨rfl, t, val (d.quotient.elements.set 0 (el d.quotient.elements 0 ||| 2 ^ t)), r - N, N,
      ⟨hrep', by omega, hbig, O.sh, hshl, rfl, rfl, O.total, htlt, O.sbit, O.sbit1, O.sbit2, hnge, hnbl,
        bitLength_mono (by omega), ?_, by simpa using hql, u3, rfl⟩, by omega, le_rfl, fun h => by omega⟩⟩
    rw [O.qval] at u4
    have := Nat.mul_le_mul_right n u4
    rw [Nat.add_mul, Nat.mul_comm (2 ^ t)] at this
    omega

/-- Off course the loop does not find the way back. -/
theorem off_loop (cfg : Cfg) {size a n : Nat} (hsz : size < 2 ^ 57) (hn : n ≠ 0) (fuel : Nat) :
    ∀ (p t Q r N : Nat) (d : Div), t < fuel → Off size p a n t Q r N d → r ≤ N →
      ∃ d', division_loop cfg fuel d = .ok d' ∧ val d'.quotient.elements * n + val d'.this.elements < a := by
  have hbn0 : bitLength n ≠ 0 := by simp [bitLength, hn]
  induction fuel with
  | zero => intro p t Q r N d h; omega
  | succ fuel ih =>
    intro p t Q r N d hf O hrN
    have hnbl := O.nbl
    have htlt := O.tlt
    have hN : N ≠ 0 := by
      intro h0
      rw [h0] at hnbl
      simp only [bitLength, if_true] at hnbl
      split at hnbl <;> omega
    obtain ⟨br, br1, br2⟩ := bitLength_rep O.rep O.rne
    have hmono := O.rle
    unfold division_loop
    rcases realign_core hsz O.rne hN O.rep O.sh O.shlen O.total O.sbit O.sbit1 O.sbit2 hmono
      (by omega) (fun i hi => by omega) with ⟨h1, h2⟩ | ⟨h1, l', h2, h3, h4⟩
    · rw [h2]
      simp only [Exec.ok_bind]
      exact ⟨d, rfl, by rw [O.qval, O.rep.val]; exact O.off⟩
    · rw [h2]
      simp only [Exec.ok_bind]
      generalize hg : bitLength N - bitLength r = g at *
      rw [realigned_of_lt (by omega)
        (lt_of_lt_of_le (bitLength_lt _) (Nat.pow_le_pow_right (by norm_num) (by unfold topDigit; omega)))] at h4
      have hbl : bitLength (N / 2 ^ g) = bitLength r := by rw [bitLength_div]; omega
      have hge : n * 2 ^ (t - g) ≤ N / 2 ^ g := by
        rw [Nat.le_div_iff_mul_le (Nat.two_pow_pos _), Nat.mul_assoc, ← pow_add, show t - g + g = t by omega]
        exact O.nge
      obtain ⟨cont, d2, g1, g2⟩ := off_step cfg (a := a) (t := t - g) (Q := Q) (r := r) (N := N / 2 ^ g)
        (p := d.this.element_pos)
        (d := { d with
          shifted := l', shifted_element_pos := d.this.element_pos, shifted_bit_pos := d.this.bit_pos
          base_idx := (t - g) / 64, base_trailing_zeros := (t - g) % 64, total := t - g }) hsz hn
        ⟨O.rep, O.rne, le_rfl, h4, h3, by show (t - g) / 64 = 0; omega, by show (t - g) % 64 = t - g; omega, rfl,
          by omega, by rw [hbl]; exact br, br1, br2, hge, by rw [hbl]; omega, le_of_eq hbl.symm, O.off, O.qlen, O.qlim, O.qval⟩
        hbl.symm rfl rfl
      rw [g1]
      simp only [Exec.ok_bind]
      rcases g2 with ⟨k1, k2⟩ | ⟨k1, t', Q', r', N', k2, k3, k4, k5⟩
      · subst k1
        simp only [Bool.false_eq_true, if_false]
        exact ⟨d2, rfl, k2⟩
      · subst k1
        simp only [if_true]
        refine ih _ _ _ _ _ _ ?_ k2 k3
        by_cases hg0 : g = 0
        · have := k5 (by rw [hg0]; simpa using hrN)
          omega
        · omega

theorem bitLength_le_of_lt {a k : Nat} (ha : a < 2 ^ k) : bitLength a ≤ k := by
  by_cases h0 : a = 0
  · subst h0; simp [bitLength]
  · have := (Nat.pow_lt_pow_iff_right (a := 2) (by norm_num)).mp (lt_of_le_of_lt (le_bitLength h0) ha)
    omega

theorem cross_div (n : Nat) : (n * 2 ^ 64 + 2 ^ 63) / 2 ^ 64 = n := by omega

theorem cross_half (n : Nat) : (n * 2 ^ 64 + 2 ^ 63) / 2 = n * 2 ^ 63 + 2 ^ 62 := by omega

theorem cross_lt {n : Nat} (h : n < 2 ^ 64) : n * 2 ^ 64 + 2 ^ 63 < 2 ^ 128 := by omega

theorem bitLength_cross {n : Nat} (hn : n ≠ 0) : bitLength (n * 2 ^ 64 + 2 ^ 63) = bitLength n + 64 := by
  have hbn0 : bitLength n ≠ 0 := by simp [bitLength, hn]
  have e1 := bitLength_lt n
  have e2 := le_bitLength hn
  obtain ⟨k, hk⟩ : ∃ k, bitLength n = k + 1 := ⟨bitLength n - 1, by omega⟩
  rw [hk] at e1 e2 ⊢
  rw [Nat.add_sub_cancel] at e2
  rw [show k + 1 + 64 = (k + 64) + 1 by omega]
  apply bitLength_unique
  · exact Nat.ne_of_gt (Nat.add_pos_right _ (by norm_num))
  · rw [pow_add]
    exact le_trans (Nat.mul_le_mul_right _ e2) (Nat.le_add_right _ _)
  · rw [show k + 64 + 1 = k + 1 + 64 by omega, pow_add]
    have h1 := Nat.mul_le_mul_right (2 ^ 64) (show n + 1 ≤ 2 ^ (k + 1) from e1)
    generalize 2 ^ (k + 1) = K at *
    omega

theorem cross_sum {u w r : Nat} (h : u + 2 ^ 62 < r) : w + u + (r - (u + 2 ^ 62)) < w + r := by omega

theorem cross_odd {n : Nat} (hodd : n % 2 = 1) : wrap 64 (n * 2 ^ 63) = 2 ^ 63 := by unfold wrap; omega

/-- The crossing: an odd divisor is shifted down from element 1 into element 0. -/
theorem cross_step (cfg : Cfg) {size p a n Q r : Nat} {d : Div} {first : Bool} (hsz : size < 2 ^ 57) (hodd : n % 2 = 1)
    (hr : r ≠ 0) (I : Inv size p a n 64 Q r d) (hal : bitLength r = bitLength (n * 2 ^ 64)) (hlt : r < n * 2 ^ 64)
    (hlen : bitLength r ≤ 128)
    (hd1 : d.shifted_element_pos = d.this.element_pos) (hd2 : d.shifted_bit_pos = d.this.bit_pos) :
    ∃ d' Q' r' N', compare_and_subtract cfg first d = .ok (true, d') ∧ Off size p a n 63 Q' r' N' d' ∧ r' ≤ N' := by
  have hn : n ≠ 0 := by omega
  have hbn0 : bitLength n ≠ 0 := by simp [bitLength, hn]
  have hrep := I.rep
  have hp := hrep.pos
  have hrl := hrep.len
  have hpos := I.pos
  have hshl := I.shlen
  rw [bitLength_mul_pow hn] at hal
  obtain ⟨br, br1, br2⟩ := bitLength_rep hrep hr
  have hep : d.this.element_pos = 1 := by omega
  have hn64 : n < 2 ^ 64 := lt_of_lt_of_le (bitLength_lt n) (Nat.pow_le_pow_right (by norm_num) (by omega))
  have hNlt : n * 2 ^ 64 < 2 ^ (64 * (d.this.element_pos + 1)) :=
    lt_of_lt_of_le (show n * 2 ^ 64 < 2 ^ 128 by omega) (Nat.pow_le_pow_right (by norm_num) (by omega))
  obtain ⟨c, c1, c2⟩ := compare_shifted_spec hrep.lim I.sh.lim (d.this.element_pos + 1) (by omega)
    (fun i hi => I.sh.def_ i (by omega)) r (n * 2 ^ 64) (by
      rw [I.sh.part (by omega), Nat.mod_eq_of_lt hNlt, el_of_top_zero hrep]; ring)
  have hc : c = none := by
    match c, c2 with
    | none, _ => rfl
    | some 0, c2 => simp only at c2; omega
    | some (m + 1), c2 => exact absurd c2.1 (by omega)
  subst hc
  have hel : el (filled d.shifted) 1 = n := by
    rw [I.sh.dig 1 (by omega)]
    unfold dg
    omega
  have hw := cross_odd hodd
  have h0 : 0 < d.shifted.length := by omega
  have h0' : 0 < (filled d.shifted).length := by rw [filled_length]; exact h0
  have hsh : Sh p (n * 2 ^ 64 + 2 ^ 63) (d.shifted.set 0 (some (2 ^ 63))) := by
    refine ⟨by simpa using I.sh.len, fun i hi => def_set h0 (Or.inr (I.sh.def_ i hi)), ?_, ?_, ?_⟩
    · intro i hi
      rw [filled_set, el_set h0']
      split
      · rename_i hh
        subst hh
        unfold dg
        omega
      · rename_i hh
        rw [I.sh.dig i hi]
        unfold dg
        rw [show 64 * i = 64 + 64 * (i - 1) by omega, pow_add, ← Nat.div_div_eq_div_mul, ← Nat.div_div_eq_div_mul]
        rw [cross_div, Nat.mul_div_cancel _ (Nat.two_pow_pos _)]
    · exact lt_of_lt_of_le (cross_lt hn64) (Nat.pow_le_pow_right (by norm_num) (by omega))
    · rw [filled_set]; exact I.sh.lim.set h0' (by norm_num)
  have hblN := bitLength_cross hn
  have hsum := I.sum
  have hrlow : n * 2 ^ 63 + 2 ^ 62 < r := by
    have e1 := bitLength_lt (n * 2 ^ 63 + 2 ^ 62)
    have e2 := le_bitLength hr
    rw [← cross_half, bitLength_half, hblN, ← hal, cross_half] at e1
    exact lt_of_lt_of_le e1 e2
  have hlt' : r < n * 2 ^ 64 + 2 ^ 63 := lt_of_lt_of_le hlt (Nat.le_add_right _ _)
  have hsum' : (Q + 2 ^ 63) * n + (r - (n * 2 ^ 63 + 2 ^ 62)) < a := by
    rw [hsum, Nat.add_mul, Nat.mul_comm (2 ^ 63)]
    exact cross_sum hrlow
  exact shifted_subtract cfg (first := first) (t := 63) (a := a) (Q := Q) (N := n * 2 ^ 64 + 2 ^ 63) hsz hrep hr hpos hsh
    (by simpa using hshl) (by norm_num) hn (by rw [hblN, hal]) hblN hlt'
    (by rw [cross_half]; exact Nat.le_add_right _ _) (by rw [cross_half]; exact hsum') hd1 hd2 I.qlen I.qlim I.qval (by
      unfold shift_once
      rw [I.tz, I.base, I.total]
      simp only [show 64 % 64 = 0 by norm_num, show 64 / 64 = 1 by norm_num, if_true, one_ne_zero, and_false, if_false,
        rdu_eq (I.sh.def_ 1 (by omega)), hel, hw, wru_eq h0, Exec.ok_bind, Nat.sub_self]) c1

/-- One iteration before the crossing or at it. -/
theorem cross_compare (cfg : Cfg) {size p a n t Q r : Nat} {d : Div} (first : Bool) (hsz : size < 2 ^ 57) (ha : a < 2 ^ 128)
    (hodd : n % 2 = 1) (hx : bitLength (a % (n * 2 ^ 64)) = bitLength n + 64) (ht : 64 ≤ t) (hr : r ≠ 0)
    (I : Inv size p a n t Q r d) (hal : bitLength r = bitLength (n * 2 ^ t))
    (hd1 : d.shifted_element_pos = d.this.element_pos) (hd2 : d.shifted_bit_pos = d.this.bit_pos)
    (hQ : 2 ^ (t + 1) ∣ Q ∨ (2 ^ t ∣ Q ∧ r < n * 2 ^ t)) :
    ∃ d', compare_and_subtract cfg first d = .ok (true, d') ∧
      ((∃ Q' r' N', Off size p a n 63 Q' r' N' d' ∧ r' ≤ N') ∨
       ∃ t' Q' r', 64 ≤ t' ∧ t' ≤ t ∧ (r < n * 2 ^ t → t' < t) ∧ r' ≠ 0 ∧ r' < n * 2 ^ t' ∧ 2 ^ t' ∣ Q' ∧ Inv size p a n t' Q' r' d') := by
  have hn : n ≠ 0 := by omega
  have hbn0 : bitLength n ≠ 0 := by simp [bitLength, hn]
  have hsum := I.sum
  have hbl := @bitLength_mul_pow n t hn
  have hra : bitLength r ≤ 128 := by
    by_contra hcon
    have h1 := le_bitLength hr
    have h2 : 2 ^ 128 ≤ 2 ^ (bitLength r - 1) := Nat.pow_le_pow_right (by norm_num) (by omega)
    have h3 : r ≤ a := by rw [hsum]; exact Nat.le_add_left _ _
    exact absurd ha (not_lt.mpr (le_trans h2 (le_trans h1 h3)))
  have hQ64 : 2 ^ 64 ∣ Q := by
    rcases hQ with h | h
    · exact dvd_trans (pow_dvd_pow 2 (by omega)) h
    · exact dvd_trans (pow_dvd_pow 2 (by omega)) h.1
  have hxr : r % (n * 2 ^ 64) = a % (n * 2 ^ 64) := by
    obtain ⟨k, rfl⟩ := hQ64
    rw [hsum, show 2 ^ 64 * k * n + r = (n * 2 ^ 64) * k + r by ring, Nat.mul_add_mod]
  by_cases hc : t = 64 ∧ r < n * 2 ^ 64
  · obtain ⟨h1, h2⟩ := hc
    subst h1
    obtain ⟨d', Q', r', N', g1, g2, g3⟩ := cross_step cfg (first := first) hsz hodd hr I hal h2 hra hd1 hd2
    exact ⟨d', g1, Or.inl ⟨Q', r', N', g2, g3⟩⟩
  · have ht2 : ∀ u, u < 64 → r < n * 2 ^ (u + 1) → False := by
      intro u hu h
      have h1 : n * 2 ^ (u + 1) ≤ n * 2 ^ 64 := Nat.mul_le_mul_left _ (Nat.pow_le_pow_right (by norm_num) (by omega))
      have h2 := bitLength_mono (le_of_lt (lt_of_lt_of_le h h1))
      rw [bitLength_mul_pow hn] at h2
      exact hc ⟨by omega, lt_of_lt_of_le h h1⟩
    obtain ⟨cont, d', c1, c2⟩ := compare_and_subtract_spec cfg first hsz hn hr I hal hd1 hd2 hQ (fun _ => by omega)
      (fun g1 g2 g3 => by
        have : t = 64 := by omega
        subst this
        exact absurd ⟨rfl, g1⟩ hc)
    rcases c2 with ⟨_, _, h, _⟩ | ⟨u, g1, g2, g3, g4, g5, g6⟩
    · have := bitLength_mono (le_of_lt h)
      omega
    · rcases g6 with ⟨k1, k2, _⟩ | ⟨k1, r', k2, k3, k4⟩
      · exfalso
        have hru : r = n * 2 ^ u := by
          rw [hsum, Nat.add_mul, Nat.mul_comm (2 ^ u)] at k2
          exact Nat.add_left_cancel k2
        have hu : 64 ≤ u := by
          by_contra hcon
          refine ht2 u (by omega) ?_
          rw [hru]
          exact Nat.mul_lt_mul_of_pos_left (Nat.pow_lt_pow_right (by norm_num) (by omega)) (by omega)
        rw [← hxr, hru, show u = 64 + (u - 64) by omega, pow_add, ← Nat.mul_assoc, Nat.mul_mod_right] at hx
        have : bitLength 0 = 0 := rfl
        omega
      · subst k1
        have hru : r = n * 2 ^ u + r' := by
          have := k4.sum
          rw [hsum, Nat.add_mul, Nat.mul_comm (2 ^ u), Nat.add_assoc] at this
          exact Nat.add_left_cancel this
        have hu : 64 ≤ u := by
          by_contra hcon
          refine ht2 u (by omega) ?_
          rw [hru, pow_succ, ← Nat.mul_assoc]
          omega
        exact ⟨d', c1, Or.inr ⟨u, Q + 2 ^ u, r', hu, g1, g2, k2, k3,
          (Nat.dvd_add_right (dvd_trans (pow_dvd_pow 2 (by omega)) g3)).mpr dvd_rfl, k4⟩⟩

/-- The loop reaches the crossing. -/
theorem cross_loop (cfg : Cfg) {size a n : Nat} (hsz : size < 2 ^ 57) (ha : a < 2 ^ 128) (hodd : n % 2 = 1)
    (hx : bitLength (a % (n * 2 ^ 64)) = bitLength n + 64) (fuel : Nat) :
    ∀ (p t Q r : Nat) (d : Div), t < fuel → 64 ≤ t → t < 128 → r ≠ 0 → r < n * 2 ^ t → 2 ^ t ∣ Q →
      Inv size p a n t Q r d →
      ∃ d', division_loop cfg fuel d = .ok d' ∧ val d'.quotient.elements * n + val d'.this.elements < a := by
  have hn : n ≠ 0 := by omega
  have hbn0 : bitLength n ≠ 0 := by simp [bitLength, hn]
  induction fuel with
  | zero => intro p t Q r d h; omega
  | succ fuel ih =>
    intro p t Q r d hf ht ht1 hr hlt hQ I
    have hsum := I.sum
    have hxr : r % (n * 2 ^ 64) = a % (n * 2 ^ 64) := by
      obtain ⟨k, rfl⟩ := dvd_trans (pow_dvd_pow 2 ht) hQ
      rw [hsum, show 2 ^ 64 * k * n + r = (n * 2 ^ 64) * k + r by ring, Nat.mul_add_mod]
    have hbr : bitLength n + 64 ≤ bitLength r := by
      rw [← hx, ← hxr]; exact bitLength_mono (Nat.mod_le _ _)
    have hrn : ¬ r < n := fun h => by have := bitLength_mono (le_of_lt h); omega
    unfold division_loop
    rcases realign_spec hsz hn hr I hlt (fun h0 => Or.inl (gap_of_lt hn (by omega) h0 hlt)) with
      ⟨h1, h2⟩ | ⟨t', d1, h1, h2, I1, h3, h4, h5, h6⟩ | ⟨h1, _⟩
    · exact absurd h2 hrn
    · rw [h1]
      simp only [Exec.ok_bind]
      have hbl := @bitLength_mul_pow n t' hn
      have hQ0 : 2 ^ t' ∣ Q := dvd_trans (pow_dvd_pow 2 h2) hQ
      have hQ1 : 2 ^ (t' + 1) ∣ Q ∨ (2 ^ t' ∣ Q ∧ r < n * 2 ^ t') := by
        by_cases he : t' = t
        · subst he; exact Or.inr ⟨hQ, hlt⟩
        · exact Or.inl (dvd_trans (pow_dvd_pow 2 (by omega)) hQ)
      obtain ⟨d2, c1, c2⟩ := cross_compare cfg false hsz ha hodd hx (by omega) hr I1 h3 h4 h5 hQ1
      rw [c1]
      simp only [Exec.ok_bind, if_true]
      rcases c2 with ⟨Q', r', N', O, O'⟩ | ⟨u, Q', r', g1, g2, g2', g3, g4, g5, g6⟩
      · exact off_loop cfg hsz hn fuel _ _ _ _ _ _ (by omega) O O'
      · refine ih _ _ _ _ _ ?_ g1 (by omega) g3 g4 g5 g6
        by_cases he : t' = t
        · subst he
          have := g2' hlt
          omega
        · omega
    · exact absurd h1 hrn

/-- A division of two elements in which an odd divisor is shifted across the element boundary: what is returned stands
for less than the dividend. -/
theorem long_division_cross (cfg : Cfg) {size a b fuel : Nat} {x n : Big} (hx : Rep size a x)
    (hn : Rep size b n) (hsz : size < 2 ^ 57) (ha : a < 2 ^ 128) (hodd : b % 2 = 1)
    (hc : bitLength (a % (b * 2 ^ 64)) = bitLength b + 64) (hf : bitLength a < bitLength b + fuel) :
    ∃ q m, long_division cfg fuel x n = .ok (q, m) ∧ val q.elements * b + val m.elements < a := by
  have hb : b ≠ 0 := by omega
  have hs : 0 < size := lt_of_le_of_lt (Nat.zero_le _) hx.pos
  have hxl := hx.len
  have hbn0 : bitLength b ≠ 0 := by simp [bitLength, hb]
  have hbr : bitLength b + 64 ≤ bitLength a := by
    rw [← hc]; exact bitLength_mono (Nat.mod_le _ _)
  have ha0 : a ≠ 0 := by
    intro h0
    rw [h0] at hbr
    have : bitLength 0 = 0 := rfl
    omega
  have ha128 := bitLength_le_of_lt ha
  obtain ⟨bb, bb1, bb2⟩ := bitLength_rep hn hb
  obtain ⟨ba, ba1, ba2⟩ := bitLength_rep hx ha0
  unfold long_division
  rw [hxl, ofElement_spec hs (by norm_num)]
  simp only [Exec.ok_bind]
  rw [if_neg (by omega), if_neg (by omega), if_neg (by omega)]
  obtain ⟨d, d1, I, hal, d2, d3⟩ := align_spec hx hn hb ha0 (by omega)
  rw [d1]
  simp only [Exec.ok_bind]
  obtain ⟨d', c1, c2⟩ := cross_compare cfg true hsz ha hodd hc (by omega) ha0 I hal d2 d3 (Or.inl (dvd_zero _))
  rw [c1]
  simp only [Exec.ok_bind, if_true]
  obtain ⟨d4, e1, e2⟩ : ∃ d4, division_loop cfg fuel d' = .ok d4 ∧
      val d4.quotient.elements * b + val d4.this.elements < a := by
    rcases c2 with ⟨Q', r', N', O, O'⟩ | ⟨u, Q', r', g1, g2, g2', g3, g4, g5, g6⟩
    · exact off_loop cfg hsz hb fuel _ _ _ _ _ _ (by omega) O O'
    · exact cross_loop cfg hsz ha hodd hc fuel _ _ _ _ _ (by omega) g1 (by omega) g3 g4 g5 g6
  rw [e1]
  exact ⟨_, _, rfl, e2⟩

/-- Two elements: the movement of the divisor is always right. -/
theorem divides_two {a b : Nat} (ha : a < 2 ^ 128) (hb : b ≠ 0)
    (hc : ¬ (b % 2 = 1 ∧ bitLength (a % (b * 2 ^ 64)) = bitLength b + 64)) : Divides a b := by
  have ha128 := bitLength_le_of_lt ha
  have hbn0 : bitLength b ≠ 0 := by simp [bitLength, hb]
  constructor
  · intro t r ht hr h0 hl
    left
    have hq : 2 ^ t ≤ a / b := Nat.ge_two_pow_of_testBit ht
    have h1 : b * 2 ^ t ≤ a := by rw [Nat.mul_comm]; exact (Nat.le_div_iff_mul_le (by omega)).mp hq
    have h2 := bitLength_mono h1
    have hlt : r < b * 2 ^ t := by rw [hr]; exact Nat.mod_lt _ (Nat.mul_pos (by omega) (Nat.two_pow_pos t))
    have hmono := bitLength_mono (le_of_lt hlt)
    rw [bitLength_mul_pow hb] at h2 hmono
    by_cases hg : bitLength b + t < bitLength r + 64
    · exact gap_of_lt hb hg hl hlt
    · have hbr0 : bitLength r ≠ 0 := by simp [bitLength, h0]
      have htop : topDigit r = 0 := by unfold topDigit; omega
      obtain ⟨g, hgd⟩ : ∃ g, bitLength b + t - bitLength r = 64 + g := ⟨bitLength b + t - bitLength r - 64, by omega⟩
      rw [hgd]
      unfold realigned
      rw [htop, show (64 + g) % 64 = g by omega, show 64 * (0 + 1) = 64 by norm_num]
      have e1 : b * 2 ^ t / 2 ^ (64 + g) = b * 2 ^ (bitLength r - bitLength b) := by
        rw [show t = bitLength r - bitLength b + (64 + g) by omega, pow_add, ← Nat.mul_assoc,
          Nat.mul_div_cancel _ (Nat.two_pow_pos _)]
      have e2 : b * 2 ^ t / 2 ^ 64 % 2 ^ g = 0 := by
        have : b * 2 ^ t = b * 2 ^ (bitLength r - bitLength b) * 2 ^ g * 2 ^ 64 := by
          rw [Nat.mul_assoc, Nat.mul_assoc, ← pow_add, ← pow_add]
          congr 2
          omega
        rw [this, Nat.mul_div_cancel _ (Nat.two_pow_pos _), Nat.mul_mod_left]
      have e3 : b * 2 ^ (bitLength r - bitLength b) < 2 ^ (64 - g) := by
        refine lt_of_lt_of_le (bitLength_lt _) (Nat.pow_le_pow_right (by norm_num) ?_)
        rw [bitLength_mul_pow hb]
        omega
      rw [e1, e2, Nat.mod_eq_of_lt e3, Nat.zero_mul, Nat.add_zero]
  · intro k hk
    by_cases h1 : k = 1
    · subst h1
      by_cases h2 : b % 2 = 1
      · right
        intro h
        rw [bitLength_mul_pow hb] at h
        exact hc ⟨h2, by simpa using h⟩
      · left; omega
    · right
      intro h
      have h1 := bitLength_mono (Nat.mod_le a (b * 2 ^ (64 * k)))
      rw [h, bitLength_mul_pow hb] at h1
      omega

/-- Exactly when a division of two elements is right. -/
theorem long_division_two (cfg : Cfg) {size a b fuel : Nat} {x n : Big} (hx : Rep size a x)
    (hn : Rep size b n) (hsz : size < 2 ^ 57) (ha : a < 2 ^ 128) (hb : b ≠ 0) (hf : bitLength a < bitLength b + fuel) :
    long_division cfg fuel x n = .ok (bigOf size (a / b), bigOf size (a % b)) ↔
      ¬ (b % 2 = 1 ∧ bitLength (a % (b * 2 ^ 64)) = bitLength b + 64) := by
  have hs : 0 < size := lt_of_le_of_lt (Nat.zero_le _) hx.pos
  constructor
  · intro h hc
    obtain ⟨q, m, g1, g2⟩ := long_division_cross cfg hx hn hsz ha hc.1 hc.2 hf
    rw [g1] at h
    cases h
    rw [(rep_bigOf hs (lt_of_le_of_lt (Nat.div_le_self a b) hx.lt)).val,
      (rep_bigOf hs (lt_of_le_of_lt (Nat.mod_le a b) hx.lt)).val, Nat.mul_comm, Nat.div_add_mod] at g2
    omega
  · intro hc
    exact long_division_divides cfg hx hn hsz hb (divides_two ha hb hc) hf

end Big
end Grisu
