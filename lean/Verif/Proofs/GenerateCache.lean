import Verif.Model.GenerateCache
import Verif.Proofs.BigIntShift
import Verif.Proofs.Setup
import Verif.Model.Cache32
import Verif.Model.Cache64

/-! # The cache generator -/

namespace Grisu
namespace Gen
open Big

/-- The leading `prec` binary digits of `n`. -/
def topBits (prec n : Nat) : Nat :=
  if prec ≤ bitLength n then n / 2 ^ (bitLength n - prec) else n * 2 ^ (prec - bitLength n)

theorem topBits_lt {prec n : Nat} : topBits prec n < 2 ^ prec := by
  have h := bitLength_lt n
  unfold topBits
  split
  · rename_i hp
    rw [Nat.div_lt_iff_lt_mul (Nat.two_pow_pos _), ← pow_add, show prec + (bitLength n - prec) = bitLength n by omega]
    exact h
  · rename_i hp
    calc n * 2 ^ (prec - bitLength n) < 2 ^ bitLength n * 2 ^ (prec - bitLength n) :=
          Nat.mul_lt_mul_of_pos_right h (Nat.two_pow_pos _)
      _ = 2 ^ prec := by rw [← pow_add, show bitLength n + (prec - bitLength n) = prec by omega]

/-- The digits counted from the top. -/
theorem topBits_testBit {prec n j : Nat} :
    (topBits prec n).testBit j = (decide (prec ≤ j + bitLength n) && n.testBit (j + bitLength n - prec)) := by
  unfold topBits
  split
  · rename_i hp
    rw [Nat.testBit_div_two_pow, decide_eq_true (by omega), Bool.true_and]
    congr 1; omega
  · rename_i hp
    rw [Nat.mul_comm, Nat.testBit_two_pow_mul]
    by_cases hj : prec - bitLength n ≤ j
    · rw [decide_eq_true hj, decide_eq_true (by omega), Bool.true_and, Bool.true_and]
      congr 1; omega
    · rw [decide_eq_false hj, decide_eq_false (by omega), Bool.false_and, Bool.false_and]

theorem setBit_spec {prec v idx : Nat} {b : Bool} (h : idx < prec) :
    ∃ v', setBit prec v idx b = .ok v' ∧ ∀ j, v'.testBit j = if j = idx then b else v.testBit j := by
  unfold setBit
  rw [if_pos h]
  refine ⟨_, rfl, fun j => ?_⟩
  cases b
  · simp only [Bool.false_eq_true, if_false]
    split
    · rename_i hb
      rw [Nat.testBit_xor, Nat.testBit_two_pow]
      by_cases hj : j = idx
      · subst hj; simp [hb]
      · simp [hj, Ne.symm hj]
    · rename_i hb
      by_cases hj : j = idx
      · subst hj; simpa using hb
      · simp [hj]
  · simp only [if_true]
    rw [Nat.testBit_or, Nat.testBit_two_pow]
    by_cases hj : j = idx
    · subst hj; simp
    · simp [hj, Ne.symm hj]

theorem and_mask {x m : Nat} : decide (x &&& 2 ^ m ≠ 0) = x.testBit m := by
  by_cases h : x.testBit m = true
  · rw [h, decide_eq_true_iff]
    intro h0
    have := congrArg (fun y => y.testBit m) h0
    simp [Nat.testBit_and, h] at this
  · rw [Bool.not_eq_true] at h
    rw [h, decide_eq_false_iff_not, not_not]
    apply Nat.eq_of_testBit_eq
    intro i
    rw [Nat.testBit_and, Nat.testBit_two_pow]
    by_cases hi : m = i
    · subst hi; simp [h]
    · simp [hi]

theorem el_testBit {size a p j : Nat} {x : Big} (hx : Rep size a x) (hj : j < 64) :
    (el x.elements p).testBit j = a.testBit (64 * p + j) := by
  rw [rep_dg hx, testBit_dg, decide_eq_true hj, Bool.true_and]

/-- Downwards: `count` bits of `element`, the last being the bit `m + 1 - count`. -/
theorem set_down_spec {prec element T : Nat} (count : Nat) : ∀ (idx m v : Nat), idx < prec → count ≤ idx + 1 →
    count ≤ m + 1 → (∀ i, i < count → element.testBit (m - i) = T.testBit (idx - i)) →
    (∀ j, v.testBit j = (decide (idx < j) && T.testBit j)) →
    ∃ v', set_down prec element count idx (2 ^ m) v = .ok (v', 2 ^ m / 2 ^ count) ∧
      ∀ j, v'.testBit j = (decide (idx + 1 ≤ j + count) && T.testBit j) := by
  induction count with
  | zero =>
    intro idx m v _ _ _ _ h
    exact ⟨v, by simp [set_down], fun j => by rw [h j]; congr 1⟩
  | succ count ih =>
    intro idx m v hi hc hm he h
    simp only [set_down]
    obtain ⟨v1, s1, s2⟩ := setBit_spec (v := v) (b := decide (element &&& 2 ^ m ≠ 0)) hi
    rw [s1]
    simp only [Exec.ok_bind]
    have h0 : element.testBit m = T.testBit idx := he 0 (by omega)
    rw [and_mask, h0] at s2
    by_cases hcz : count = 0
    · subst hcz
      refine ⟨v1, by simp [set_down], fun j => ?_⟩
      rw [s2 j, h j]
      by_cases hj : j = idx
      · subst hj; simp
      · rw [if_neg hj]; congr 1; simp only [decide_eq_decide]; omega
    · obtain ⟨k, rfl⟩ : ∃ k, m = k + 1 := ⟨m - 1, by omega⟩
      obtain ⟨i', rfl⟩ : ∃ i', idx = i' + 1 := ⟨idx - 1, by omega⟩
      rw [show 2 ^ (k + 1) / 2 = 2 ^ k by rw [pow_succ]; simp, Nat.add_sub_cancel]
      obtain ⟨v', e1, e2⟩ := ih i' k v1 (by omega) (by omega) (by omega)
        (fun i hi => by
          have := he (i + 1) (by omega)
          rwa [show k + 1 - (i + 1) = k - i by omega, show i' + 1 - (i + 1) = i' - i by omega] at this)
        (fun j => by
          rw [s2 j, h j]
          by_cases hj : j = i' + 1
          · subst hj; simp
          · rw [if_neg hj]; congr 1; simp only [decide_eq_decide]; omega)
      refine ⟨v', ?_, fun j => ?_⟩
      · rw [e1]; congr 2
        rw [pow_succ 2 k, pow_succ' 2 count, Nat.mul_comm, Nat.mul_div_mul_left _ _ (by norm_num)]
      · rw [e2 j]; congr 1; simp only [decide_eq_decide]; omega

/-- Upwards. -/
theorem set_up_spec {prec element T : Nat} (count : Nat) : ∀ (idx m v : Nat), idx + count ≤ prec →
    m + count ≤ 64 → (∀ i, i < count → element.testBit (m + i) = T.testBit (idx + i)) →
    (∀ j, v.testBit j = (decide (j < idx ∨ idx + count ≤ j) && T.testBit j)) →
    ∃ v', set_up prec element count idx (wrap 64 (2 ^ m)) v = .ok v' ∧ ∀ j, v'.testBit j = T.testBit j := by
  induction count with
  | zero =>
    intro idx m v _ _ _ h
    refine ⟨v, rfl, fun j => ?_⟩
    rw [h j, decide_eq_true (by omega), Bool.true_and]
  | succ count ih =>
    intro idx m v hi hm he h
    simp only [set_up]
    have hw : wrap 64 (2 ^ m) = 2 ^ m := wrap_of_lt (Nat.pow_lt_pow_right (by norm_num) (by omega))
    obtain ⟨v1, s1, s2⟩ := setBit_spec (prec := prec) (idx := idx) (v := v)
      (b := decide (element &&& wrap 64 (2 ^ m) ≠ 0)) (by omega)
    rw [s1]
    simp only [Exec.ok_bind]
    have h0 : element.testBit m = T.testBit idx := he 0 (by omega)
    rw [hw, and_mask, h0] at s2
    rw [hw, ← pow_succ]
    exact ih (idx + 1) (m + 1) v1 (by omega) (by omega)
      (fun i hi => by
        have := he (i + 1) (by omega)
        rwa [← Nat.add_assoc, ← Nat.add_assoc, Nat.add_right_comm, Nat.add_right_comm idx] at this)
      (fun j => by
        rw [s2 j, h j]
        by_cases hj : j = idx
        · subst hj; simp
        · rw [if_neg hj]; congr 1; simp only [decide_eq_decide]; omega)

theorem reset_low_spec {prec v T : Nat} (remaining : Nat) (hr : remaining ≤ prec)
    (h : ∀ j, v.testBit j = T.testBit j) (hT : ∀ j, j < remaining → T.testBit j = false) :
    ∃ v', reset_low prec remaining v = .ok v' ∧ ∀ j, v'.testBit j = T.testBit j := by
  induction remaining with
  | zero => exact ⟨v, rfl, h⟩
  | succ r ih =>
    obtain ⟨v1, e1, e2⟩ := ih (by omega) (fun j hj => hT j (by omega))
    obtain ⟨v2, s1, s2⟩ := setBit_spec (prec := prec) (idx := r) (v := v1) (b := false) (by omega)
    simp only [reset_low, e1, Exec.ok_bind, s1]
    refine ⟨v2, rfl, fun j => ?_⟩
    rw [s2 j, e2 j]
    split
    · rename_i hj; rw [hj, hT r (by omega)]
    · rfl

/-- The elements below the leading one. -/
theorem lower_elements_spec {shl64 : Exec Nat} {prec size a : Nat} {x : Big} (hx : Rep size a x) (count : Nat) :
    ∀ (remaining idx v : Nat), remaining / 64 = count → remaining ≤ prec → idx < size →
    64 * idx + (prec - remaining) = bitLength a →
    (∀ j, v.testBit j = (decide (remaining ≤ j) && (topBits prec a).testBit j)) →
    (idx ≤ count ∨ remaining % 64 ≠ 0 ∨ ∃ m, shl64 = .ok m) →
    lower_elements shl64 prec x count remaining idx v = .ok (topBits prec a) := by
  have hxl := hx.len
  have fin : ∀ (e : Exec Nat), (∃ v', e = .ok v' ∧ ∀ j, v'.testBit j = (topBits prec a).testBit j) →
      e = .ok (topBits prec a) := by
    rintro e ⟨v', h1, h2⟩
    rw [h1, Nat.eq_of_testBit_eq h2]
  have zero : ∀ (remaining v : Nat), remaining ≤ prec → prec - remaining = bitLength a →
      (∀ j, v.testBit j = (decide (remaining ≤ j) && (topBits prec a).testBit j)) →
      reset_low prec remaining v = .ok (topBits prec a) := by
    intro remaining v hr hb hv
    have hT : ∀ j, j < remaining → (topBits prec a).testBit j = false := by
      intro j hj
      rw [topBits_testBit, decide_eq_false (by omega), Bool.false_and]
    refine fin _ (reset_low_spec remaining hr (fun j => ?_) hT)
    rw [hv j]
    by_cases hj : remaining ≤ j
    · rw [decide_eq_true hj, Bool.true_and]
    · rw [hT j (by omega), Bool.and_false]
  induction count with
  | zero =>
    intro remaining idx v hc hr hi hb hv hover
    simp only [lower_elements]
    split
    · rename_i h0
      exact zero remaining v hr (by omega) hv
    · rename_i h0
      by_cases hrem : remaining = 0
      · subst hrem
        obtain ⟨m, rfl⟩ : ∃ m, shl64 = .ok m := by
          rcases hover with h | h | h
          · omega
          · simp at h
          · exact h
        simp only [if_true, Exec.ok_bind, rd_eq (show idx - 1 < x.elements.length by omega), set_up]
        congr 1
        apply Nat.eq_of_testBit_eq
        intro j
        rw [hv j]; simp
      · rw [if_neg hrem]
        simp only [Exec.ok_bind, rd_eq (show idx - 1 < x.elements.length by omega)]
        have hw : (2 : Nat) ^ (64 - remaining) = wrap 64 (2 ^ (64 - remaining)) :=
          (wrap_of_lt (Nat.pow_lt_pow_right (by norm_num) (by omega))).symm
        rw [hw]
        refine fin _ (set_up_spec remaining 0 (64 - remaining) v (by omega) (by omega) ?_ ?_)
        · intro i hi'
          rw [el_testBit hx (by omega), topBits_testBit, decide_eq_true (by omega), Bool.true_and]
          congr 1; omega
        · intro j; rw [hv j]; congr 1; simp only [decide_eq_decide]; omega
  | succ count ih =>
    intro remaining idx v hc hr hi hb hv hover
    simp only [lower_elements]
    split
    · rename_i h0
      exact zero remaining v hr (by omega) hv
    · rename_i h0
      simp only [Exec.ok_bind, rd_eq (show idx - 1 < x.elements.length by omega)]
      have hbit : ∀ i, i < 64 → (el x.elements (idx - 1)).testBit (63 - i) =
          (topBits prec a).testBit (remaining - 1 - i) := by
        intro i hi'
        rw [el_testBit hx (by omega), topBits_testBit, decide_eq_true (by omega), Bool.true_and]
        congr 1; omega
      obtain ⟨v1, e1, e2⟩ := set_down_spec (prec := prec) (element := el x.elements (idx - 1))
        (T := topBits prec a) 63 (remaining - 1) 63 v (by omega) (by omega) (by omega)
        (fun i hi' => hbit i (by omega))
        (fun j => by rw [hv j]; congr 1; simp only [decide_eq_decide]; omega)
      rw [e1]
      simp only [Exec.ok_bind]
      obtain ⟨v2, s1, s2⟩ := setBit_spec (prec := prec) (idx := remaining - 64) (v := v1)
        (b := decide (el x.elements (idx - 1) &&& 2 ^ 63 / 2 ^ 63 ≠ 0)) (by omega)
      rw [s1]
      simp only [Exec.ok_bind]
      apply ih (remaining - 64) (idx - 1) v2 (by omega) (by omega) (by omega) (by omega)
      · intro j
        rw [s2 j, e2 j]
        rw [show (2 : Nat) ^ 63 / 2 ^ 63 = 2 ^ 0 by norm_num, and_mask]
        by_cases hj : j = remaining - 64
        · subst hj
          have := hbit 63 (by omega)
          rw [show 63 - 63 = 0 by omega, show remaining - 1 - 63 = remaining - 64 by omega] at this
          simp [this]
        · rw [if_neg hj]; congr 1; simp only [decide_eq_decide]; omega
      · rcases hover with h | h | h
        · left; omega
        · right; left; omega
        · exact Or.inr (Or.inr h)

/-- The condition under which `get_upper_bits` does not shift by 64. -/
def shiftFine (prec a : Nat) : Prop := bitLength a ≤ prec ∨ (bitLength a - prec) % 64 ≠ 0

theorem get_upper_bits_spec {shl64 : Exec Nat} {prec size a : Nat} {x : Big} (hx : Rep size a x) (ha : a ≠ 0)
    (hp : 64 ≤ prec) (hover : shiftFine prec a ∨ ∃ m, shl64 = .ok m) :
    get_upper_bits shl64 prec x = .ok (topBits prec a) := by
  obtain ⟨b1, b2, b3⟩ := bitLength_rep hx ha
  have hpos := hx.pos
  have hlen := hx.len
  unfold get_upper_bits
  simp only [rd_eq (show x.element_pos < x.elements.length by omega), Exec.ok_bind]
  split
  · rename_i h
    have h64 : prec = 64 := by omega
    have hb : x.bit_pos = 64 := by omega
    subst h64
    rw [if_pos (by omega), hb, Nat.sub_self, pow_zero, Nat.div_one, wrap_of_lt (hx.lim _)]
    unfold topBits
    rw [if_pos (by omega), rep_dg hx]
    unfold dg
    rw [show bitLength a - 64 = 64 * x.element_pos by omega, Nat.mod_eq_of_lt]
    rw [Nat.div_lt_iff_lt_mul (Nat.two_pow_pos _), ← pow_add, show 64 + 64 * x.element_pos = bitLength a by omega]
    exact bitLength_lt a
  · rename_i h
    rw [if_neg (by omega)]
    obtain ⟨v, e1, e2⟩ := set_down_spec (prec := prec) (element := el x.elements x.element_pos)
      (T := topBits prec a) x.bit_pos (prec - 1) (x.bit_pos - 1) 0 (by omega) (by omega) (by omega)
      (fun i hi => by
        rw [el_testBit hx (by omega), topBits_testBit, decide_eq_true (by omega), Bool.true_and]
        congr 1; omega)
      (fun j => by
        by_cases hj : prec - 1 < j
        · have : (topBits prec a).testBit j = false := Nat.testBit_lt_two_pow
            (lt_of_lt_of_le topBits_lt (Nat.pow_le_pow_right (by norm_num) (by omega)))
          simp [this]
        · simp [hj])
    rw [e1]
    simp only [Exec.ok_bind]
    apply lower_elements_spec hx ((prec - x.bit_pos) / 64) (prec - x.bit_pos) x.element_pos v rfl (by omega)
      hpos (by omega)
    · intro j; rw [e2 j]; congr 1; simp only [decide_eq_decide]; omega
    · rcases hover with h | h
      · unfold shiftFine at h
        omega
      · exact Or.inr (Or.inr h)

theorem set_down_ok {prec element : Nat} (count : Nat) : ∀ (idx mask v : Nat), idx < prec →
    ∃ w, set_down prec element count idx mask v = .ok w := by
  induction count with
  | zero => intro idx mask v _; exact ⟨_, rfl⟩
  | succ count ih =>
    intro idx mask v hi
    obtain ⟨v1, s1, -⟩ := setBit_spec (v := v) (b := decide (element &&& mask ≠ 0)) hi
    simp only [set_down, s1, Exec.ok_bind]
    exact ih _ _ _ (by omega)

/-- Otherwise it does. -/
theorem lower_elements_over {shl64 : Exec Nat} {f : Fault} {prec size a : Nat} {x : Big} (hx : Rep size a x)
    (hf : shl64 = .fault f) (count : Nat) :
    ∀ (remaining idx v : Nat), remaining = 64 * count → remaining ≤ prec → idx < size → count < idx →
    lower_elements shl64 prec x count remaining idx v = .fault f := by
  have hxl := hx.len
  induction count with
  | zero =>
    intro remaining idx v hc hr hi h
    simp only [lower_elements]
    rw [if_neg (by omega), if_pos (by omega), hf]
    rfl
  | succ count ih =>
    intro remaining idx v hc hr hi h
    simp only [lower_elements]
    rw [if_neg (by omega)]
    simp only [Exec.ok_bind, rd_eq (show idx - 1 < x.elements.length by omega)]
    obtain ⟨w, hw⟩ := set_down_ok (prec := prec) (element := el x.elements (idx - 1)) 63 (remaining - 1) (2 ^ 63) v
      (by omega)
    obtain ⟨v2, s1, -⟩ := setBit_spec (prec := prec) (idx := remaining - 64) (v := w.1)
      (b := decide (el x.elements (idx - 1) &&& w.2 ≠ 0)) (by omega)
    rw [hw]
    simp only [Exec.ok_bind, s1]
    exact ih (remaining - 64) (idx - 1) v2 (by omega) (by omega) (by omega) (by omega)

theorem get_upper_bits_over {shl64 : Exec Nat} {f : Fault} {prec size a : Nat} {x : Big} (hx : Rep size a x)
    (ha : a ≠ 0) (hf : shl64 = .fault f) (hp : 64 < prec) (h : ¬shiftFine prec a) :
    get_upper_bits shl64 prec x = .fault f := by
  obtain ⟨b1, b2, b3⟩ := bitLength_rep hx ha
  have hpos := hx.pos
  have hlen := hx.len
  unfold shiftFine at h
  unfold get_upper_bits
  simp only [rd_eq (show x.element_pos < x.elements.length by omega), Exec.ok_bind]
  rw [if_neg (by omega), if_neg (by omega)]
  obtain ⟨w, hw⟩ := set_down_ok (prec := prec) (element := el x.elements x.element_pos) x.bit_pos (prec - 1)
    (2 ^ (x.bit_pos - 1)) 0 (by omega)
  rw [hw]
  simp only [Exec.ok_bind]
  exact lower_elements_over hx hf ((prec - x.bit_pos) / 64) _ _ _ (by omega) (by omega) hpos (by omega)

/-- The number the digits of `1 / P` are gathered into. -/
def lowBits (prec P : Nat) : Nat := 2 ^ (bitLength P + prec - 1) / P

theorem exists_shift {a b : Nat} (ha : a ≠ 0) (hab : a < b) :
    ∃ c, 1 ≤ c ∧ b ≤ a * 2 ^ c ∧ a * 2 ^ (c - 1) < b := by
  have hex : ∃ c, b ≤ a * 2 ^ c := ⟨b, by
    calc b ≤ 2 ^ b := Nat.lt_two_pow_self.le
      _ ≤ a * 2 ^ b := Nat.le_mul_of_pos_left _ (by omega)⟩
  have h1 := Nat.find_spec hex
  have h2 : Nat.find hex ≠ 0 := by
    intro h0; rw [h0] at h1; omega
  refine ⟨Nat.find hex, by omega, h1, ?_⟩
  have := Nat.find_min hex (show Nat.find hex - 1 < Nat.find hex by omega)
  omega

theorem digits_loop_spec (cfg : Cfg) {prec size P : Nat} {p : Big} (hp : Rep size P p) (hsz : size < 2 ^ 57)
    (hprec : prec < 2 ^ 32) (hP : 2 ^ (bitLength P - 1) < P) (hfit : 2 * P ≤ 2 ^ (64 * size))
    (hdvd : ∀ n, ¬P ∣ 2 ^ n) (fuel : Nat) : ∀ (d N acc : Nat), prec ≤ fuel + acc → acc < prec →
    2 ^ (bitLength P + acc) + P = N * P + d → P ≤ d → d < 2 * P →
    digits_loop cfg prec p fuel (bigOf size d) N acc = .ok (lowBits prec P) := by
  have hs : 0 < size := lt_of_le_of_lt (Nat.zero_le _) hp.pos
  have hP0 : 0 < P := lt_of_le_of_lt (Nat.zero_le _) hP
  have hL : 1 ≤ bitLength P := by
    by_contra h
    have : bitLength P = 0 := by omega
    have h2 := bitLength_lt P
    rw [this] at h2; omega
  induction fuel with
  | zero => intro d N acc h1 h2; omega
  | succ fuel ih =>
    intro d N acc h1 h2 hN hd1 hd2
    have hd0 : d ≠ P := by
      rintro rfl
      exact hdvd _ ⟨N, by rw [Nat.mul_comm]; exact Nat.add_right_cancel hN⟩
    have hbound : N < 2 ^ (acc + 1) := by
      by_contra hc
      have e1 : 2 ^ (acc + 1) * P ≤ N * P := Nat.mul_le_mul_right _ (by omega)
      have e2 : 2 ^ (bitLength P + acc) = 2 ^ (bitLength P - 1) * 2 ^ (acc + 1) := by
        rw [← pow_add]; congr 1; omega
      have e3 : 2 ^ (bitLength P - 1) * 2 ^ (acc + 1) < P * 2 ^ (acc + 1) :=
        Nat.mul_lt_mul_of_pos_right hP (Nat.two_pow_pos _)
      rw [Nat.mul_comm P] at e3
      omega
    obtain ⟨c, c1, c2, c3⟩ := exists_shift (a := d - P) (b := P) (by omega) (by omega)
    have c4 : (d - P) * 2 ^ c < 2 * P := by
      obtain ⟨c', rfl⟩ : ∃ c', c = c' + 1 := ⟨c - 1, by omega⟩
      rw [Nat.add_sub_cancel] at c3
      rw [pow_succ, ← Nat.mul_assoc]; omega
    have c5 : c ≤ 64 * size := by
      by_contra hc
      have e1 : 2 ^ (64 * size) ≤ 2 ^ (c - 1) := Nat.pow_le_pow_right (by norm_num) (by omega)
      have e2 : 2 ^ (c - 1) ≤ (d - P) * 2 ^ (c - 1) := Nat.le_mul_of_pos_left _ (by omega)
      omega
    have hpow : 2 ^ (bitLength P + acc) = N * P + (d - P) := by omega
    simp only [digits_loop]
    rw [sub_spec cfg (rep_bigOf hs (by omega)) hp hd1]
    simp only [Exec.ok_bind]
    rw [multiply_2_until_spec cfg (c := c) (rep_bigOf hs (by omega)) hp hsz (by omega) (by omega) c2 (Or.inr c3)
      (by omega)]
    simp only [Exec.ok_bind]
    rw [wrap_of_lt (show acc + c < 2 ^ 64 by omega)]
    split
    · rename_i hfin
      rw [Nat.add_sub_cancel]
      have hw : N * 2 ^ (prec - 1 - acc) < 2 ^ prec := by
        calc N * 2 ^ (prec - 1 - acc) < 2 ^ (acc + 1) * 2 ^ (prec - 1 - acc) :=
              Nat.mul_lt_mul_of_pos_right hbound (Nat.two_pow_pos _)
          _ = 2 ^ prec := by rw [← pow_add]; congr 1; omega
      rw [wrap_of_lt hw]
      congr 1
      unfold lowBits
      symm
      rw [show bitLength P + prec - 1 = bitLength P + acc + (prec - 1 - acc) by omega, pow_add, hpow]
      have e1 : (d - P) * 2 ^ (prec - 1 - acc) < P :=
        lt_of_le_of_lt (Nat.mul_le_mul_left _ (Nat.pow_le_pow_right (by norm_num) (by omega))) c3
      rw [Nat.add_mul, Nat.mul_right_comm, Nat.add_comm, Nat.add_mul_div_right _ _ hP0, Nat.div_eq_of_lt e1,
        Nat.zero_add]
    · rename_i hfin
      have hw : N * 2 ^ c < 2 ^ prec := by
        calc N * 2 ^ c < 2 ^ (acc + 1) * 2 ^ c := Nat.mul_lt_mul_of_pos_right hbound (Nat.two_pow_pos _)
          _ = 2 ^ (acc + 1 + c) := by rw [← pow_add]
          _ ≤ 2 ^ prec := Nat.pow_le_pow_right (by norm_num) (by omega)
      rw [wrap_of_lt hw]
      have hset : setBit prec (N * 2 ^ c) 0 true = .ok (N * 2 ^ c + 1) := by
        unfold setBit
        rw [if_pos (by omega), if_pos rfl, pow_zero, Nat.mul_comm,
          Nat.two_pow_add_eq_or_of_lt (Nat.one_lt_two_pow (by omega))]
      rw [hset]
      simp only [Exec.ok_bind]
      apply ih _ _ _ (by omega) (by omega) _ c2 c4
      rw [← Nat.add_assoc, pow_add, hpow]
      ring

theorem negative_power_spec (cfg : Cfg) {prec size P : Nat} {p : Big} (hp : Rep size P p) (hsz : size < 2 ^ 57)
    (h0 : 0 < prec) (hprec : prec < 2 ^ 32) (hP1 : 1 < P) (hfit : 2 * P < 2 ^ (64 * size))
    (hdvd : ∀ n, ¬P ∣ 2 ^ n) : negative_power cfg prec size p = .ok (lowBits prec P) := by
  have hs : 0 < size := lt_of_le_of_lt (Nat.zero_le _) hp.pos
  have hle : 2 ^ (bitLength P - 1) ≤ P := by
    unfold bitLength
    rw [if_neg (by omega), Nat.add_sub_cancel]
    exact Nat.log2_self_le (by omega)
  have hP : 2 ^ (bitLength P - 1) < P := by
    rcases Nat.lt_or_eq_of_le hle with h | h
    · exact h
    · exact absurd ⟨1, by rw [Nat.mul_one, h]⟩ (hdvd (bitLength P - 1))
  have hlt := bitLength_lt P
  have hL : 1 ≤ bitLength P := by
    by_contra h
    have : bitLength P = 0 := by omega
    rw [this] at hlt; omega
  have h2 : 2 ^ bitLength P < 2 * P := by
    obtain ⟨c, hc⟩ : ∃ c, bitLength P = c + 1 := ⟨bitLength P - 1, by omega⟩
    rw [hc, Nat.add_sub_cancel] at hP
    rw [hc, pow_succ]; omega
  unfold negative_power
  rw [ofElement_spec hs (by norm_num)]
  simp only [Exec.ok_bind]
  rw [multiply_2_until_spec cfg (c := bitLength P) (rep_bigOf hs (by omega)) hp hsz (by omega) (by omega)
    (by omega) (Or.inr (by omega)) (by omega)]
  simp only [Exec.ok_bind, Nat.one_mul]
  exact digits_loop_spec cfg hp hsz hprec hP (by omega) hdvd prec _ 1 0 (by omega) h0 (by rw [Nat.add_zero]; omega)
    (by omega) h2

theorem five_not_dvd {k : Nat} (hk : 1 ≤ k) (n : Nat) : ¬5 ^ k ∣ 2 ^ n := by
  intro h
  have h1 : 5 ∣ 5 ^ k := dvd_pow_self 5 (by omega)
  have h2 : 5 ∣ 2 := Nat.Prime.dvd_of_dvd_pow (by norm_num) (h1.trans h)
  omega

/-- What the tool computes for the entry of index `i`, before incrementing. -/
def entry (prec m i : Nat) : Nat := if m ≤ i then topBits prec (5 ^ (i - m)) else lowBits prec (5 ^ (m - i))

theorem both_loop_spec (cfg : Cfg) {shl64 : Exec Nat} {prec size m : Nat} (hs : 0 < size) (hsz : size < 2 ^ 57)
    (hp : 64 ≤ prec) (hprec : prec < 2 ^ 32) (hfit : 2 * 5 ^ m < 2 ^ (64 * size))
    (hfine : ∀ k, k ≤ m → shiftFine prec (5 ^ k) ∨ ∃ v, shl64 = .ok v) (count : Nat) :
    ∀ (k : Nat) (ret : List Nat), 1 ≤ k → k + count = m + 1 → 2 * m < ret.length →
    (∀ i, m < i + k → i < m + k → el ret i = entry prec m i) →
    ∃ ret', both_loop cfg shl64 prec size m count k (bigOf size (5 ^ (k - 1))) ret = .ok (bigOf size (5 ^ m), ret') ∧
      ret'.length = ret.length ∧ ∀ i, i ≤ 2 * m → el ret' i = entry prec m i := by
  have mono : ∀ k, k ≤ m → 2 * 5 ^ k < 2 ^ (64 * size) := fun k hk =>
    lt_of_le_of_lt (Nat.mul_le_mul_left _ (Nat.pow_le_pow_right (by norm_num) hk)) hfit
  induction count with
  | zero =>
    intro k ret h1 h2 hl hr
    have : k - 1 = m := by omega
    rw [this]
    exact ⟨ret, rfl, rfl, fun i hi => hr i (by omega) (by omega)⟩
  | succ count ih =>
    intro k ret h1 h2 hl hr
    have h5 : 5 ^ (k - 1) * 5 = 5 ^ k := by rw [← pow_succ]; congr 1; omega
    have hk := mono k (by omega)
    have h50 : 0 < 5 ^ k := Nat.pow_pos (by norm_num)
    have h51 : 0 < 5 ^ (k - 1) := Nat.pow_pos (by norm_num)
    have hrep : Rep size (5 ^ k) (bigOf size (5 ^ k)) := rep_bigOf hs (by omega)
    simp only [both_loop]
    rw [multiply_5_spec cfg (rep_bigOf hs (by omega)) (by omega) (by omega), h5]
    simp only [Exec.ok_bind]
    rw [get_upper_bits_spec hrep (by omega) hp (hfine k (by omega))]
    simp only [Exec.ok_bind]
    rw [wr_eq (by omega)]
    simp only [Exec.ok_bind]
    rw [negative_power_spec cfg hrep hsz (by omega) hprec (Nat.one_lt_pow (by omega) (by norm_num)) hk
      (five_not_dvd h1)]
    simp only [Exec.ok_bind]
    rw [wr_eq (by rw [List.length_set]; omega)]
    simp only [Exec.ok_bind]
    obtain ⟨ret', r1, r2, r3⟩ := ih (k + 1) ((ret.set (m + k) (topBits prec (5 ^ k))).set (m - k)
        (lowBits prec (5 ^ k))) (by omega) (by omega) (by rw [List.length_set, List.length_set]; omega) (by
      intro i hi1 hi2
      rw [el_set (by rw [List.length_set]; omega), el_set (by omega)]
      split
      · rename_i hi
        subst hi
        unfold entry
        rw [if_neg (by omega), show m - (m - k) = k by omega]
      · split
        · rename_i hi
          subst hi
          unfold entry
          rw [if_pos (by omega), show m + k - m = k by omega]
        · exact hr i (by omega) (by omega))
    rw [Nat.add_sub_cancel] at r1
    refine ⟨ret', r1, ?_, r3⟩
    rw [r2, List.length_set, List.length_set]

theorem positive_loop_spec (cfg : Cfg) {shl64 : Exec Nat} {prec size m : Nat} (hs : 0 < size)
    (hp : 64 ≤ prec) (count : Nat) :
    ∀ (k : Nat) (ret : List Nat), 1 ≤ k → 5 ^ (k + count - 1) < 2 ^ (64 * size) → m + k + count = ret.length →
    (∀ i, k ≤ i → i < k + count → shiftFine prec (5 ^ i) ∨ ∃ v, shl64 = .ok v) →
    (∀ i, i < m + k → el ret i = entry prec m i) →
    ∃ ret', positive_loop cfg shl64 prec m count k (bigOf size (5 ^ (k - 1))) ret = .ok ret' ∧
      ret'.length = ret.length ∧ ∀ i, i < ret.length → el ret' i = entry prec m i := by
  induction count with
  | zero =>
    intro k ret h1 h2 hl _ hr
    exact ⟨ret, rfl, rfl, fun i hi => hr i (by omega)⟩
  | succ count ih =>
    intro k ret h1 hfit hl hfine hr
    have h5 : 5 ^ (k - 1) * 5 = 5 ^ k := by rw [← pow_succ]; congr 1; omega
    have hk : 5 ^ k < 2 ^ (64 * size) := lt_of_le_of_lt (Nat.pow_le_pow_right (by norm_num) (by omega)) hfit
    have h50 : 0 < 5 ^ k := Nat.pow_pos (by norm_num)
    have h51 : 0 < 5 ^ (k - 1) := Nat.pow_pos (by norm_num)
    have hrep : Rep size (5 ^ k) (bigOf size (5 ^ k)) := rep_bigOf hs (by omega)
    simp only [positive_loop]
    rw [multiply_5_spec cfg (rep_bigOf hs (by omega)) (by omega) (by omega), h5]
    simp only [Exec.ok_bind]
    rw [get_upper_bits_spec hrep (by omega) hp (hfine k (by omega) (by omega))]
    simp only [Exec.ok_bind]
    rw [wr_eq (by omega)]
    simp only [Exec.ok_bind]
    obtain ⟨ret', r1, r2, r3⟩ := ih (k + 1) (ret.set (m + k) (topBits prec (5 ^ k))) (by omega)
      (by rwa [show k + 1 + count - 1 = k + (count + 1) - 1 by omega]) (by rw [List.length_set]; omega)
      (fun i hi1 hi2 => hfine i (by omega) (by omega)) (by
      intro i hi
      rw [el_set (by omega)]
      split
      · rename_i hi
        subst hi
        unfold entry
        rw [if_pos (by omega), show m + k - m = k by omega]
      · exact hr i (by omega))
    rw [Nat.add_sub_cancel] at r1
    rw [List.length_set] at r2 r3
    exact ⟨ret', r1, r2, r3⟩

theorem generate_cache_bitset_spec (cfg : Cfg) {shl64 : Exec Nat} {prec size m M : Nat} (hs : 0 < size)
    (hsz : size < 2 ^ 57) (hp : 64 ≤ prec) (hprec : prec < 2 ^ 32) (hmM : m ≤ M)
    (hfit : 2 * 5 ^ m < 2 ^ (64 * size)) (hfit2 : 5 ^ M < 2 ^ (64 * size))
    (hfine : ∀ k, k ≤ M → shiftFine prec (5 ^ k) ∨ ∃ v, shl64 = .ok v) :
    generate_cache_bitset cfg shl64 prec size m M = .ok ((List.range (M + m + 1)).map (entry prec m)) := by
  have h1 : 1 < 2 ^ (64 * size) := Nat.one_lt_two_pow (by omega)
  unfold generate_cache_bitset
  rw [ofElement_spec hs (by norm_num)]
  simp only [Exec.ok_bind]
  rw [get_upper_bits_spec (rep_bigOf hs h1) (by omega) hp (by simpa using hfine 0 (by omega))]
  simp only [Exec.ok_bind]
  rw [wr_eq (by rw [List.length_replicate]; omega)]
  simp only [Exec.ok_bind]
  obtain ⟨r, e1, e2, e3⟩ := both_loop_spec cfg (shl64 := shl64) (prec := prec) (m := m) hs hsz hp hprec hfit
    (fun k hk => hfine k (by omega)) m 1 ((List.replicate (M + m + 1) 0).set m (topBits prec 1)) (by omega)
    (by omega) (by rw [List.length_set, List.length_replicate]; omega) (by
      intro i hi1 hi2
      have : i = m := by omega
      subst this
      rw [el_set (by rw [List.length_replicate]; omega), if_pos rfl]
      unfold entry
      rw [if_pos (by omega), Nat.sub_self, pow_zero])
  rw [Nat.sub_self, pow_zero] at e1
  rw [List.length_set, List.length_replicate] at e2
  rw [e1]
  simp only [Exec.ok_bind]
  obtain ⟨r', f1, f2, f3⟩ := positive_loop_spec cfg (shl64 := shl64) (prec := prec) (m := m) hs hp (M - m) (m + 1) r
    (by omega) (by rwa [show m + 1 + (M - m) - 1 = M by omega]) (by omega)
    (fun i hi1 hi2 => hfine i (by omega)) (fun i hi => e3 i (by omega))
  rw [Nat.add_sub_cancel] at f1
  rw [f1]
  congr 1
  apply List.ext_getElem
  · simp only [List.length_map, List.length_range]; omega
  · intro i hi1 hi2
    have := f3 i (by omega)
    rw [List.getElem_map, List.getElem_range, ← this]
    simp [el, List.getElem?_eq_getElem hi1]

theorem both_loop_over (cfg : Cfg) {f : Fault} {prec size m k0 : Nat} (hs : 0 < size) (hsz : size < 2 ^ 57)
    (hp : 64 < prec) (hprec : prec < 2 ^ 32) (hfit : 2 * 5 ^ m < 2 ^ (64 * size)) (hk0 : k0 ≤ m)
    (hbad : ¬shiftFine prec (5 ^ k0)) (count : Nat) :
    ∀ (k : Nat) (ret : List Nat), 1 ≤ k → k ≤ k0 → k + count = m + 1 → 2 * m < ret.length →
    both_loop cfg (.fault f) prec size m count k (bigOf size (5 ^ (k - 1))) ret = .fault f := by
  induction count with
  | zero => intro k ret h1 h2 h3; omega
  | succ count ih =>
    intro k ret h1 hkk h2 hl
    have h5 : 5 ^ (k - 1) * 5 = 5 ^ k := by rw [← pow_succ]; congr 1; omega
    have hk : 2 * 5 ^ k < 2 ^ (64 * size) :=
      lt_of_le_of_lt (Nat.mul_le_mul_left _ (Nat.pow_le_pow_right (by norm_num) (by omega))) hfit
    have h50 : 0 < 5 ^ k := Nat.pow_pos (by norm_num)
    have h51 : 0 < 5 ^ (k - 1) := Nat.pow_pos (by norm_num)
    have hrep : Rep size (5 ^ k) (bigOf size (5 ^ k)) := rep_bigOf hs (by omega)
    simp only [both_loop]
    rw [multiply_5_spec cfg (rep_bigOf hs (by omega)) (by omega) (by omega), h5]
    simp only [Exec.ok_bind]
    by_cases hfine : shiftFine prec (5 ^ k)
    · have hne : k ≠ k0 := fun h => hbad (h ▸ hfine)
      rw [get_upper_bits_spec hrep (by omega) hp.le (Or.inl hfine)]
      simp only [Exec.ok_bind]
      rw [wr_eq (by omega)]
      simp only [Exec.ok_bind]
      rw [negative_power_spec cfg hrep hsz (by omega) hprec (Nat.one_lt_pow (by omega) (by norm_num)) hk
        (five_not_dvd h1)]
      simp only [Exec.ok_bind]
      rw [wr_eq (by rw [List.length_set]; omega)]
      simp only [Exec.ok_bind]
      exact ih (k + 1) _ (by omega) (by omega) (by omega) (by rw [List.length_set, List.length_set]; omega)
    · rw [get_upper_bits_over hrep (by omega) rfl hp hfine]
      rfl

theorem generate_cache_bitset_over (cfg : Cfg) {f : Fault} {prec size m M k0 : Nat} (hs : 0 < size)
    (hsz : size < 2 ^ 57) (hp : 64 < prec) (hprec : prec < 2 ^ 32) (hmM : m ≤ M)
    (hfit : 2 * 5 ^ m < 2 ^ (64 * size)) (h1 : 1 ≤ k0) (hk0 : k0 ≤ m) (hbad : ¬shiftFine prec (5 ^ k0)) :
    generate_cache_bitset cfg (.fault f) prec size m M = .fault f := by
  have h2 : 1 < 2 ^ (64 * size) := Nat.one_lt_two_pow (by omega)
  unfold generate_cache_bitset
  rw [ofElement_spec hs (by norm_num)]
  simp only [Exec.ok_bind]
  rw [get_upper_bits_spec (rep_bigOf hs h2) (by omega) hp.le (Or.inl (Or.inl (by
    rw [show bitLength 1 = 1 from rfl]; omega)))]
  simp only [Exec.ok_bind]
  rw [wr_eq (by rw [List.length_replicate]; omega)]
  simp only [Exec.ok_bind]
  have := both_loop_over cfg (f := f) hs hsz hp hprec hfit hk0 hbad m 1
    ((List.replicate (M + m + 1) 0).set m (topBits prec 1)) (by omega) h1 (by omega)
    (by rw [List.length_set, List.length_replicate]; omega)
  rw [Nat.sub_self, pow_zero] at this
  rw [this]
  rfl

instance (prec a : Nat) : Decidable (shiftFine prec a) := by unfold shiftFine; infer_instance

theorem fine32 : ∀ k < 47, shiftFine 64 (5 ^ k) := by decide +kernel

theorem table32 : (((List.range 77).map (entry 64 30)).take 30).map (increment .b32) ++
    ((List.range 77).map (entry 64 30)).drop 30 = cache32 := by decide +kernel

theorem table64 : (((List.range 616).map (entry 128 290)).take 290).map (increment .b64) ++
    ((List.range 616).map (entry 128 290)).drop 290 = cache64.map fun e => e.high * 2 ^ 64 + e.low := by
  decide +kernel

theorem generate32 (cfg : Cfg) (shl64 : Exec Nat) : generate_cache cfg shl64 .b32 = .ok cache32 := by
  unfold generate_cache
  rw [floor_log2_pow10_ok cfg (by decide) (by decide)]
  simp only [Exec.ok_bind]
  rw [show ((log2_pow10_value Fmt.b32.max_k - Fmt.b32.max_k + 1).toNat + 63) / 64 = 2 by decide,
    show (-Fmt.b32.min_k).toNat = 30 by decide, show Fmt.b32.max_k.toNat = 46 by decide,
    show 2 * Fmt.b32.q = 64 by decide,
    generate_cache_bitset_spec cfg (by norm_num) (by norm_num) (by norm_num) (by norm_num) (by norm_num)
      (by norm_num) (by norm_num) (fun k hk => Or.inl (fine32 k (by omega)))]
  simp only [Exec.ok_bind]
  rw [← table32]

theorem generate64 (cfg : Cfg) (v : Nat) : generate_cache cfg (.ok v) .b64 =
    .ok (cache64.map fun e => e.high * 2 ^ 64 + e.low) := by
  unfold generate_cache
  rw [floor_log2_pow10_ok cfg (by decide) (by decide)]
  simp only [Exec.ok_bind]
  rw [show ((log2_pow10_value Fmt.b64.max_k - Fmt.b64.max_k + 1).toNat + 63) / 64 = 12 by decide,
    show (-Fmt.b64.min_k).toNat = 290 by decide, show Fmt.b64.max_k.toNat = 325 by decide,
    show 2 * Fmt.b64.q = 128 by decide,
    generate_cache_bitset_spec cfg (by norm_num) (by norm_num) (by norm_num) (by norm_num) (by norm_num)
      (by decide +kernel) (by decide +kernel) (fun k hk => Or.inr ⟨v, rfl⟩)]
  simp only [Exec.ok_bind]
  rw [← table64]

theorem generate64_over (cfg : Cfg) (f : Fault) : generate_cache cfg (.fault f) .b64 = .fault f := by
  unfold generate_cache
  rw [floor_log2_pow10_ok cfg (by decide) (by decide)]
  simp only [Exec.ok_bind]
  rw [show ((log2_pow10_value Fmt.b64.max_k - Fmt.b64.max_k + 1).toNat + 63) / 64 = 12 by decide,
    show (-Fmt.b64.min_k).toNat = 290 by decide, show Fmt.b64.max_k.toNat = 325 by decide,
    show 2 * Fmt.b64.q = 128 by decide,
    generate_cache_bitset_over cfg (k0 := 110) (by norm_num) (by norm_num) (by norm_num) (by norm_num)
      (by norm_num) (by decide +kernel) (by norm_num) (by norm_num) (by decide +kernel)]
  rfl

end Gen
end Grisu
