import Verif.Model.RandomFloat
import Verif.SpecRandom
import Verif.Proofs.BigInt
import Verif.Properties.Nearest
import Verif.Properties.Special

/-! # Test data generators -/

namespace Grisu
open Big
open Spec (RoundsTo value mag isNeg FiniteNonzero dec numDigits width infPattern CorrectParser mantBits)
open Spec (value_pos value_zero)

/-! ## Seeds -/

theorem copy_n_spec {stored : List Nat} (n : Nat) : ∀ (buf : List Nat) (pos : Nat), n ≤ stored.length →
    pos + n ≤ buf.length → ∃ buf', copy_n stored n buf pos = .ok buf' ∧ buf'.length = buf.length ∧
      ∀ i, el buf' i = if pos ≤ i ∧ i < pos + n then el stored (i - pos) else el buf i := by
  induction n with
  | zero =>
    intro buf pos _ _
    exact ⟨buf, rfl, rfl, fun i => by rw [if_neg (by omega)]⟩
  | succ n ih =>
    intro buf pos h1 h2
    obtain ⟨b, e1, e2, e3⟩ := ih buf pos (by omega) (by omega)
    simp only [copy_n, e1, Exec.ok_bind, rd_eq (show n < stored.length by omega),
      wr_eq (show pos + n < b.length by omega)]
    refine ⟨_, rfl, by rw [List.length_set, e2], fun i => ?_⟩
    rw [el_set (by omega), e3 i]
    by_cases hi : i = pos + n
    · subst hi
      rw [if_pos rfl, if_pos (by omega), show pos + n - pos = n by omega]
    · rw [if_neg hi]
      by_cases hi2 : pos ≤ i ∧ i < pos + n
      · rw [if_pos hi2, if_pos (by omega)]
      · rw [if_neg hi2, if_neg (by omega)]

theorem copy_loop_spec {stored : List Nat} (hs : 0 < stored.length) (q : Nat) : ∀ (buf : List Nat) (j : Nat),
    (j + q) * stored.length ≤ buf.length →
    (∀ i, i < j * stored.length → el buf i = el stored (i % stored.length)) →
    ∃ buf', copy_loop stored q buf (j * stored.length) = .ok (buf', (j + q) * stored.length) ∧
      buf'.length = buf.length ∧ ∀ i, i < (j + q) * stored.length → el buf' i = el stored (i % stored.length) := by
  induction q with
  | zero => intro buf j h1 h2; exact ⟨buf, rfl, rfl, h2⟩
  | succ q ih =>
    intro buf j h1 h2
    have h3 : (j + 1) * stored.length ≤ (j + (q + 1)) * stored.length := Nat.mul_le_mul_right _ (by omega)
    have h4 : (j + 1) * stored.length = j * stored.length + stored.length := by ring
    obtain ⟨b, e1, e2, e3⟩ := copy_n_spec stored.length buf (j * stored.length) le_rfl (by omega)
    simp only [copy_loop, e1, Exec.ok_bind]
    rw [← h4, show j + (q + 1) = j + 1 + q by omega]
    have := ih b (j + 1) (by rw [e2, show j + 1 + q = j + (q + 1) by omega]; exact h1) (by
      intro i hi
      rw [e3 i]
      split
      · rename_i hc
        congr 1
        obtain ⟨d, rfl⟩ : ∃ d, i = d + j * stored.length := ⟨i - j * stored.length, by omega⟩
        rw [Nat.add_sub_cancel, Nat.add_mul_mod_self_right, Nat.mod_eq_of_lt (by omega)]
      · exact h2 i (by omega))
    rw [e2] at this
    exact this

theorem seed_generate_spec {stored buf : List Nat} (hs : 0 < stored.length) :
    ∃ r, seed_generate stored buf = .ok r ∧ r.length = buf.length ∧
      ∀ i, i < buf.length → el r i = el stored (i % stored.length) := by
  unfold seed_generate
  have hd := Nat.div_mul_le_self buf.length stored.length
  have hm := Nat.div_add_mod' buf.length stored.length
  have hl := Nat.mod_lt buf.length hs
  simp only
  rw [if_neg (by omega)]
  simp only [Exec.ok_bind]
  obtain ⟨b, e1, e2, e3⟩ := copy_loop_spec hs (buf.length / stored.length) buf 0 (by rw [Nat.zero_add]; exact hd)
    (by intro i hi; omega)
  rw [Nat.zero_mul, Nat.zero_add] at e1
  rw [Nat.zero_add] at e3
  rw [e1]
  simp only [Exec.ok_bind]
  obtain ⟨b', f1, f2, f3⟩ := copy_n_spec (stored := stored)
    (buf.length - buf.length / stored.length * stored.length) b (buf.length / stored.length * stored.length)
    (by omega) (by omega)
  refine ⟨b', f1, by omega, fun i hi => ?_⟩
  rw [f3 i]
  split
  · rename_i hc
    congr 1
    obtain ⟨d, rfl⟩ : ∃ d, i = d + buf.length / stored.length * stored.length :=
      ⟨i - buf.length / stored.length * stored.length, by omega⟩
    rw [Nat.add_sub_cancel, Nat.add_mul_mod_self_right, Nat.mod_eq_of_lt (by omega)]
  · exact e3 i (by omega)

/-! ## Uniform bit patterns -/

theorem uniform_finite_eq {F : Fmt} {a b c : Nat} (ha : a < 2) (hb : b < 2 ^ F.exponent_bits - 1) (hc : c < 2 ^ F.p) :
    uniform_finite F a b c = a * 2 ^ (F.q - 1) + b * 2 ^ F.p + c := by
  have h1 : wrap F.q (a <<< (F.q - 1)) = a * 2 ^ (F.q - 1) := by
    rw [Nat.shiftLeft_eq]; apply wrap_of_lt
    cases F <;> simp only [Fmt.q] <;> omega
  have h2 : wrap F.q (b <<< F.p) = b * 2 ^ F.p := by
    rw [Nat.shiftLeft_eq]; apply wrap_of_lt
    cases F <;> simp only [Fmt.q, Fmt.p, Fmt.exponent_bits] at * <;> omega
  unfold uniform_finite
  rw [h1, h2]
  have h3 : a * 2 ^ (F.q - 1) ||| b * 2 ^ F.p = a * 2 ^ (F.q - 1) + b * 2 ^ F.p := by
    rw [Nat.mul_comm a, Nat.two_pow_add_eq_or_of_lt]
    cases F <;> simp only [Fmt.q, Fmt.p, Fmt.exponent_bits] at * <;> omega
  have h4 : a * 2 ^ (F.q - 1) + b * 2 ^ F.p = 2 ^ F.p * (a * 2 ^ (F.q - 1 - F.p) + b) := by
    have : 2 ^ (F.q - 1) = 2 ^ F.p * 2 ^ (F.q - 1 - F.p) := by
      rw [← pow_add]; cases F <;> rfl
    rw [this]; ring
  rw [h3, h4, Nat.two_pow_add_eq_or_of_lt hc]

/-! ## Numbers with a given number of digits -/

theorem signedInt_ok {F : Fmt} {n : Int} (h1 : -2 ^ (F.q - 1) ≤ n) (h2 : n < 2 ^ (F.q - 1)) :
    signedInt F n = .ok n := by
  unfold signedInt; rw [if_pos ⟨h1, h2⟩]

theorem gen_small {F : Fmt} : (10 : Int) ^ genDigits F < 2 ^ (F.q - 1) := by cases F <;> decide

theorem pow_small {F : Fmt} {n : Nat} (h : n ≤ genDigits F) : (10 : Int) ^ n < 2 ^ (F.q - 1) :=
  lt_of_le_of_lt (pow_le_pow_right₀ (by norm_num) h) gen_small

theorem from_loop_spec {F : Fmt} (count : Nat) : ∀ (n : Nat), n + count ≤ genDigits F →
    from_loop F count (10 ^ n) = .ok (10 ^ (n + count)) := by
  induction count with
  | zero => intro n _; rfl
  | succ count ih =>
    intro n h
    simp only [from_loop]
    rw [← pow_succ, signedInt_ok (by
      have : (0 : Int) < 10 ^ (n + 1) := by positivity
      have : (0 : Int) < 2 ^ (F.q - 1) := by positivity
      omega) (pow_small (by omega))]
    simp only [Exec.ok_bind]
    rw [ih (n + 1) (by omega)]
    congr 2; omega

theorem sig_range {F : Fmt} {digits : Nat} {d : Draw} (hd : 1 ≤ digits) (h : DrawOk F digits d) :
    d.sig digits < 10 ^ digits ∧ (digits = 1 ∧ d.sig digits = 0 ∨ 10 ^ (digits - 1) ≤ d.sig digits ∧
      numDigits (d.sig digits) = digits) := by
  have key : d.sig digits < 10 ^ digits ∧ (digits = 1 ∧ d.sig digits = 0 ∨ 10 ^ (digits - 1) ≤ d.sig digits) := by
    have h1 := h.lo
    have h2 := h.hi
    have h3 := h.last1
    have h4 := h.last9
    unfold Draw.sig
    by_cases hone : digits = 1
    · subst hone
      rw [if_pos rfl] at h1 h2 ⊢
      norm_num
      omega
    · rw [if_neg hone] at h1 h2 ⊢
      obtain ⟨n, rfl⟩ : ∃ n, digits = n + 2 := ⟨digits - 2, by omega⟩
      rw [show n + 2 - 2 = n by omega] at h1
      rw [show n + 2 - 1 = n + 1 by omega] at h2 ⊢
      rw [pow_succ] at h2
      have e : ((10 ^ n : Nat) : Int) = 10 ^ n := by norm_cast
      rw [← e] at h1 h2
      rw [pow_succ 10 (n + 1), pow_succ 10 n]
      omega
  refine ⟨key.1, key.2.imp id fun h => ⟨h, le_antisymm (numDigits_le_iff.mpr key.1) ?_⟩⟩
  by_contra hc
  have := numDigits_le_iff.mp (show numDigits (d.sig digits) ≤ digits - 1 by omega)
  omega

theorem parse_nonzero {F : Fmt} {digits : Nat} {d : Draw} {m : Nat} {neg : Bool} (hd : 1 ≤ digits)
    (h : DrawOk F digits d) (hs : 10 ^ (digits - 1) ≤ d.sig digits)
    (hr : RoundsTo F .nearest_to_even neg (dec (d.sig digits) d.exp) m) : 0 < m := by
  by_contra hc
  have hm : m = 0 := by omega
  subst hm
  have h1 := hr.2 1 (by cases F <;> decide) (by omega)
  have hv : value F 1 < 10 ^ min_exponent10 F := by
    cases F
    · norm_num [value, mantBits, Spec.ulpExp, min_exponent10]
    · norm_num [value, mantBits, Spec.ulpExp, min_exponent10]
      rw [inv_lt_inv₀ (by positivity) (by positivity)]
      have : (10 : Nat) ^ 307 < 2 ^ 1074 := by decide +kernel
      exact_mod_cast this
  have hv1 : 0 < value F 1 := value_pos (by omega)
  have hlow : (10 : ℚ) ^ min_exponent10 F ≤ dec (d.sig digits) d.exp := by
    unfold dec
    have e1 : ((10 ^ (digits - 1) : Nat) : ℚ) ≤ (d.sig digits : ℚ) := by exact_mod_cast hs
    have e2 : (10 : ℚ) ^ (min_exponent10 F - (digits - 1 : Int)) ≤ 10 ^ d.exp :=
      zpow_le_zpow_right₀ (by norm_num) h.exp1
    have e3 : (10 : ℚ) ^ min_exponent10 F =
        ((10 ^ (digits - 1) : Nat) : ℚ) * 10 ^ (min_exponent10 F - (digits - 1 : Int)) := by
      push_cast
      rw [← zpow_natCast, ← zpow_add₀ (by norm_num)]
      congr 1
      omega
    rw [e3]
    exact mul_le_mul e1 e2 (by positivity) (by positivity)
  rw [value_zero, sub_zero, abs_of_pos (by linarith), abs_of_pos (by linarith)] at h1
  rcases h1 with h1 | ⟨h1, -⟩ <;> linarith

theorem parse_zero {F : Fmt} {m : Nat} {neg : Bool} {t : Int} (hr : RoundsTo F .nearest_to_even neg (dec 0 t) m) :
    m = 0 := by
  by_contra hm
  have h1 := hr.2 0 (by omega) (by omega)
  have h2 : 0 < value F m := value_pos (by omega)
  unfold dec at h1
  simp only [Nat.cast_zero, zero_mul, value_zero, sub_self, abs_zero, zero_sub, abs_neg] at h1
  rw [abs_of_pos h2] at h1
  rcases h1 with h1 | ⟨h1, -⟩ <;> linarith

/-- What a round does with a draw. -/
theorem round_spec (cfg : Cfg) {F : Fmt} {parse : Bool → Nat → Int → Option Nat} (hp : CorrectParser F parse)
    {digits : Nat} (hd : 1 ≤ digits) (hd2 : digits ≤ genDigits F) {sign lo : Int} (hsign : sign = 1 ∨ sign = -1)
    (hlo : lo = if digits = 1 then 0 else 10 ^ (digits - 2)) {d : Draw} (h : DrawOk F digits d) :
    (parse (decide (sign = -1 ∧ d.sig digits ≠ 0)) (d.sig digits) d.exp = none ∧
      given_digits_round cfg F parse digits sign lo d = .ok none) ∨
    ∃ b, parse (decide (sign = -1 ∧ d.sig digits ≠ 0)) (d.sig digits) d.exp = some b ∧
      ((given_digits_round cfg F parse digits sign lo d = .ok none ∧ FiniteNonzero F b ∧
          ∃ n, LeastDigits F b n ∧ n < digits) ∨
       (given_digits_round cfg F parse digits sign lo d = .ok (some b) ∧
          (digits = 1 ∧ d.sig digits = 0 ∧ b = 0 ∨
            FiniteNonzero F b ∧ isNeg F b = decide (sign = -1) ∧ LeastDigits F b digits))) := by
  have hr := sig_range hd h
  have hbig : (10 : Int) ^ digits < 2 ^ (F.q - 1) := pow_small hd2
  have hS : (d.sig digits : Int) < 10 ^ digits := by exact_mod_cast hr.1
  have h2pos : (0 : Int) < 2 ^ (F.q - 1) := by positivity
  have h1 := h.lo
  have h2 := h.hi
  have h3 := h.last1
  have h4 := h.last9
  have hsig : (if digits > 1 then do
      let s ← signedInt F (d.significand * 10)
      signedInt F (s + d.last)
    else .ok d.significand : Exec Int) = .ok (d.sig digits : Int) := by
    unfold Draw.sig at hS ⊢
    by_cases hone : digits = 1
    · subst hone
      rw [if_neg (by omega), if_pos rfl]
      rw [if_pos rfl] at h1
      congr 1; omega
    · rw [if_neg hone] at h1 h2 hS ⊢
      rw [if_pos (by omega)]
      have : (0 : Int) < 10 ^ (digits - 2) := by positivity
      rw [signedInt_ok (by omega) (by omega)]
      simp only [Exec.ok_bind]
      rw [signedInt_ok (by omega) (by omega)]
      congr 1; omega
  have hsd : signedInt F (sign * (d.sig digits : Int)) = .ok (sign * (d.sig digits : Int)) := by
    rcases hsign with rfl | rfl
    · exact signedInt_ok (by omega) (by omega)
    · exact signedInt_ok (by omega) (by omega)
  have hneg : decide (sign * (d.sig digits : Int) < 0) = decide (sign = -1 ∧ d.sig digits ≠ 0) := by
    rw [decide_eq_decide]
    rcases hsign with rfl | rfl <;> omega
  have habs : (sign * (d.sig digits : Int)).natAbs = d.sig digits := by
    rcases hsign with rfl | rfl <;> omega
  unfold given_digits_round
  rw [hsig]
  simp only [Exec.ok_bind]
  rw [hsd]
  simp only [Exec.ok_bind]
  rw [hneg, habs]
  generalize hres : parse (decide (sign = -1 ∧ d.sig digits ≠ 0)) (d.sig digits) d.exp = res
  cases res with
  | none => left; exact ⟨rfl, rfl⟩
  | some b =>
    right
    refine ⟨b, rfl, ?_⟩
    obtain ⟨p1, p2, p3, p4⟩ := hp _ _ _ _ hres
    simp only
    rcases hr.2 with ⟨q1, q2⟩ | ⟨q1, q2⟩
    · -- zero
      right
      rw [q2] at p2 p4
      have hm := parse_zero p4
      have hb : b = 0 := by
        have : isNeg F b = false := by simpa using p2
        unfold isNeg at this
        unfold mag at hm
        have := of_decide_eq_false this
        rw [Nat.mod_eq_of_lt (by omega)] at hm
        exact hm
      subst hb
      rw [C41_zero cfg F false 0 .nearest_to_even .do_not_care .assert_finite p1 (by cases F <;> rfl)
        (by cases F <;> rfl)]
      simp only [Exec.ok_bind]
      rw [if_neg (by rw [hlo, if_pos q1]; simp)]
      exact ⟨rfl, Or.inl ⟨q1, q2, trivial⟩⟩
    · have hS0 : 0 < d.sig digits := lt_of_lt_of_le (by positivity) q1
      have hf : FiniteNonzero F b := ⟨p1, parse_nonzero hd h q1 p4, p3⟩
      have hneg' : isNeg F b = decide (sign = -1) := by
        rw [p2]; simp only [decide_eq_decide]; constructor
        · exact fun h => h.1
        · exact fun h => ⟨h, by omega⟩
      obtain ⟨r, r1, r2, r3, -⟩ := C11_do_not_care cfg F false b .nearest_to_even .assert_finite hf rfl
      obtain ⟨r', r1', -, r4⟩ := C14_no_trailing_zero cfg F false b .nearest_to_even .do_not_care .assert_finite hf rfl
      rw [r1] at r1'
      cases r1'
      rw [← p2] at p4
      have hle : numDigits r.significand ≤ digits := q2 ▸ r3 _ _ p4
      have hleast : LeastDigits F b (numDigits r.significand) := ⟨⟨_, _, rfl, r2⟩, r3⟩
      rw [r1]
      simp only [Exec.ok_bind]
      by_cases hone : digits = 1
      · subst hone
        rw [if_neg (by rw [hlo]; simp)]
        right
        have : numDigits r.significand = 1 := by
          have : ¬numDigits r.significand ≤ 0 := fun hc => by
            have := numDigits_le_iff.mp hc
            simp at this
            rw [this] at r4
            exact r4 rfl
          omega
        exact ⟨rfl, Or.inr ⟨hf, hneg', this ▸ hleast⟩⟩
      · rw [if_neg hone] at hlo
        obtain ⟨n, rfl⟩ : ∃ n, digits = n + 2 := ⟨digits - 2, by omega⟩
        rw [show n + 2 - 2 = n by omega] at hlo
        have hlo' : lo * 10 = ((10 ^ (n + 1) : Nat) : Int) := by rw [hlo]; push_cast; ring
        rw [if_pos (by rw [hlo]; positivity), hlo', signedInt_ok (by
          have : (0 : Int) ≤ ((10 ^ (n + 1) : Nat) : Int) := by positivity
          omega) (by
          have := pow_small (F := F) (n := n + 1) (by omega)
          exact_mod_cast this)]
        simp only [Exec.ok_bind, Int.toNat_natCast]
        by_cases hcmp : r.significand ≤ 10 ^ (n + 1)
        · left
          rw [if_pos hcmp]
          refine ⟨rfl, hf, _, hleast, ?_⟩
          have hne : r.significand ≠ 10 ^ (n + 1) := by
            intro he
            rw [he, pow_succ] at r4
            simp at r4
          have := numDigits_le_iff.mpr (show r.significand < 10 ^ (n + 1) by omega)
          omega
        · right
          rw [if_neg hcmp]
          have : numDigits r.significand = n + 2 := by
            have : ¬numDigits r.significand ≤ n + 1 := fun hc => by
              have := numDigits_le_iff.mp hc
              omega
            omega
          exact ⟨rfl, Or.inr ⟨hf, hneg', this ▸ hleast⟩⟩

theorem loop_spec (cfg : Cfg) {F : Fmt} {parse : Bool → Nat → Int → Option Nat} (hp : CorrectParser F parse)
    {digits : Nat} (hd : 1 ≤ digits) (hd2 : digits ≤ genDigits F) {sign lo : Int} (hsign : sign = 1 ∨ sign = -1)
    (hlo : lo = if digits = 1 then 0 else 10 ^ (digits - 2)) (draws : List Draw)
    (h : ∀ d ∈ draws, DrawOk F digits d) :
    (∃ b, given_digits_loop cfg F parse digits sign lo draws = .ok b ∧
      (digits = 1 ∧ b = 0 ∨ FiniteNonzero F b ∧ isNeg F b = decide (sign = -1) ∧ LeastDigits F b digits)) ∨
    (given_digits_loop cfg F parse digits sign lo draws = .fault .loopFuel ∧
      ∀ d ∈ draws, ∀ b, parse (decide (sign = -1 ∧ d.sig digits ≠ 0)) (d.sig digits) d.exp = some b →
        FiniteNonzero F b ∧ ∃ n, LeastDigits F b n ∧ n < digits) := by
  induction draws with
  | nil => right; exact ⟨rfl, fun d hd => by simp at hd⟩
  | cons d draws ih =>
    have ih := ih (fun d hd => h d (List.mem_cons_of_mem _ hd))
    simp only [given_digits_loop]
    rcases round_spec cfg hp hd hd2 hsign hlo (h d List.mem_cons_self) with ⟨e1, e2⟩ | ⟨b, e1, ⟨e2, e3, e4⟩ | ⟨e2, e3⟩⟩
    · rw [e2]
      simp only [Exec.ok_bind]
      rcases ih with ih | ⟨i1, i2⟩
      · exact Or.inl ih
      · refine Or.inr ⟨i1, fun d' hd' b hb => ?_⟩
        rcases List.mem_cons.mp hd' with rfl | hd'
        · rw [e1] at hb; cases hb
        · exact i2 d' hd' b hb
    · rw [e2]
      simp only [Exec.ok_bind]
      rcases ih with ih | ⟨i1, i2⟩
      · exact Or.inl ih
      · refine Or.inr ⟨i1, fun d' hd' b' hb => ?_⟩
        rcases List.mem_cons.mp hd' with rfl | hd'
        · rw [e1] at hb; cases hb; exact ⟨e3, e4⟩
        · exact i2 d' hd' b' hb
    · rw [e2]
      simp only [Exec.ok_bind]
      exact Or.inl ⟨b, rfl, e3.imp (fun h => ⟨h.1, h.2.2⟩) id⟩

theorem given_digits_eq (cfg : Cfg) {F : Fmt} {parse : Bool → Nat → Int → Option Nat}
    {digits : Nat} (hd : 1 ≤ digits) (hd2 : digits ≤ genDigits F) (sign_draw : Int) (draws : List Draw) :
    given_digits cfg F parse digits sign_draw draws =
      given_digits_loop cfg F parse digits (if sign_draw = 0 then 1 else -1)
        (if digits = 1 then 0 else 10 ^ (digits - 2)) draws := by
  unfold given_digits
  rw [cassert_true (by simpa using hd), cassert_true (by cases F <;> simpa [genDigits] using hd2)]
  simp only [Exec.ok_bind]
  by_cases hone : digits = 1
  · subst hone; rfl
  · rw [if_pos (by omega), if_neg hone]
    have h1 := from_loop_spec (F := F) (digits - 2) 0 (by omega)
    rw [pow_zero, Nat.zero_add] at h1
    have h0 : (0 : Int) < 10 ^ (digits - 2) := by positivity
    have h2 : (10 : Int) ^ (digits - 2) * 10 = 10 ^ (digits - 1) := by
      rw [← pow_succ]; congr 1; omega
    have h3 := pow_small (F := F) (n := digits - 1) (by omega)
    rw [h1]
    simp only [Exec.ok_bind]
    rw [signedInt_ok (by omega) (by omega)]
    simp only [Exec.ok_bind]
    rw [signedInt_ok (by omega) (by omega)]
    rfl

end Grisu
