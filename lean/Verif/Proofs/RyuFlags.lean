import Verif.Proofs.RyuInit
import Mathlib.Data.Nat.Prime.Basic
import Mathlib.Tactic.NormNum.Prime

/-!
# Ryu: the flags of step 3

`posFlags` and `negFlags` are `vp`, `vmIsTrailingZeros` and `vrIsTrailingZeros` for `e2 >= 0` and `e2 < 0`.
-/

namespace Grisu.Ryu

/-- `Q0` is the largest `q` for which the tests are made (9 or 21). -/
def posFlags (Q0 q m s : Nat) (acc : Bool) (vp : Nat) : Nat × Bool × Bool :=
  if q ≤ Q0 then
    if 4 * m % 5 = 0 then (vp, false, decide (5 ^ q ∣ 4 * m))
    else if acc then (vp, decide (5 ^ q ∣ 4 * m - 1 - s), false)
    else (vp - (if 5 ^ q ∣ 4 * m + 2 then 1 else 0), false, false)
  else (vp, false, false)

/-- `k` is 1 for `float` and 0 for `double`; `Q1` is 31 or 63. -/
def negFlags (k Q1 q m s : Nat) (acc : Bool) (vp : Nat) : Nat × Bool × Bool :=
  if q ≤ 1 then
    if acc then (vp, decide (s = 1), true) else (vp - 1, false, true)
  else if q < Q1 then (vp, false, decide (2 ^ (q - k) ∣ 4 * m))
  else (vp, false, false)

theorem five_dvd_iff {q n E : Nat} : 5 ^ q ∣ n * 2 ^ E ↔ 5 ^ q ∣ n :=
  ⟨fun h => Nat.Coprime.dvd_of_dvd_mul_right (Nat.Coprime.pow q E (by decide)) h, fun h => h.mul_right _⟩

theorem two_dvd_iff {q n i : Nat} : 2 ^ q ∣ n * 5 ^ i ↔ 2 ^ q ∣ n :=
  ⟨fun h => Nat.Coprime.dvd_of_dvd_mul_right (Nat.Coprime.pow q i (by decide)) h, fun h => h.mul_right _⟩

theorem five_dvd_of_ten {q n E : Nat} (h : 10 * 5 ^ q ∣ n * 2 ^ E) : 5 ^ (q + 1) ∣ n := by
  rw [← five_dvd_iff (E := E)]
  exact dvd_trans ⟨2, by ring⟩ h

theorem five_dvd_of_five {q n E : Nat} (h : 5 * 5 ^ q ∣ n * 2 ^ E) : 5 ^ (q + 1) ∣ n := by
  rw [← five_dvd_iff (E := E)]
  exact dvd_trans ⟨1, by ring⟩ h

theorem two_dvd_of_ten {q n i : Nat} (h : 10 * 2 ^ q ∣ n * 5 ^ i) : 2 ^ (q + 1) ∣ n := by
  rw [← two_dvd_iff (i := i)]
  exact dvd_trans ⟨5, by ring⟩ h

theorem two_dvd_of_five {q n i : Nat} (h : 5 * 2 ^ q ∣ n * 5 ^ i) : 2 ^ q ∣ n := by
  rw [← two_dvd_iff (i := i)]
  exact dvd_trans ⟨5, by ring⟩ h

theorem five_of_pow {q n : Nat} (h : 5 ^ (q + 1) ∣ n) : n % 5 = 0 :=
  Nat.mod_eq_zero_of_dvd (dvd_trans (Dvd.intro_left _ rfl) (pow_succ 5 q ▸ h))

theorem odd_five_pow (q : Nat) : 5 ^ q % 2 = 1 := by
  induction q with
  | zero => rfl
  | succ q ih => rw [pow_succ]; omega

theorem posFlags_init {Q0 q E m s : Nat} {acc : Bool} {last : Nat} (hB : 5 ^ q ≤ 2 ^ E) (hm : 0 < m) (hs : s ≤ 1)
    (hbig : Q0 < q → ¬ 5 ^ (q + 1) ∣ 4 * m ∧ (acc = false → ¬ 5 ^ (q + 1) ∣ 4 * m + 2) ∧
      (acc = true → ¬ 5 ^ (q + 1) ∣ 4 * m - 1 - s))
    (hlast : last = 0 ∨ last = 10 * (4 * m * 2 ^ E) / 5 ^ q % 10)
    (hstop : ∀ P, (4 * m + 2) * 2 ^ E / 5 ^ q - 1 ≤ P → P / 10 ≤ (4 * m - 1 - s) * 2 ^ E / 5 ^ q / 10 →
      last = 10 * (4 * m * 2 ^ E) / 5 ^ q % 10) :
    Init (2 ^ E) (5 ^ q) m s (4 * m * 2 ^ E / 5 ^ q) ((4 * m - 1 - s) * 2 ^ E / 5 ^ q)
      (posFlags Q0 q m s acc ((4 * m + 2) * 2 ^ E / 5 ^ q)).1 acc
      (posFlags Q0 q m s acc ((4 * m + 2) * 2 ^ E / 5 ^ q)).2.1
      (posFlags Q0 q m s acc ((4 * m + 2) * 2 ^ E / 5 ^ q)).2.2 last := by
  have hodd := odd_five_pow q
  have hhalf : ∀ z : Bool, 2 * (4 * m * 2 ^ E) = (2 * (4 * m * 2 ^ E / 5 ^ q) + 1) * 5 ^ q → z = true := by
    intro z h
    exfalso
    have : (2 * (4 * m * 2 ^ E)) % 2 = 0 := Nat.mul_mod_right _ _
    rw [h, Nat.mul_mod, hodd] at this
    omega
  have hP : (posFlags Q0 q m s acc ((4 * m + 2) * 2 ^ E / 5 ^ q)).1 ≥ (4 * m + 2) * 2 ^ E / 5 ^ q - 1 := by
    unfold posFlags
    split
    · split
      · exact Nat.sub_le _ _
      · split
        · exact Nat.sub_le _ _
        · dsimp only
          split <;> omega
    · exact Nat.sub_le _ _
  refine ⟨by positivity, hB, hm, hs, rfl, rfl, ?_, ?_, ?_, ?_, ?_, hlast, fun h => ⟨hstop _ hP h, hhalf _⟩⟩
  · unfold posFlags
    by_cases h1 : q ≤ Q0
    · rw [if_pos h1]
      by_cases h2 : 4 * m % 5 = 0
      · rw [if_pos h2]
        refine Or.inl ⟨rfl, Or.inr fun h => ?_⟩
        have := five_of_pow (five_dvd_of_ten h)
        omega
      · rw [if_neg h2]
        cases acc
        · rw [if_neg (by simp)]
          by_cases h3 : 5 ^ q ∣ 4 * m + 2
          · exact Or.inr ⟨by rw [if_pos h3], rfl, five_dvd_iff.mpr h3⟩
          · refine Or.inl ⟨by rw [if_neg h3, Nat.sub_zero], Or.inr fun h => h3 ?_⟩
            exact dvd_trans ⟨5, by ring⟩ (five_dvd_of_ten h)
        · exact Or.inl ⟨rfl, Or.inl rfl⟩
    · rw [if_neg h1]
      refine Or.inl ⟨rfl, ?_⟩
      cases acc
      · exact Or.inr fun h => (hbig (by omega)).2.1 rfl (five_dvd_of_ten h)
      · exact Or.inl rfl
  · unfold posFlags
    by_cases h1 : q ≤ Q0
    · rw [if_pos h1]
      by_cases h2 : 4 * m % 5 = 0
      · rw [if_pos h2]; intro h; exact absurd h (by simp)
      · rw [if_neg h2]
        cases acc
        · rw [if_neg (by simp)]; intro h; exact absurd h (by simp)
        · rw [if_pos rfl]
          intro h
          exact ⟨rfl, five_dvd_iff.mpr (of_decide_eq_true h)⟩
    · rw [if_neg h1]; intro h; exact absurd h (by simp)
  · unfold posFlags
    intro ha h
    have h5 := five_dvd_of_ten h
    subst ha
    by_cases h1 : q ≤ Q0
    · rw [if_pos h1]
      by_cases h2 : 4 * m % 5 = 0
      · have := five_of_pow h5
        omega
      · rw [if_neg h2, if_pos rfl]
        exact decide_eq_true (dvd_trans ⟨5, by ring⟩ h5)
    · exact absurd h5 ((hbig (by omega)).2.2 rfl)
  · unfold posFlags
    by_cases h1 : q ≤ Q0
    · rw [if_pos h1]
      by_cases h2 : 4 * m % 5 = 0
      · rw [if_pos h2]
        intro h
        exact Or.inl (five_dvd_iff.mpr (of_decide_eq_true h))
      · rw [if_neg h2]
        cases acc <;> · intro h; exact absurd h (by simp)
    · rw [if_neg h1]; intro h; exact absurd h (by simp)
  · intro h
    have h5 := five_dvd_of_five h
    unfold posFlags
    by_cases h1 : q ≤ Q0
    · rw [if_pos h1, if_pos (five_of_pow h5)]
      exact decide_eq_true (dvd_trans ⟨5, by ring⟩ h5)
    · exact absurd h5 (hbig (by omega)).1

theorem four_of_pow {q n : Nat} (hq : 1 ≤ q) (h : 2 ^ (q + 1) ∣ n) : n % 4 = 0 := by
  have h4 : 2 ^ 2 ∣ n := dvd_trans (pow_dvd_pow 2 (by omega)) h
  exact Nat.mod_eq_zero_of_dvd h4

theorem negFlags_init {k Q1 q i m s : Nat} {acc : Bool} {last : Nat} (hB : 2 ^ q ≤ 5 ^ i) (hm : 0 < m) (hs : s ≤ 1)
    (hk : k ≤ 1) (hi : 0 < i) (hbig : Q1 ≤ q → ¬ 2 ^ (q - k) ∣ 4 * m)
    (hlast : last = 0 ∨ last = 10 * (4 * m * 5 ^ i) / 2 ^ q % 10)
    (hstop : ∀ P, (4 * m + 2) * 5 ^ i / 2 ^ q - 1 ≤ P → P / 10 ≤ (4 * m - 1 - s) * 5 ^ i / 2 ^ q / 10 →
      last = 10 * (4 * m * 5 ^ i) / 2 ^ q % 10 ∧ (k = 1 ∨ q ≤ 1)) :
    Init (5 ^ i) (2 ^ q) m s (4 * m * 5 ^ i / 2 ^ q) ((4 * m - 1 - s) * 5 ^ i / 2 ^ q)
      (negFlags k Q1 q m s acc ((4 * m + 2) * 5 ^ i / 2 ^ q)).1 acc
      (negFlags k Q1 q m s acc ((4 * m + 2) * 5 ^ i / 2 ^ q)).2.1
      (negFlags k Q1 q m s acc ((4 * m + 2) * 5 ^ i / 2 ^ q)).2.2 last := by
  have hP : (negFlags k Q1 q m s acc ((4 * m + 2) * 5 ^ i / 2 ^ q)).1 ≥ (4 * m + 2) * 5 ^ i / 2 ^ q - 1 := by
    unfold negFlags
    split
    · split
      · exact Nat.sub_le _ _
      · exact le_rfl
    · split
      · exact Nat.sub_le _ _
      · exact Nat.sub_le _ _
  have small : ∀ n : Nat, n % 2 = 0 → q ≤ 1 → 2 ^ q ∣ n := by
    intro n hn hq
    interval_cases q
    · exact one_dvd _
    · exact Nat.dvd_of_mod_eq_zero (by simpa using hn)
  have hhalf : k = 1 ∨ q ≤ 1 → 2 * (4 * m * 5 ^ i) = (2 * (4 * m * 5 ^ i / 2 ^ q) + 1) * 2 ^ q →
      (negFlags k Q1 q m s acc ((4 * m + 2) * 5 ^ i / 2 ^ q)).2.2 = true := by
    intro hkq h
    unfold negFlags
    by_cases h1 : q ≤ 1
    · rw [if_pos h1]
      cases acc <;> rfl
    · have hk1 : k = 1 := by omega
      have hd : 2 ^ (q - k) ∣ 4 * m := by
        rw [← two_dvd_iff (i := i), hk1]
        refine ⟨2 * (4 * m * 5 ^ i / 2 ^ q) + 1, ?_⟩
        have e : 2 ^ q = 2 * 2 ^ (q - 1) := by
          rw [← pow_succ']
          congr 1
          omega
        have : 2 * (4 * m * 5 ^ i) = 2 * (2 ^ (q - 1) * (2 * (4 * m * 5 ^ i / 2 ^ q) + 1)) := by
          rw [h]
          conv_lhs => rw [e]
          rw [e]
          ring
        exact Nat.eq_of_mul_eq_mul_left (by norm_num) this
      rw [if_neg h1]
      by_cases h2 : q < Q1
      · rw [if_pos h2]
        exact decide_eq_true hd
      · exact absurd hd (hbig (by omega))
  refine ⟨by positivity, hB, hm, hs, rfl, rfl, ?_, ?_, ?_, ?_, ?_, hlast, fun h =>
    ⟨(hstop _ hP h).1, hhalf (hstop _ hP h).2⟩⟩
  · unfold negFlags
    by_cases h1 : q ≤ 1
    · rw [if_pos h1]
      cases acc
      · rw [if_neg (by simp)]
        exact Or.inr ⟨rfl, rfl, two_dvd_iff.mpr (small _ (by omega) h1)⟩
      · exact Or.inl ⟨rfl, Or.inl rfl⟩
    · rw [if_neg h1]
      have : ¬ 10 * 2 ^ q ∣ (4 * m + 2) * 5 ^ i := by
        intro h
        have := four_of_pow (by omega) (two_dvd_of_ten h)
        omega
      by_cases h2 : q < Q1
      · rw [if_pos h2]; exact Or.inl ⟨rfl, Or.inr this⟩
      · rw [if_neg h2]; exact Or.inl ⟨rfl, Or.inr this⟩
  · unfold negFlags
    by_cases h1 : q ≤ 1
    · rw [if_pos h1]
      cases acc
      · intro h; exact absurd h (by simp)
      · rw [if_pos rfl]
        intro h
        have : s = 1 := of_decide_eq_true h
        exact ⟨rfl, two_dvd_iff.mpr (small _ (by omega) h1)⟩
    · rw [if_neg h1]
      by_cases h2 : q < Q1
      · rw [if_pos h2]; intro h; exact absurd h (by simp)
      · rw [if_neg h2]; intro h; exact absurd h (by simp)
  · unfold negFlags
    intro ha h
    have hd := two_dvd_of_ten h
    subst ha
    by_cases h1 : q ≤ 1
    · rw [if_pos h1, if_pos rfl]
      have : (4 * m - 1 - s) % 2 = 0 := Nat.mod_eq_zero_of_dvd (dvd_trans (Dvd.intro_left _ rfl) (pow_succ 2 q ▸ hd))
      exact decide_eq_true (by omega)
    · have := four_of_pow (by omega) hd
      omega
  · unfold negFlags
    by_cases h1 : q ≤ 1
    · intro _
      exact Or.inl (two_dvd_iff.mpr (small _ (by omega) h1))
    · rw [if_neg h1]
      by_cases h2 : q < Q1
      · rw [if_pos h2]
        intro h
        have hd : 2 ^ (q - k) ∣ 4 * m := of_decide_eq_true h
        by_cases hd2 : 2 ^ q ∣ 4 * m
        · exact Or.inl (two_dvd_iff.mpr hd2)
        · right
          have hk1 : k = 1 := by
            by_contra hk0
            apply hd2
            rw [show k = 0 by omega, Nat.sub_zero] at hd
            exact hd
          rw [hk1] at hd
          obtain ⟨w, hw⟩ := hd
          have e : 2 ^ q = 2 * 2 ^ (q - 1) := by
            rw [← pow_succ']
            congr 1
            omega
          have hwo : w % 2 = 1 := by
            by_contra hne
            apply hd2
            rw [hw, e]
            exact ⟨w / 2, by
              have : w = 2 * (w / 2) := by omega
              conv_lhs => rw [this]
              ring⟩
          have hpos : 0 < 2 ^ (q - 1) := by positivity
          have hodd : (w * 5 ^ i) % 2 = 1 := by rw [Nat.mul_mod, hwo, odd_five_pow]
          have h5 : (w * 5 ^ i) % 5 = 0 := by
            obtain ⟨i', rfl⟩ : ∃ i', i = i' + 1 := ⟨i - 1, by omega⟩
            rw [pow_succ, ← mul_assoc]
            exact Nat.mul_mod_left _ _
          have hR : 4 * m * 5 ^ i / 2 ^ q = w * 5 ^ i / 2 := by
            rw [hw, e, mul_comm 2, ← Nat.div_div_eq_div_mul, mul_assoc, Nat.mul_div_cancel_left _ hpos]
          rw [hR]
          refine ⟨?_, by omega⟩
          have : 2 * (w * 5 ^ i / 2) + 1 = w * 5 ^ i := by omega
          rw [this, hw, e]
          ring
      · rw [if_neg h2]; intro h; exact absurd h (by simp)
  · intro h
    have hd := two_dvd_of_five h
    unfold negFlags
    by_cases h1 : q ≤ 1
    · rw [if_pos h1]
      cases acc <;> rfl
    · rw [if_neg h1]
      have hd' : 2 ^ (q - k) ∣ 4 * m := dvd_trans (pow_dvd_pow 2 (by omega)) hd
      by_cases h2 : q < Q1
      · rw [if_pos h2]
        exact decide_eq_true hd'
      · exact absurd hd' (hbig (by omega))

end Grisu.Ryu
