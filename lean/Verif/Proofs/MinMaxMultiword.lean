import Verif.Proofs.CacheLength

/-! # `minmax_euclid` on multi-word integers of one element -/

namespace Grisu
namespace CacheLength

open Big

theorem keeps_small {k y : Nat} (hk : k < 2 ^ 64) (hy : y < 2 ^ 64) : ∀ count i, 1 ≤ i → keeps k y count i = true
  | 0, _, _ => rfl
  | count + 1, i, hi => by
    have h1 : k * (y % 2 ^ (64 * (i + 1))) < 2 ^ (64 * (i + 1)) := by
      have h2 : k * y < 2 ^ 64 * 2 ^ 64 := Nat.mul_lt_mul'' hk hy
      have h3 : 2 ^ 64 * 2 ^ 64 ≤ 2 ^ (64 * (i + 1)) := by
        rw [← pow_add]; exact Nat.pow_le_pow_right (by norm_num) (by omega)
      exact lt_of_le_of_lt (Nat.mul_le_mul_left _ (Nat.mod_le _ _)) (lt_of_lt_of_le h2 h3)
    simp [keeps, h1, keeps_small hk hy count (i + 1) (by omega)]

/-- The division with a positive remainder, on numbers. -/
theorem positive_div {x y : Nat} (hx : 0 < x) (hy : 0 < y) :
    (bif Nat.beq (x % y) 0 then x / y - 1 else x / y) * y + (bif Nat.beq (x % y) 0 then y else x % y) = x ∧
      0 < (bif Nat.beq (x % y) 0 then y else x % y) ∧ (bif Nat.beq (x % y) 0 then y else x % y) ≤ y := by
  have hd := Nat.div_add_mod x y
  by_cases h : x % y = 0
  · have hq : 0 < x / y := by
      rcases Nat.eq_zero_or_pos (x / y) with g | g
      · rw [g, h] at hd; omega
      · exact g
    have hb : Nat.beq (x % y) 0 = true := by simp [h]
    simp only [hb, cond_true]
    refine ⟨?_, hy, le_rfl⟩
    rw [Nat.sub_mul, Nat.mul_comm (x / y)]
    have : y ≤ y * (x / y) := Nat.le_mul_of_pos_right y hq
    omega
  · have hb : Nat.beq (x % y) 0 = false := by
      rw [Bool.eq_false_iff]; intro g; exact h (Nat.eq_of_beq_eq_true g)
    simp only [hb, cond_false]
    refine ⟨?_, Nat.pos_of_ne_zero h, (Nat.mod_lt _ hy).le⟩
    rw [Nat.mul_comm]; exact hd

/-- Below `2^63` all checks succeed, and the number of iterations is at most the number of bits plus two. -/
theorem residues_small {size b N : Nat} (hb : b < 2 ^ 63) (hN : N < 2 ^ 64) :
    ∀ n ai bi si ui fuel, ai < 2 ^ n → n + 2 ≤ fuel → 0 < ai → ai < 2 ^ 63 → 0 < bi → bi ≤ b → 1 ≤ si → si ≤ N → ui ≤ N →
      residues size b N (fun _ _ => true) fuel ai bi si ui = true := by
  -- a pair of equal numbers is the end
  have last : ∀ ai si ui fuel, 1 ≤ fuel → 0 < ai → ai < 2 ^ 63 → ai ≤ b → 1 ≤ si → si ≤ N → ui ≤ N →
      residues size b N (fun _ _ => true) fuel ai ai si ui = true := by
    intro ai si ui fuel hf ha ha63 hab hs hsN huN
    obtain ⟨f, rfl⟩ : ∃ f, fuel = f + 1 := ⟨fuel - 1, by omega⟩
    have h1 : Nat.blt ai (2 ^ 63 * ai) = true := by simp; omega
    have h2 : ai / ai = 1 := Nat.div_self ha
    have h3 : ai % ai = 0 := Nat.mod_self ai
    simp only [residues, forced_eq, h1, h2, h3, Bool.true_and]
    have h4 : Nat.blt N (0 * si + ui) = false := by rw [Bool.eq_false_iff]; simp; omega
    have h5 : Nat.blt N (0 * (0 * si + ui) + si) = false := by rw [Bool.eq_false_iff]; simp; omega
    have hz : Nat.beq 0 0 = true := rfl
    simp only [hz, cond_true, Nat.sub_self, h4, cond_false, h1, h2, h3, h5, Bool.true_and, Nat.beq_refl, Bool.and_self]
    cases Nat.blt N (0 * (0 * si + ui) + si + (0 * si + ui)) <;> rfl
  intro n
  induction n with
  | zero => intro ai bi si ui fuel h1 _ h2; omega
  | succ n ih =>
    intro ai bi si ui fuel han hf ha ha63 hbi hbb hs hsN huN
    obtain ⟨f, rfl⟩ : ∃ f, fuel = f + 1 := ⟨fuel - 1, by omega⟩
    have h1 : Nat.blt bi (2 ^ 63 * ai) = true := by
      rw [Nat.blt_eq]
      exact lt_of_lt_of_le (lt_of_le_of_lt hbb hb) (Nat.le_mul_of_pos_right _ ha)
    simp only [residues, forced_eq, h1, Bool.true_and]
    obtain ⟨d1, d2, d3⟩ := positive_div hbi ha
    generalize (bif Nat.beq (bi % ai) 0 then bi / ai - 1 else bi / ai) = qi at *
    generalize (bif Nat.beq (bi % ai) 0 then ai else bi % ai) = nb at *
    by_cases hgt : N < qi * si + ui
    · have hbl : Nat.blt N (qi * si + ui) = true := by simpa using hgt
      have hq : 1 ≤ qi := by
        rcases Nat.eq_zero_or_pos qi with g | g
        · rw [g] at hgt; omega
        · exact g
      have hai : ai ≤ bi := by
        have : ai ≤ qi * ai := Nat.le_mul_of_pos_left _ hq
        omega
      have hm : (N - ui) / si ≤ qi := by
        refine le_of_lt ((Nat.div_lt_iff_lt_mul (by omega)).mpr ?_)
        omega
      have hk : keeps ((N - ui) / si) ai size 1 = true :=
        keeps_small (lt_of_le_of_lt (Nat.div_le_self _ _) (by omega)) (by omega) _ _ le_rfl
      have hmul : (N - ui) / si * ai ≤ qi * ai := Nat.mul_le_mul_right _ hm
      have hx : Nat.ble (b - bi + (N - ui) / si * ai) b = true := by rw [Nat.ble_eq]; omega
      have hy : Nat.ble ai b = true := by rw [Nat.ble_eq]; omega
      simp only [hbl, cond_true, hk, hx, hy, Bool.or_true, Bool.and_self]
    · have hbl : Nat.blt N (qi * si + ui) = false := by rw [Bool.eq_false_iff]; simpa using hgt
      have h2 : Nat.blt ai (2 ^ 63 * nb) = true := by
        rw [Nat.blt_eq]
        exact lt_of_lt_of_le ha63 (Nat.le_mul_of_pos_right _ d2)
      simp only [hbl, cond_false, h2, Bool.true_and]
      obtain ⟨c1, c2, c3⟩ := positive_div ha d2
      generalize hnu : qi * si + ui = nu at *
      generalize (bif Nat.beq (ai % nb) 0 then ai / nb - 1 else ai / nb) = pi at *
      generalize (bif Nat.beq (ai % nb) 0 then nb else ai % nb) = na at *
      have hnbb : nb ≤ b := by
        have := Nat.zero_le (qi * ai); omega
      by_cases hgt2 : N < pi * nu + si
      · have hbl2 : Nat.blt N (pi * nu + si) = true := by simpa using hgt2
        have hnu0 : 0 < nu := by
          rcases Nat.eq_zero_or_pos nu with g | g
          · rw [g] at hgt2; omega
          · exact g
        have hm : (N - si) / nu ≤ pi := by
          refine le_of_lt ((Nat.div_lt_iff_lt_mul hnu0).mpr ?_)
          omega
        have hk : keeps ((N - si) / nu) nb size 1 = true :=
          keeps_small (lt_of_le_of_lt (Nat.div_le_self _ _) (by omega)) (by omega) _ _ le_rfl
        have hmul : (N - si) / nu * nb ≤ pi * nb := Nat.mul_le_mul_right _ hm
        have hx : Nat.ble ((N - si) / nu * nb) ai = true := by rw [Nat.ble_eq]; omega
        simp only [hbl2, cond_true, hk, hx, Bool.and_self]
      · have hbl2 : Nat.blt N (pi * nu + si) = false := by rw [Bool.eq_false_iff]; simpa using hgt2
        simp only [hbl2, cond_false]
        by_cases hsame : (Nat.beq nb bi && Nat.beq na ai) = true
        · simp [hsame]
        · rw [Bool.not_eq_true] at hsame
          simp only [hsame, cond_false]
          have hs2 : 1 ≤ pi * nu + si := by omega
          by_cases hna : 2 * na ≤ ai
          · refine ih na nb _ _ f ?_ (by omega) c2 (by omega) d2 hnbb hs2 (by omega) (by omega)
            rw [pow_succ] at han; omega
          · -- the remainder is more than half only if both numbers are the same
            have heq : na = nb := by
              rcases Nat.eq_zero_or_pos pi with g | g
              · rw [g] at c1; omega
              · have : nb ≤ pi * nb := Nat.le_mul_of_pos_left _ g
                omega
            rw [heq]
            exact last nb _ _ f (by omega) d2 (by omega) hnbb hs2 (by omega) (by omega)

end CacheLength
end Grisu
