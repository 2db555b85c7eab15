import Verif.Proofs.RyuSizeExp
import Verif.Proofs.RyuSizeFloat
import Verif.Proofs.RyuMain

/-! # The whole conversion with the computed powers: the same decimal for every number -/

namespace Grisu.Ryu

theorem or_pow {p f : Nat} (h : f < 2 ^ p) : 2 ^ p ||| f = 2 ^ p + f := by
  have := Nat.two_pow_add_eq_or_of_lt h 1
  rw [mul_one] at this
  exact this.symm

/-! ## The inputs at which the third step differs -/

theorem d2d_size_at_low (c : Config) : d2d_size c (7233432835334966 - 2 ^ 52) 472 = d2d c (7233432835334966 - 2 ^ 52) 472 := by
  rcases c with ⟨_ | _ | _, _ | _, _ | _, _ | _⟩ <;> decide +kernel

theorem d2d_size_at_high (c : Config) : d2d_size c (8385515147034757 - 2 ^ 52) 1797 = d2d c (8385515147034757 - 2 ^ 52) 1797 := by
  rcases c with ⟨_ | _ | _, _ | _, _ | _, _ | _⟩ <;> decide +kernel

theorem f2d_size_at (c : Config) : f2d_size c (16226928 - 2 ^ 23) 11 = f2d c (16226928 - 2 ^ 23) 11 ∧
    f2d_size c (15980504 - 2 ^ 23) 37 = f2d c (15980504 - 2 ^ 23) 37 ∧
    f2d_size c (14855922 - 2 ^ 23) 69 = f2d c (14855922 - 2 ^ 23) 69 ∧
    f2d_size c (14855922 - 2 ^ 23) 70 = f2d c (14855922 - 2 ^ 23) 70 := by
  rcases c with ⟨_ | _ | _, _ | _, _ | _, _ | _⟩ <;> decide +kernel

/-! ## Double precision -/

theorem d2d_size_eq (c : Config) {f E : Nat} (hf : f < 2 ^ 52) (hE : E < 2047) (hne : E ≠ 0 ∨ f ≠ 0) :
    d2d_size c f E = d2d c f E := by
  by_cases a1 : E = 472 ∧ f = 7233432835334966 - 2 ^ 52
  · rw [a1.1, a1.2, d2d_size_at_low]
  by_cases a2 : E = 1797 ∧ f = 8385515147034757 - 2 ^ 52
  · rw [a2.1, a2.2, d2d_size_at_high]
  unfold d2d_size d2d
  dsimp only
  rw [or_pow hf]
  have hs : (if f ≠ 0 ∨ E ≤ 1 then 1 else 0) ≤ 1 := by split <;> omega
  have hedge : (if f ≠ 0 ∨ E ≤ 1 then 1 else 0) = 0 → (if E = 0 then f else 2 ^ 52 + f) = 2 ^ 52 := by
    intro h
    split at h
    · omega
    · rw [if_neg (by omega)]; omega
  have hm0 : 0 < (if E = 0 then f else 2 ^ 52 + f) := by split <;> omega
  have hm : (if E = 0 then f else 2 ^ 52 + f) < 2 ^ 53 := by split <;> omega
  generalize hmE : (if E = 0 then f else 2 ^ 52 + f) = m at hedge hm0 hm ⊢
  generalize heE : (if E = 0 then (1 : Int) - 1023 - 52 - 2 else (E : Int) - 1023 - 52 - 2) = e
  have x1 : e = -605 → m ≠ 7233432835334966 := by
    intro h hh
    rw [← heE] at h
    split at h
    · omega
    · rw [if_neg (by omega)] at hmE; omega
  have x2 : e = 720 → m ≠ 8385515147034757 := by
    intro h hh
    rw [← heE] at h
    split at h
    · omega
    · rw [if_neg (by omega)] at hmE; omega
  have hr : -1076 ≤ e ∧ e ≤ 970 := by
    rw [← heE]; split <;> omega
  by_cases h : e ≥ 0
  · rw [if_pos h, if_pos h, d_step3_pos_size_eq c hm0 hm hs hedge h hr.2 x2]
  · rw [if_neg h, if_neg h, d_step3_neg_size_eq c hm0 hm hs hedge hr.1 (by omega) x1]

/-! ## Single precision -/

theorem f_size_table (c : Config) (hf : c.floatTable = true) (f E : Nat) : f2d_size c f E = f2d c f E := by
  have a : float_pow5_inv_bitcount_size c = float_pow5_inv_bitcount c := by
    unfold float_pow5_inv_bitcount_size float_pow5_inv_bitcount; rw [if_pos hf, if_pos hf]
  have b : float_pow5_bitcount_size c = float_pow5_bitcount c := by
    unfold float_pow5_bitcount_size float_pow5_bitcount; rw [if_pos hf, if_pos hf]
  have d : mulPow5InvDivPow2_size c = mulPow5InvDivPow2 c := by
    funext m q j
    unfold mulPow5InvDivPow2_size mulPow5InvDivPow2; rw [if_pos hf, if_pos hf]
  have g : mulPow5divPow2_size c = mulPow5divPow2 c := by
    funext m q j
    unfold mulPow5divPow2_size mulPow5divPow2; rw [if_pos hf, if_pos hf]
  have p : f_step3_pos_size c = f_step3_pos c := by
    funext m e s acc
    unfold f_step3_pos_size f_step3_pos; rw [a, d]
  have n : f_step3_neg_size c = f_step3_neg c := by
    funext m e s acc
    unfold f_step3_neg_size f_step3_neg; rw [b, g]
  unfold f2d_size f2d; rw [p, n]

theorem f2d_size_eq (c : Config) {f E : Nat} (hf : f < 2 ^ 23) (hE : E < 255) (hne : E ≠ 0 ∨ f ≠ 0) :
    f2d_size c f E = f2d c f E := by
  by_cases ht : c.floatTable = true
  · exact f_size_table c ht f E
  have ht : c.floatTable = false := by simpa using ht
  obtain ⟨y1, y2, y3, y4⟩ := f2d_size_at c
  by_cases a1 : E = 11 ∧ f = 16226928 - 2 ^ 23
  · rw [a1.1, a1.2, y1]
  by_cases a2 : E = 37 ∧ f = 15980504 - 2 ^ 23
  · rw [a2.1, a2.2, y2]
  by_cases a3 : E = 69 ∧ f = 14855922 - 2 ^ 23
  · rw [a3.1, a3.2, y3]
  by_cases a4 : E = 70 ∧ f = 14855922 - 2 ^ 23
  · rw [a4.1, a4.2, y4]
  unfold f2d_size f2d
  dsimp only
  rw [or_pow hf]
  have hs : (if f ≠ 0 ∨ E ≤ 1 then 1 else 0) ≤ 1 := by split <;> omega
  have hedge : (if f ≠ 0 ∨ E ≤ 1 then 1 else 0) = 0 → (if E = 0 then f else 2 ^ 23 + f) = 2 ^ 23 := by
    intro h
    split at h
    · omega
    · rw [if_neg (by omega)]; omega
  have hm0 : 0 < (if E = 0 then f else 2 ^ 23 + f) := by split <;> omega
  have hm : (if E = 0 then f else 2 ^ 23 + f) < 2 ^ 24 := by split <;> omega
  generalize hmE : (if E = 0 then f else 2 ^ 23 + f) = m at hedge hm0 hm ⊢
  generalize heE : (if E = 0 then (1 : Int) - 127 - 23 - 2 else (E : Int) - 127 - 23 - 2) = e
  have hmin : e = -151 → (if f ≠ 0 ∨ E ≤ 1 then 1 else 0) = 1 := by
    intro h
    rw [← heE] at h
    rw [if_pos]
    split at h <;> omega
  have hx : ¬ gBad e m := by
    intro h
    unfold gBad at h
    rw [← heE] at h
    by_cases hz : E = 0
    · rw [if_pos hz] at h; omega
    · rw [if_neg hz] at h hmE
      omega
  have hr : -151 ≤ e ∧ e ≤ 102 := by
    rw [← heE]; split <;> omega
  by_cases h : e ≥ 0
  · rw [if_pos h, if_pos h, f_step3_pos_size_eq c ht hm0 hm hs h hr.2]
  · rw [if_neg h, if_neg h, f_step3_neg_size_eq c ht hm0 hm hs hmin hr.1 (by omega) hx]

end Grisu.Ryu
