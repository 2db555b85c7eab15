import Verif.Proofs.MinMaxEuclid

/-! # The min-max Euclid procedure of the cache verification tool -/

namespace Grisu

/-- C39: for positive `a`, `b`, `N` (with `N` a 64-bit number) `minmax_euclid` terminates without
failing an assertion, and returns the minimum and the maximum of `a * n mod b` over `1 ≤ n ≤ N`
together with arguments at which they are attained.  If `b` divides `a` all residues are 0 and
the returned `argmax` may be 0, which is outside the range; otherwise it is in the range. -/
theorem C39_minmax_euclid (cfg : Cfg) (a b N : Nat) (ha : 0 < a) (hb : 0 < b) (hN : 0 < N)
    (hN64 : N < 2 ^ 64) :
    ∃ r, minmax_euclid cfg a b N = .ok r ∧
      (∀ n, 1 ≤ n → n ≤ N → r.min ≤ a * n % b ∧ a * n % b ≤ r.max) ∧
      (1 ≤ r.argmin ∧ r.argmin ≤ N ∧ a * r.argmin % b = r.min) ∧
      (r.argmax ≤ N ∧ a * r.argmax % b = r.max) ∧
      (¬ b ∣ a → 1 ≤ r.argmax) ∧
      (b ∣ a → r.min = 0 ∧ r.max = 0) := by
  obtain ⟨r, hr, g⟩ := MinMaxProof.euclid_good cfg ha hb hN hN64
  refine ⟨r, hr, fun n h1 h2 => ⟨g.min_le n h1 h2, g.le_max n h1 h2⟩,
    ⟨g.argmin1, g.argminN, g.hmin⟩, ⟨g.argmaxN, g.hmax⟩, g.argmax1, fun hd => ?_⟩
  have h0 : ∀ n, a * n % b = 0 := fun n => Nat.mod_eq_zero_of_dvd (Dvd.dvd.mul_right hd n)
  exact ⟨by rw [← g.hmin, h0], by rw [← g.hmax, h0]⟩

/-- The hypotheses are met by the numbers of the tool: 2^60 modulo 5^20 over the range of `double`. -/
example : ∃ r, minmax_euclid ⟨true, false⟩ (2 ^ 60) (5 ^ 20) (2 ^ 54) = .ok r :=
  let ⟨r, h, _⟩ := C39_minmax_euclid ⟨true, false⟩ (2 ^ 60) (5 ^ 20) (2 ^ 54) (by decide) (by decide)
    (by decide) (by decide)
  ⟨r, h⟩

/-- `argmax` is 0 when `b` divides `a`. -/
theorem C39_argmax_zero (cfg : Cfg) :
    minmax_euclid cfg 6 3 10 = .ok { min := 0, max := 0, argmin := 1, argmax := 0 } := by
  rcases cfg with ⟨_ | _, _ | _⟩ <;> decide +kernel

end Grisu
