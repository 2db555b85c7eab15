import Verif.Properties.MinMaxEuclid
import Verif.Proofs.MinMaxMultiword

/-! # C39 on multi-word integers

`C39_minmax_euclid` is on numbers of any size.  The code works on `bigint`s, whose division and product go wrong for some
operands of more than one element (C57, C58). -/

namespace Grisu
open Big CacheLength

/-- **C39** on multi-word integers of at least two elements, with values below `2^63`: 65 iterations are enough, no
assertion fails, no array is read or written outside its bounds, and the minimum, the maximum and the two arguments are as
in C39.  What is missing is larger values, see `C39_multiword_wrong`. -/
theorem C39_multiword_partial (cfg : Cfg) (size a b N fuel : Nat) (hs : 2 ≤ size) (hsz : size < 2 ^ 57) (ha : 0 < a)
    (ha63 : a < 2 ^ 63) (hb : 0 < b) (hb63 : b < 2 ^ 63) (hN : 0 < N) (hN64 : N < 2 ^ 64) (hf : 65 ≤ fuel) :
    ∃ z, big_minmax_euclid cfg fuel (bigOf size a) (bigOf size b) N = .ok z ∧
      z.min.elements.length = size ∧ z.max.elements.length = size ∧
      (∀ n, 1 ≤ n → n ≤ N → val z.min.elements ≤ a * n % b ∧ a * n % b ≤ val z.max.elements) ∧
      (1 ≤ z.argmin ∧ z.argmin ≤ N ∧ a * z.argmin % b = val z.min.elements) ∧
      (z.argmax ≤ N ∧ a * z.argmax % b = val z.max.elements) ∧
      (¬ b ∣ a → 1 ≤ z.argmax) := by
  have lim : ∀ {v : Nat}, v < 2 ^ 63 → v < 2 ^ (64 * size) := fun h =>
    lt_two hs (lt_trans h (by norm_num))
  obtain ⟨r, z, h1, h2, g, -⟩ := residues_good cfg (f := fuel) (fuel := 65) hs hsz ha (lim ha63) hb (lim hb63) hN hN64
    (by omega) hf (residues_small (size := size) hb63 hN64 63 a b 1 0 65 ha63 le_rfl ha ha63 hb le_rfl le_rfl hN (Nat.zero_le _))
  have hmin : r.min < 2 ^ (64 * size) := by
    rw [← g.hmin]; exact lim (lt_trans (Nat.mod_lt _ hb) hb63)
  have hrep := rep_bigOf (show 0 < size by omega) hmin
  have hm : val z.min.elements = r.min := by rw [h2.min]; exact hrep.val
  have hM : val z.max.elements = r.max := h2.max.val
  refine ⟨z, h1, by rw [h2.min]; exact hrep.len, h2.max.len, ?_, ?_, ?_, ?_⟩
  · intro n n1 n2
    rw [hm, hM]; exact ⟨g.min_le n n1 n2, g.le_max n n1 n2⟩
  · rw [h2.argmin, hm]; exact ⟨g.argmin1, g.argminN, g.hmin⟩
  · rw [h2.argmax, hM]; exact ⟨g.argmaxN, g.hmax⟩
  · rw [h2.argmax]; exact g.argmax1

/-- The hypotheses hold of the residues of `2^60 * n` modulo `5^20`, in three elements. -/
example : ∃ z, big_minmax_euclid ⟨true, false⟩ 65 (bigOf 3 (2 ^ 60)) (bigOf 3 (5 ^ 20)) (2 ^ 54) = .ok z ∧ 1 ≤ z.argmax :=
  let ⟨z, h, _, _, _, _, _, k⟩ := C39_multiword_partial ⟨true, false⟩ 3 (2 ^ 60) (5 ^ 20) (2 ^ 54) 65 (by decide) (by decide)
    (by decide) (by decide) (by decide) (by decide) (by decide) (by decide) (by decide)
  ⟨z, h, k (by decide)⟩

/-- Above that the result can be wrong: the only residue of `2^65 * n` modulo 3 with `1 ≤ n ≤ 1` is 2, but 1 is returned
both as the minimum and as the maximum. -/
theorem C39_multiword_wrong (cfg : Cfg) :
    (∃ z, big_minmax_euclid cfg 65 (bigOf 2 (2 ^ 65)) (bigOf 2 3) 1 = .ok z ∧
      val z.min.elements = 1 ∧ val z.max.elements = 1 ∧ z.argmin = 1 ∧ z.argmax = 1) ∧ 2 ^ 65 * 1 % 3 = 2 := by
  refine ⟨?_, by norm_num⟩
  have h : (match big_minmax_euclid cfg 65 (bigOf 2 (2 ^ 65)) (bigOf 2 3) 1 with
      | .ok z => decide (val z.min.elements = 1 ∧ val z.max.elements = 1 ∧ z.argmin = 1 ∧ z.argmax = 1)
      | .fault _ => false) = true := by
    rcases cfg with ⟨_ | _, _ | _⟩ <;> decide +kernel
  split at h
  · rename_i z hz
    exact ⟨z, hz, of_decide_eq_true h⟩
  · cases h

end Grisu
