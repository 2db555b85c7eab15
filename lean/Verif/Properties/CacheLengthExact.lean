import Verif.Properties.CacheLength
import Verif.Proofs.CacheLengthExact

/-! # C76, exactly: for which exponents the numbers of bits are enough -/

namespace Grisu
open Big Spec ResultFiles CacheLength

/-- **C76** for negative `k`, exactly: with `10^k` rounded up to at least as many bits as the tool writes, all three kinds of
integer parts are right, except that for the exponents of `oneBitShort` (9 of binary32, 50 of binary64) exactly the number
written is not enough. -/
theorem C76_negative_iff (cfg : Cfg) (F : Fmt) (fuel : Nat) (hf : 64 ≤ fuel) (lines : List (Int × Nat)) (m : Nat)
    (h : cache_length_negative_k cfg F fuel = .ok (lines, m)) (c : Int × Nat) (hc : c ∈ lines) (k l : Int)
    (hk : IsFloorLog 10 2 (c.1 + 1 - F.alpha) (-k)) (hl : IsFloorLog 2 10 k l) (Q : Nat) (hQ : c.2 ≤ Q) :
    EnoughBits F c.1 k (roundedUp k l Q) ↔ ¬ (Q = c.2 ∧ c.1 ∈ oneBitShort F) := by
  rcases Nat.lt_or_eq_of_le hQ with hlt | heq
  · exact ⟨fun _ hc => absurd hc.1 (by omega),
      fun _ => C76_negative_one_more_partial cfg F fuel hf lines m h c hc k l hk hl Q hlt⟩
  · subst heq
    have hp := C76_negative_partial cfg F fuel hf lines m h c hc k l hk hl c.2 le_rfl
    rw [cache_length_negative cfg hf (show 60 ≤ fuel by omega) (length_negative F) (all_negative F)] at h
    cases h
    obtain ⟨i, hi, rfl⟩ := mem_lines (f := fun i => F.alpha + 3 + i) hc
    simp only at *
    have hlen := length_negative F
    have hi' : (i : Int) < 1000 := by
      have : F.max_exponent - (F.alpha + 3) + 1 < 1000 := by cases F <;> decide
      omega
    have ha : F.alpha + 3 + (i : Int) = -2 + i := by cases F <;> (unfold Fmt.alpha; ring)
    rw [ha] at hk hp ⊢
    have hk1 : IsFloorLog 10 2 (-2 + (i : Int) + 1 - F.alpha) (log10_pow2_value (i + 4)) := by
      rw [show -2 + (i : Int) + 1 - F.alpha = i + 4 by omega]
      exact log10_value (by omega) (by omega)
    have hkk := floorLog_unique (by norm_num) hk hk1
    have hj : 0 ≤ log10_pow2_value (i + 4) ∧ log10_pow2_value (i + 4) ≤ 600 := by unfold log10_pow2_value; omega
    have hll := floorLog_unique (by norm_num) hl (log2_value (e := k) (by omega) (by omega))
    have key := two_exact hi (k := k) (l := l) (by omega) hll
    refine ⟨fun g hcon => key.mp g.two_y hcon.2, fun g => ⟨hp.1, hp.2, key.mpr fun hcon => g ⟨by trivial, hcon⟩⟩⟩

-- both cases occur: binary64 at the exponents 945, with 113 bits, and 946
example : ((945, 113) : Int × Nat) ∈ binary64_negative_k.zipIdx.map (fun c => (-2 + (c.2 : Int), c.1)) ∧
    945 ∈ oneBitShort .b64 ∧ 946 ∉ oneBitShort .b64 := by decide +kernel

/-- **C76** for `k ≥ 0`, exactly: with `10^k` rounded down to at least as many bits as the tool writes, all three kinds of
integer parts are right, except at the exponent -90 of binary32, where 55 bits are written and 61 are needed. -/
theorem C76_positive_iff (cfg : Cfg) (F : Fmt) (fuel : Nat) (hf : 64 ≤ fuel) (lines : List (Int × Nat)) (m : Nat)
    (h : cache_length_positive_k cfg F fuel = .ok (lines, m)) (c : Int × Nat) (hc : c ∈ lines) (k l : Int)
    (hk : IsFloorLog 10 2 (c.1 + 1 - F.alpha) (-k)) (hl : IsFloorLog 2 10 k l) (Q : Nat) (hQ : c.2 ≤ Q) :
    EnoughBits F c.1 k (roundedDown k l Q) ↔ ¬ (F = .b32 ∧ c.1 = -90 ∧ Q < 61) := by
  by_cases hex : F = .b32 ∧ c.1 = -90
  swap
  · exact ⟨fun _ hc => hex ⟨hc.1, hc.2.1⟩, fun _ => C76_positive_partial cfg F fuel hf lines m h c hc hex k l hk hl Q hQ⟩
  obtain ⟨rfl, he⟩ := hex
  have hb := C76_positive_boundary_partial cfg .b32 fuel hf lines m h c hc k l hk hl Q hQ
  have h55 : c.2 = 55 := by
    rw [(C75_positive_k_files cfg fuel hf).1] at h
    cases h
    have : ∀ c ∈ (binary32_positive_k.zipIdx.map fun c => ((-3 - c.2 : Int), c.1)), c.1 = -90 → c.2 = 55 := by
      decide +kernel
    exact this c hc he
  rw [he] at hk hb ⊢
  rw [h55] at hQ
  have k1 : IsFloorLog 10 2 (-90 + 1 - Fmt.b32.alpha) (-26) := by unfold IsFloorLog Fmt.alpha; norm_num
  have k2 : IsFloorLog 2 10 26 86 := by unfold IsFloorLog; norm_num
  have hk26 : k = 26 := by have := floorLog_unique (by norm_num) hk k1; omega
  subst hk26
  have := floorLog_unique (by norm_num) hl k2
  subst this
  constructor
  · rintro g ⟨-, -, hq⟩
    have g2 := g.two_y 14855922 (by decide)
    have : Q = 55 ∨ Q = 56 ∨ Q = 57 ∨ Q = 58 ∨ Q = 59 ∨ Q = 60 := by omega
    revert g2
    rcases this with rfl | rfl | rfl | rfl | rfl | rfl <;> (unfold roundedDown Fmt.q Fmt.p; norm_num)
  · intro g
    have hd := down_full (k := 26) (l := 86) (Q := Q) (by push_cast; by_contra hc; exact g ⟨rfl, rfl, by omega⟩)
    push_cast at hd
    exact ⟨hb.1, hb.2, fun n _ => by rw [hd]; norm_num⟩

end Grisu
