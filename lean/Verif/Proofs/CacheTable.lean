import Verif.Proofs.Logs
import Verif.Proofs.ExpFacts
import Mathlib.Algebra.Order.Floor.Semifield

/-! # The cache entries are rounded powers of ten -/

namespace Grisu

/-- Number of entries: `max_k - min_k + 1`. -/
def cacheSize : Fmt → Nat
  | .b32 => 77
  | .b64 => 616

/-- Exponent of the power of two that normalises `10^k`. -/
def normExp (F : Fmt) (k : Int) : Int := 2 * F.q - 1 - log2_pow10_value k

/-- `10^k * 2^normExp`, rounded down. -/
def floorPow (F : Fmt) (k : Int) : Nat :=
  2 ^ (normExp F k).toNat * 10 ^ k.toNat / (2 ^ (-normExp F k).toNat * 10 ^ (-k).toNat)

theorem cacheSize_eq (F : Fmt) : (cacheSize F : Int) = F.max_k - F.min_k + 1 := by cases F <;> decide

theorem exponent_range (F : Fmt) : -1085 ≤ F.min_exponent ∧ F.max_exponent ≤ 960 := by
  cases F <;> decide

def cacheCheck (F : Fmt) (i : Nat) : Bool :=
  let k := F.min_k + i
  decide (cache_lookup F i = some (if 0 ≤ k then floorPow F k else floorPow F k + 1)) &&
  decide (2 ^ (2 * F.q - 1) ≤ floorPow F k) && decide (floorPow F k < 2 ^ (2 * F.q) - 1)

theorem cacheCheck_all (F : Fmt) : ∀ i ∈ List.range (cacheSize F), cacheCheck F i = true := by
  cases F <;> decide +kernel

theorem cache_none (F : Fmt) : ∀ i, cacheSize F ≤ i → cache_lookup F i = none := by
  intro i hi
  have : (cache32.length = 77) ∧ (cache64.length = 616) := by decide +kernel
  cases F
  · simp only [cache_lookup]
    exact List.getElem?_eq_none (by simpa [this.1, cacheSize] using hi)
  · simp only [cache_lookup]
    rw [List.getElem?_eq_none (by simpa [this.2, cacheSize] using hi)]
    rfl

theorem floorPow_eq (F : Fmt) (k : Int) : floorPow F k = ⌊(10 : ℚ) ^ k * 2 ^ normExp F k⌋₊ := by
  have hz : ∀ (b : ℚ) (n : Int), b ≠ 0 → b ^ n = b ^ n.toNat / b ^ (-n).toNat := by
    intro b n hb
    rw [← zpow_natCast, ← zpow_natCast, ← zpow_sub₀ hb]
    congr 1
    omega
  unfold floorPow
  rw [← Nat.floor_div_eq_div (K := ℚ)]
  congr 1
  rw [hz 10 k (by norm_num), hz 2 (normExp F k) (by norm_num)]
  push_cast
  rw [div_mul_div_comm, mul_comm, mul_comm ((10 : ℚ) ^ (-k).toNat)]

theorem get_cache_ok (cfg : Cfg) (F : Fmt) {k : Int} {c : Nat} (h1 : F.min_k ≤ k) (h2 : k ≤ F.max_k)
    (h : cache_lookup F (k - F.min_k).toNat = some c) : get_cache cfg F k = .ok c := by
  unfold get_cache
  rw [cassert_true (by simp; omega)]
  simp only [Exec.ok_bind]
  rw [if_neg (by omega), h]

theorem phi_eq (e : Int) : ((phiNum e : ℚ) / phiDen e) = (2 : ℚ) ^ e * 10 ^ (-mkOf e) := by
  have hz : ∀ (b : ℚ) (n : Int), b ≠ 0 → b ^ n = b ^ n.toNat / b ^ (-n).toNat := by
    intro b n hb
    rw [← zpow_natCast, ← zpow_natCast, ← zpow_sub₀ hb]
    congr 1
    omega
  have h10 : (10 : ℚ) ^ (-mkOf e) = 2 ^ (-mkOf e) * 5 ^ (-mkOf e) := by
    rw [← mul_zpow]; norm_num
  rw [h10, ← mul_assoc, ← zpow_add₀ (by norm_num : (2 : ℚ) ≠ 0), hz 2 _ (by norm_num),
    hz 5 _ (by norm_num), div_mul_div_comm]
  unfold phiNum phiDen
  push_cast
  rw [show e + -mkOf e = e - mkOf e by ring, neg_sub, neg_neg]

end Grisu
