import Verif.Proofs.CacheLengthCerts
import Verif.Proofs.CacheLengthMeaning

/-! # For which exponents the number of bits is enough for the second kind of product, negative `k` -/

namespace Grisu
open Big Spec ResultFiles

namespace CacheLength

/-- The check of one certificate: `2^(e+q-p) 10^k = 2^y / 5^j`, and `C / 2^T` is `1 / 5^j` rounded up. -/
def two_cert (p y T P b d : Nat) : Bool :=
  forced (2 ^ y) fun Y => forced ((2 ^ T + P - 1) / P) fun C =>
  bif Nat.beq b 0 then Nat.ble d (2 ^ (p + 1)) && !Nat.beq (d * (Y * C) / 2 ^ T) (d * Y / P)
  else
    forced (b * Y / P) fun a => forced (d * Y / P + 1) fun c =>
    Nat.blt (Y * C * d) (c * 2 ^ T) && (Nat.beq (b * c) (a * d + 1) && Nat.blt (2 ^ (p + 1)) (b + d))

/-- Exponent number `i` of the loop for negative `k`, with `bits` bits. -/
def two_check (F : Fmt) (i bits cert : Nat) : Bool :=
  forced (log10_pow2_value (i + 4)).toNat fun j =>
  forced (F.q + i - (F.p + 2 + j)) fun y =>
  forced (bits - 1 - log2_pow10_value (-j) - j).toNat fun T =>
  decide (log10_pow2_value (i + 4) = j) && (Nat.ble j 600 && (Nat.ble i 1600 && (Nat.ble (F.p + 2 + j) (F.q + i) &&
  (decide ((T : Int) = bits - 1 - log2_pow10_value (-j) - j) &&
  (decide ((-2 + i : Int) ∈ oneBitShort F ↔ cert / 2 ^ 64 = 0) &&
  forced (5 ^ j) fun P => two_cert F.p y T P (cert / 2 ^ 64) (cert % 2 ^ 64))))))

/-- The check for consecutive exponents. -/
def all2 (check : Nat → Nat → Nat → Bool) : List Nat → List Nat → Nat → Bool
  | [], _, _ => true
  | b :: l, c :: m, i => check i b c && forced (i + 1) fun i => all2 check l m i
  | _ :: _, [], _ => false

theorem all2_spec {check : Nat → Nat → Nat → Bool} : ∀ {l m : List Nat} {i : Nat}, all2 check l m i = true →
    ∀ n (h : n < l.length), ∃ c, check (i + n) l[n] c = true
  | [], _, _, _, n, h => absurd h (by simp)
  | _ :: _, [], _, hh, _, _ => by simp [all2] at hh
  | b :: l, c :: m, i, hh, n, h => by
    simp only [all2, forced_eq, Bool.and_eq_true] at hh
    cases n with
    | zero => exact ⟨c, hh.1⟩
    | succ n =>
      obtain ⟨c', this⟩ := all2_spec hh.2 n (by simpa using h)
      exact ⟨c', by rwa [show i + 1 + n = i + (n + 1) by ring] at this⟩

theorem two32 : all2 (two_check .b32) binary32_negative_k twoCerts32 0 = true := by decide +kernel
theorem two64_0 : all2 (two_check .b64) binary64_negative_k_0 twoCerts64_0 0 = true := by decide +kernel
theorem two64_1 : all2 (two_check .b64) binary64_negative_k_1 twoCerts64_1 240 = true := by decide +kernel
theorem two64_2 : all2 (two_check .b64) binary64_negative_k_2 twoCerts64_2 480 = true := by decide +kernel
theorem two64_3 : all2 (two_check .b64) binary64_negative_k_3 twoCerts64_3 720 = true := by decide +kernel
theorem two64_4 : all2 (two_check .b64) binary64_negative_k_4 twoCerts64_4 960 = true := by decide +kernel

theorem two_rows (F : Fmt) (i : Nat) (h : i < (rows_negative F).length) :
    ∃ c, two_check F i (rows_negative F)[i] c = true := by
  cases F with
  | b32 =>
    obtain ⟨c, hc⟩ := all2_spec two32 i h
    exact ⟨c, by rwa [Nat.zero_add] at hc⟩
  | b64 =>
    have l0 : binary64_negative_k_0.length = 240 := by decide +kernel
    have l1 : binary64_negative_k_1.length = 240 := by decide +kernel
    have l2 : binary64_negative_k_2.length = 240 := by decide +kernel
    have l3 : binary64_negative_k_3.length = 240 := by decide +kernel
    have hl : i < (binary64_negative_k_0 ++ binary64_negative_k_1 ++ binary64_negative_k_2 ++ binary64_negative_k_3 ++
      binary64_negative_k_4).length := h
    show ∃ c, two_check .b64 i (binary64_negative_k_0 ++ binary64_negative_k_1 ++ binary64_negative_k_2 ++
      binary64_negative_k_3 ++ binary64_negative_k_4)[i] c = true
    simp only [List.length_append, l0, l1, l2, l3] at hl
    simp only [List.getElem_append, List.length_append, l0, l1, l2, l3]
    split_ifs
    · simpa using all2_spec two64_0 i (by omega)
    · simpa [show 240 + (i - 240) = i by omega] using all2_spec two64_1 (i - 240) (by omega)
    · simpa [show 480 + (i - 480) = i by omega] using all2_spec two64_2 (i - 480) (by omega)
    · simpa [show 720 + (i - 720) = i by omega] using all2_spec two64_3 (i - 720) (by omega)
    · simpa [show 960 + (i - 960) = i by omega] using all2_spec two64_4 (i - 960) (by omega)

/-- The two products as quotients of natural numbers. -/
theorem up_products {j y T n : Nat} {s l Q : Int} (hy : s - j = y) (hT : (T : Int) = Q - 1 - l - j) :
    ⌊(n : ℚ) * 2 ^ s * roundedUp (-j) l Q⌋ = ((n * (2 ^ y * ((2 ^ T + 5 ^ j - 1) / 5 ^ j)) / 2 ^ T : Nat) : Int) ∧
    ⌊(n : ℚ) * 2 ^ s * 10 ^ (-j : Int)⌋ = ((n * 2 ^ y / 5 ^ j : Nat) : Int) := by
  have hP : 0 < 5 ^ j := by positivity
  have h2 : (2 : ℚ) ^ s * 10 ^ (-j : Int) = 2 ^ y / 5 ^ j := by
    rw [show s = y + j by omega, zpow_add₀ (by norm_num), zpow_natCast, zpow_natCast, zpow_neg, zpow_natCast,
      show (10 : ℚ) = 2 * 5 by norm_num, mul_pow]
    field_simp
  have h3 : (10 : ℚ) ^ (-j : Int) * 2 ^ (Q - 1 - l) = ((2 ^ T : Nat) : ℚ) / ((5 ^ j : Nat) : ℚ) := by
    rw [show Q - 1 - l = T + j by omega, zpow_add₀ (by norm_num), zpow_natCast, zpow_natCast, zpow_neg, zpow_natCast,
      show (10 : ℚ) = 2 * 5 by norm_num, mul_pow]
    push_cast
    field_simp
  have h4 : ⌈((2 ^ T : Nat) : ℚ) / ((5 ^ j : Nat) : ℚ)⌉ = (((2 ^ T + 5 ^ j - 1) / 5 ^ j : Nat) : Int) := by
    have hPq : (0 : ℚ) < ((5 ^ j : Nat) : ℚ) := by exact_mod_cast hP
    set C := (2 ^ T + 5 ^ j - 1) / 5 ^ j with hC
    have a1 : C * 5 ^ j ≤ 2 ^ T + 5 ^ j - 1 := Nat.div_mul_le_self _ _
    have a2 : 2 ^ T + 5 ^ j - 1 < (C + 1) * 5 ^ j := by rw [Nat.mul_comm]; exact Nat.lt_mul_div_succ _ hP
    rw [Int.ceil_eq_iff, Int.cast_natCast]
    constructor
    · rw [lt_div_iff₀ hPq]
      have := Nat.two_pow_pos T
      have : C * 5 ^ j < 2 ^ T + 5 ^ j := by omega
      have : ((C * 5 ^ j : Nat) : ℚ) < ((2 ^ T + 5 ^ j : Nat) : ℚ) := by exact_mod_cast this
      push_cast at this ⊢
      linarith
    · rw [div_le_iff₀ hPq]
      rw [Nat.add_mul] at a2
      have : 2 ^ T ≤ C * 5 ^ j := by omega
      exact_mod_cast this
  constructor
  · have h5 : (n : ℚ) * 2 ^ s * roundedUp (-j) l Q =
        ((n * (2 ^ y * ((2 ^ T + 5 ^ j - 1) / 5 ^ j)) : Nat) : ℚ) / ((2 ^ T : Nat) : ℚ) := by
      unfold roundedUp
      rw [h3, h4, show Q - 1 - l = T + j by omega, show s = y + j by omega, zpow_add₀ (by norm_num), zpow_add₀ (by norm_num),
        zpow_natCast, zpow_natCast, zpow_natCast, Int.cast_natCast, Nat.cast_mul, Nat.cast_mul]
      push_cast
      field_simp
    rw [h5, Rat.floor_natCast_div_natCast]
    norm_cast
  · have h5 : (n : ℚ) * 2 ^ s * 10 ^ (-j : Int) = ((n * 2 ^ y : Nat) : ℚ) / ((5 ^ j : Nat) : ℚ) := by
      rw [mul_assoc, h2]; push_cast; ring
    rw [h5, Rat.floor_natCast_div_natCast]
    norm_cast

theorem two_cert_sound {p y T P b d : Nat} (hP : 0 < P) (h : two_cert p y T P b d = true) :
    (∀ n ≤ 2 ^ (p + 1), n * (2 ^ y * ((2 ^ T + P - 1) / P)) / 2 ^ T = n * 2 ^ y / P) ↔ b ≠ 0 := by
  unfold two_cert at h
  simp only [forced_eq] at h
  by_cases hb : b = 0
  · subst hb
    rw [show Nat.beq 0 0 = true from rfl, cond_true, Bool.and_eq_true, Nat.ble_eq, Bool.not_eq_true'] at h
    refine ⟨fun g => absurd (g d h.1) (Nat.ne_of_beq_eq_false h.2), fun g => absurd rfl g⟩
  · have hb' : Nat.beq b 0 = false := by
      rw [Bool.eq_false_iff]; exact fun hc => hb (Nat.eq_of_beq_eq_true hc)
    rw [hb', cond_false] at h
    simp only [Bool.and_eq_true, Nat.blt_eq] at h
    obtain ⟨h1, h2, h3⟩ := h
    have h2 := Nat.eq_of_beq_eq_true h2
    refine ⟨fun _ => hb, fun _ n hn => ?_⟩
    have hpos : 0 < b := Nat.pos_of_ne_zero hb
    set C := (2 ^ T + P - 1) / P with hC
    have a2 : 2 ^ T + P - 1 < (C + 1) * P := by rw [Nat.mul_comm]; exact Nat.lt_mul_div_succ _ hP
    have a3 : 2 ^ T ≤ C * P := by rw [Nat.add_mul] at a2; omega
    set a := b * 2 ^ y / P with ha
    have g1 : a * P ≤ 2 ^ y * b := by rw [Nat.mul_comm (2 ^ y)]; exact Nat.div_mul_le_self _ _
    have g2 : 2 ^ y * d < (d * 2 ^ y / P + 1) * P := by
      rw [Nat.mul_comm (2 ^ y), Nat.mul_comm _ P]; exact Nat.lt_mul_div_succ _ hP
    have g3 : a * 2 ^ T ≤ 2 ^ y * C * b := by
      have : a * 2 ^ T * P ≤ 2 ^ y * C * b * P := by
        calc a * 2 ^ T * P = a * P * 2 ^ T := by ring
          _ ≤ 2 ^ y * b * (C * P) := Nat.mul_le_mul g1 a3
          _ = _ := by ring
      exact Nat.le_of_mul_le_mul_right this hP
    rw [floor_eq_of_cert (Nat.two_pow_pos T) hpos g3 h1 h2 (by omega), floor_eq_of_cert hP hpos g1 g2 h2 (by omega)]

/-- The second kind of product with exactly the number of bits written. -/
theorem two_exact {F : Fmt} {i : Nat} (hi : i < (rows_negative F).length) {k l : Int}
    (hk : k = -log10_pow2_value (i + 4)) (hl : l = log2_pow10_value k) :
    Enough (roundedUp k l (rows_negative F)[i]) k (-2 + i + F.q - F.p) (2 ^ (F.p + 1)) ↔ (-2 + i : Int) ∉ oneBitShort F := by
  obtain ⟨c, hc⟩ := two_rows F i hi
  generalize (rows_negative F)[i] = bits at *
  unfold two_check at hc
  simp only [forced_eq, Bool.and_eq_true, decide_eq_true_eq, Nat.ble_eq] at hc
  obtain ⟨h1, h2, h3, h4, h5, h6, h7⟩ := hc
  generalize hj : (log10_pow2_value (i + 4)).toNat = j at *
  rw [h1] at hk
  subst hk
  subst hl
  have hy : (-2 + i + F.q - F.p : Int) - j = (F.q + i - (F.p + 2 + j) : Nat) := by omega
  generalize F.q + i - (F.p + 2 + j) = y at *
  have key := two_cert_sound (by positivity) h7
  have h6' : ((-2 + i : Int) ∉ oneBitShort F) ↔ c / 2 ^ 64 ≠ 0 := not_congr h6
  rw [h6', ← key]
  unfold Enough
  refine forall_congr' fun n => forall_congr' fun hn => ?_
  obtain ⟨e1, e2⟩ := up_products (n := n) hy h5
  rw [e1, e2]
  norm_cast

end CacheLength
end Grisu
