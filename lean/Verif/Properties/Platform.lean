import Verif.Model.Platform
import Verif.Properties.Arithmetic

/-!
# The platform does not matter

Property C93.  `Platform` says which macros of the compiler are defined; `Cfg` is the parameter of the rest of the model.
-/

namespace Grisu

open Platform (Wide)

/-! ## C93 -/

theorem umul64_eq (P : Platform) {x y : Nat} (hx : x < 2 ^ 32) (hy : y < 2 ^ 32) : P.umul64 x y = umul64 x y := by
  unfold Platform.umul64 umul64 Platform.emulu
  split
  · have : x * y < 2 ^ 32 * 2 ^ 32 := Nat.mul_lt_mul'' hx hy
    unfold wrap
    rw [Nat.mod_eq_of_lt hx, Nat.mod_eq_of_lt hy, Nat.mod_eq_of_lt (by omega)]
  · rfl

theorem wrap_lt (w n : Nat) : wrap w n < 2 ^ w := Nat.mod_lt _ (Nat.two_pow_pos w)

theorem portable_upper (P : Platform) (n : Bool) (hn : P.native = false) (hi : P.intrin = false) (x y : Nat) :
    P.umul128_upper64 x y = umul128_upper64 ⟨false, n⟩ x y := by
  unfold Platform.umul128_upper64 umul128_upper64
  rw [hn, hi]
  dsimp only
  rw [if_neg (by decide), if_neg (by decide), if_neg (by decide), umul64_eq P (wrap_lt ..) (wrap_lt ..),
    umul64_eq P (wrap_lt ..) (wrap_lt ..), umul64_eq P (wrap_lt ..) (wrap_lt ..), umul64_eq P (wrap_lt ..) (wrap_lt ..)]

theorem portable_product (P : Platform) (n : Bool) (hn : P.native = false) (hi : P.intrin = false) (x y : Nat) :
    P.umul128 x y = .two (umul128 ⟨false, n⟩ x y).high (umul128 ⟨false, n⟩ x y).low := by
  unfold Platform.umul128 umul128
  rw [hn, hi]
  dsimp only
  rw [if_neg (by decide), if_neg (by decide), if_neg (by decide), umul64_eq P (wrap_lt ..) (wrap_lt ..),
    umul64_eq P (wrap_lt ..) (wrap_lt ..), umul64_eq P (wrap_lt ..) (wrap_lt ..), umul64_eq P (wrap_lt ..) (wrap_lt ..)]

theorem or_halves {h l : Nat} (hl : l < 2 ^ 64) : l ||| h * 2 ^ 64 = h * 2 ^ 64 + l := by
  rw [Nat.or_comm, Nat.mul_comm, ← Nat.two_pow_add_eq_or_of_lt hl]

theorem div_lt_of_mul {x y : Nat} (hx : x < 2 ^ 64) (hy : y < 2 ^ 64) : x * y < 2 ^ 128 ∧ x * y / 2 ^ 64 < 2 ^ 64 := by
  have h : x * y < 2 ^ 64 * 2 ^ 64 := Nat.mul_lt_mul'' hx hy
  exact ⟨by omega, Nat.div_lt_of_lt_mul h⟩

/-- **C93**: a `uint128` holds the two halves it was made of, in both representations. -/
theorem C93_uint128 (P : Platform) (high low : Nat) (hh : high < 2 ^ 64) (hl : low < 2 ^ 64) :
    (P.wide high low).high = high ∧ (P.wide high low).low = low := by
  unfold Platform.wide
  split
  · unfold Wide.high Wide.low Platform.int128_high Platform.int128_low Platform.int128_of
    dsimp only
    have e : wrap 128 low ||| wrap 128 (wrap 128 high * 2 ^ 64) = high * 2 ^ 64 + low := by
      unfold wrap
      rw [Nat.mod_eq_of_lt (by omega : low < 2 ^ 128), Nat.mod_eq_of_lt (by omega : high < 2 ^ 128),
        Nat.mod_eq_of_lt (by omega), or_halves hl]
    rw [e]
    unfold wrap
    omega
  · exact ⟨rfl, rfl⟩

/-- **C93**: on every platform the wide multiplications are exact. -/
theorem C93_multiplication (P : Platform) :
    (∀ x y, x < 2 ^ 64 → y < 2 ^ 64 → (P.umul128 x y).high = x * y / 2 ^ 64 ∧ (P.umul128 x y).low = x * y % 2 ^ 64 ∧
      P.umul128_upper64 x y = x * y / 2 ^ 64) ∧
    (∀ x high low, x < 2 ^ 64 → high < 2 ^ 64 → low < 2 ^ 64 →
      P.umul192_upper64 x (P.wide high low) = x * (high * 2 ^ 64 + low) / 2 ^ 128) ∧
    (∀ x y, x < 2 ^ 32 → y < 2 ^ 64 → P.umul96_upper32 x y = x * y / 2 ^ 64) := by
  have mul : ∀ x y, x < 2 ^ 64 → y < 2 ^ 64 →
      ((P.umul128 x y = .one (x * y) ∧ P.native = true) ∨
        (P.umul128 x y = .two (x * y / 2 ^ 64) (x * y % 2 ^ 64) ∧ P.native = false)) ∧
      P.umul128_upper64 x y = x * y / 2 ^ 64 := by
    intro x y hx hy
    obtain ⟨h1, h2⟩ := div_lt_of_mul hx hy
    cases hn : P.native
    · cases hi : P.intrin
      · obtain ⟨c1, c2, c3⟩ := (C18_wide_multiplication ⟨false, false⟩).1 x y hx hy
        refine ⟨Or.inr ⟨?_, rfl⟩, ?_⟩
        · rw [portable_product P false hn hi]
          congr 1 <;> omega
        · rw [portable_upper P false hn hi, c3]
      · refine ⟨Or.inr ⟨?_, rfl⟩, ?_⟩
        · unfold Platform.umul128 Platform.umul128_intrin
          rw [hn, hi]
          dsimp only
          rw [if_neg (by decide), if_pos rfl]
          unfold wrap
          rw [Nat.mod_eq_of_lt h2]
        · unfold Platform.umul128_upper64 Platform.umulh wrap
          rw [hn, hi, if_neg (by decide), if_pos rfl, Nat.mod_eq_of_lt h2]
    · refine ⟨Or.inl ⟨?_, rfl⟩, ?_⟩
      · unfold Platform.umul128 wrap
        rw [hn, if_pos rfl, Nat.mod_eq_of_lt h1]
      · unfold Platform.umul128_upper64 wrap
        rw [hn, if_pos rfl, Nat.mod_eq_of_lt h1, Nat.mod_eq_of_lt h2]
  refine ⟨fun x y hx hy => ?_, fun x high low hx hh hl => ?_, fun x y hx hy => ?_⟩
  · obtain ⟨h1, h2⟩ := div_lt_of_mul hx hy
    obtain ⟨⟨m, -⟩ | ⟨m, -⟩, u⟩ := mul x y hx hy
    · rw [m]
      refine ⟨?_, ?_, u⟩
      · unfold Wide.high Platform.int128_high wrap
        dsimp only
        rw [Nat.mod_eq_of_lt h2]
      · unfold Wide.low Platform.int128_low wrap
        dsimp only
    · rw [m]
      unfold Wide.high Wide.low
      exact ⟨by dsimp only, by dsimp only, u⟩
  · obtain ⟨wh, wl⟩ := C93_uint128 P high low hh hl
    obtain ⟨a1, a2⟩ := div_lt_of_mul hx hh
    obtain ⟨b1, b2⟩ := div_lt_of_mul hx hl
    have hb : x * high ≤ 340282366920938463426481119284349108225 :=
      Nat.mul_le_mul (show x ≤ 18446744073709551615 by omega) (show high ≤ 18446744073709551615 by omega)
    have e3 : x * (high * 2 ^ 64 + low) = x * high * 2 ^ 64 + x * low := by ring
    obtain ⟨m, -⟩ := mul x high hx hh
    obtain ⟨-, u⟩ := mul x low hx hl
    unfold Platform.umul192_upper64
    rw [wh, wl, u, e3]
    generalize x * high = p at *
    generalize x * low = r at *
    rcases m with ⟨m, hn⟩ | ⟨m, hn⟩
    · rw [m]
      dsimp only
      unfold Wide.high Platform.int128_high wrap
      dsimp only
      omega
    · rw [m]
      dsimp only
      split
      · unfold Platform.addcarry_u64 wrap
        dsimp only
        omega
      · unfold wrap
        split <;> omega
  · have hx' : x < 2 ^ 64 := by omega
    have hlt : x * y / 2 ^ 64 < 2 ^ 32 := by
      have h : x * y < 2 ^ 32 * 2 ^ 64 := Nat.mul_lt_mul'' hx hy
      rw [Nat.div_lt_iff_lt_mul (by norm_num)]
      omega
    unfold Platform.umul96_upper32
    split
    · rw [(mul x y hx' hy).2]
      exact Nat.mod_eq_of_lt hlt
    · have c := (C18_wide_multiplication ⟨false, false⟩).2.2 x y hx hy
      unfold umul96_upper32 at c
      rw [if_neg (by decide)] at c
      dsimp only at c ⊢
      rw [umul64_eq P hx (wrap_lt ..), umul64_eq P hx (wrap_lt ..), c]

/-- **C93**: so each multiplication has the same result on every platform as in the model's two configurations. -/
theorem C93_same_multiplication (P : Platform) (cfg : Cfg) :
    (∀ x y, x < 2 ^ 64 → y < 2 ^ 64 → (P.umul128 x y).high = (umul128 cfg x y).high ∧
      (P.umul128 x y).low = (umul128 cfg x y).low ∧ P.umul128_upper64 x y = umul128_upper64 cfg x y) ∧
    (∀ x high low, x < 2 ^ 64 → high < 2 ^ 64 → low < 2 ^ 64 →
      P.umul192_upper64 x (P.wide high low) = umul192_upper64 cfg x ⟨high, low⟩) ∧
    (∀ x y, x < 2 ^ 32 → y < 2 ^ 64 → P.umul96_upper32 x y = umul96_upper32 cfg x y) := by
  obtain ⟨p1, p2, p3⟩ := C93_multiplication P
  obtain ⟨c1, c2, c3⟩ := C18_wide_multiplication cfg
  refine ⟨fun x y hx hy => ?_, fun x h l hx hh hl => ?_, fun x y hx hy => ?_⟩
  · obtain ⟨a1, a2, a3⟩ := p1 x y hx hy
    obtain ⟨b1, b2, b3⟩ := c1 x y hx hy
    exact ⟨by omega, by omega, by rw [a3, b3]⟩
  · rw [p2 x h l hx hh hl, c2 x ⟨h, l⟩ hx hh hl]
  · rw [p3 x y hx hy, c3 x y hx hy]

/-- **C93**: the test for divisibility by a power of two does on every platform, for all arguments, what it does in one of
the model's two configurations, also where it fails: it is that of x86-64 exactly if the compiler is GCC or Clang for
x86-64 or MSVC for x64. -/
theorem C93_divisibility (P : Platform) (ndebug : Bool) (w x : Nat) (exp : Int) :
    P.divisible_by_power_of_2 ndebug w x exp =
      divisible_by_power_of_2 ⟨(P.gnu && P.x86_64) || (P.msvc && P.m_x64), ndebug⟩ w x exp := by
  unfold Platform.divisible_by_power_of_2 divisible_by_power_of_2 Platform.intrin Platform.bitScanForward cassert
  cases hg : (P.gnu && P.x86_64) <;> cases hm : (P.msvc && P.m_x64)
  · rfl
  · by_cases hx : x = 0
    · subst hx; rfl
    · simp [hx]
  · rfl
  · rfl

-- MSVC for x64, and GCC for x86-64 without 128-bit integers
example : Platform.umul192_upper64 ⟨false, false, false, true, true⟩ (2 ^ 64 - 1) (.two (2 ^ 64 - 1) (2 ^ 64 - 1)) =
      2 ^ 64 - 2 ∧
    Platform.umul192_upper64 ⟨true, false, true, false, false⟩ (2 ^ 64 - 1) (.two (2 ^ 64 - 1) (2 ^ 64 - 1)) = 2 ^ 64 - 2 ∧
    (Platform.umul128 ⟨false, false, false, true, false⟩ (2 ^ 64 - 1) (2 ^ 64 - 1)) = .two (2 ^ 64 - 2) 1 := by
  decide +kernel

example : Platform.divisible_by_power_of_2 ⟨false, false, false, true, true⟩ true 32 0 1 = .fault .ctzZero ∧
    Platform.divisible_by_power_of_2 ⟨false, false, false, true, false⟩ true 32 0 1 = .ok true ∧
    Platform.divisible_by_power_of_2 ⟨false, false, false, true, true⟩ false 64 (3 * 2 ^ 60) 60 = .ok true := by
  decide +kernel

end Grisu
