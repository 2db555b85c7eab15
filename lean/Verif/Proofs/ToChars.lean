import Verif.Model.ToChars
import Verif.SpecText
import Verif.Proofs.Bounds

/-! # The text written by `fp_to_chars_impl` -/

namespace Grisu

open Spec (sci)

/-! ## Writes -/

theorem put_mid (X Z : Buffer) (y : Option Char) (i : Int) (ch : Char) (h : i = X.length) :
    put (X ++ y :: Z) i ch = .ok (X ++ some ch :: Z) := by
  subst h
  unfold put
  rw [if_pos ⟨by omega, by simp⟩]
  simp

theorem putList_mid (X Y Z : Buffer) (cs : List Char) (i : Int) (h : i = X.length) (hy : Y.length = cs.length) :
    putList (X ++ (Y ++ Z)) i cs = .ok (X ++ (cs.map some ++ Z)) := by
  induction cs generalizing X Y i with
  | nil =>
    have : Y = [] := by simpa using hy
    subst this
    rfl
  | cons c cs ih =>
    cases Y with
    | nil => simp at hy
    | cons y Y =>
      unfold putList
      rw [List.cons_append, put_mid _ _ _ _ _ h]
      simp only [Exec.ok_bind]
      have := ih (X ++ [some c]) Y (i + 1) (by simp; omega) (by simpa using hy)
      simpa using this

theorem radix_all : ∀ c ∈ List.range 100, radix_at (c * 2) = .ok (Nat.digitChar (c / 10)) ∧
    radix_at (c * 2 + 1) = .ok (Nat.digitChar (c % 10)) := by decide +kernel

theorem radix_lo {c : Nat} (h : c < 100) : radix_at (c * 2) = .ok (Nat.digitChar (c / 10)) :=
  (radix_all c (List.mem_range.mpr h)).1

theorem radix_hi {c : Nat} (h : c < 100) : radix_at (c * 2 + 1) = .ok (Nat.digitChar (c % 10)) :=
  (radix_all c (List.mem_range.mpr h)).2

theorem digit_char {n : Nat} (h : n < 10) : Char.ofNat (48 + n) = Nat.digitChar n := by
  have : ∀ n ∈ List.range 10, Char.ofNat (48 + n) = Nat.digitChar n := by decide
  exact this n (List.mem_range.mpr h)

theorem copy2_mid (X Y Z : Buffer) (i : Int) {c t : Nat} (hc : c < 100) (ht : t = c * 2) (h : i = X.length)
    (hy : Y.length = 2) :
    copy2 (X ++ (Y ++ Z)) i t =
      .ok (X ++ ([some (Nat.digitChar (c / 10)), some (Nat.digitChar (c % 10))] ++ Z)) := by
  subst ht
  unfold copy2
  rw [radix_lo hc]
  simp only [Exec.ok_bind]
  rw [radix_hi hc]
  simp only [Exec.ok_bind]
  exact putList_mid X Y Z _ i h (by simpa using hy)

/-! ## The low digits of a number -/

/-- The low `k` digits of `n`. -/
def low (n : Nat) : Nat → List Char
  | 0 => []
  | k + 1 => low (n / 10) k ++ [Nat.digitChar (n % 10)]

@[simp] theorem low_length (n k : Nat) : (low n k).length = k := by
  induction k generalizing n with
  | zero => rfl
  | succ k ih => simp [low, ih]

theorem low_add (n i j : Nat) : low n (j + i) = low (n / 10 ^ i) j ++ low n i := by
  induction i generalizing n with
  | zero => simp [low]
  | succ i ih =>
    rw [← Nat.add_assoc, low, ih, low, Nat.div_div_eq_div_mul, pow_succ', List.append_assoc]

theorem low_two {n c : Nat} (h : n % 100 = c) : low n 2 = [Nat.digitChar (c / 10), Nat.digitChar (c % 10)] := by
  subst h
  simp only [low, List.nil_append, List.cons_append]
  rw [show n / 10 % 10 = n % 100 / 10 by omega, show n % 10 = n % 100 % 10 by omega]

/-- The digits of a number. -/
theorem toDigits_eq_low {s k : Nat} (h1 : 10 ^ k ≤ s) (h2 : s < 10 ^ (k + 1)) :
    Nat.toDigits 10 s = Nat.digitChar (s / 10 ^ k) :: low s k := by
  induction k generalizing s with
  | zero =>
    rw [Nat.toDigits_of_lt_base (by simpa using h2)]
    simp [low]
  | succ k ih =>
    have : 10 ≤ s := le_trans (by rw [pow_succ']; have := Nat.one_le_pow k 10 (by norm_num); omega) h1
    rw [Nat.toDigits_of_base_le (by norm_num) this, ih, low, Nat.div_div_eq_div_mul, ← pow_succ']
    · rfl
    · rw [Nat.le_div_iff_mul_le (by norm_num), ← pow_succ]; exact h1
    · rw [Nat.div_lt_iff_lt_mul (by norm_num), ← pow_succ]; exact h2

theorem length_toDigits_eq {s k : Nat} (h1 : 10 ^ k ≤ s) (h2 : s < 10 ^ (k + 1)) :
    (Nat.toDigits 10 s).length = k + 1 := by
  rw [toDigits_eq_low h1 h2]; simp

/-! ## `decimal_length` -/

theorem decimal_length_spec (cfg : Cfg) (F : Fmt) {s : Nat} (h0 : 0 < s) (h : s < 10 ^ maxDigits F) :
    ∃ k, decimal_length cfg F s = .ok (k + 1) ∧ 10 ^ k ≤ s ∧ s < 10 ^ (k + 1) ∧ k < maxDigits F := by
  cases F
  · simp only [maxDigits] at *
    simp only [decimal_length]
    rw [cassert_true (by simp; omega)]
    simp only [Exec.ok_bind]
    by_cases h8 : s ≥ 100000000
    · rw [if_pos h8]; exact ⟨8, rfl, by omega, by omega, by omega⟩
    rw [if_neg h8]
    by_cases h7 : s ≥ 10000000
    · rw [if_pos h7]; exact ⟨7, rfl, by omega, by omega, by omega⟩
    rw [if_neg h7]
    clear h8
    by_cases h6 : s ≥ 1000000
    · rw [if_pos h6]; exact ⟨6, rfl, by omega, by omega, by omega⟩
    rw [if_neg h6]
    clear h7
    by_cases h5 : s ≥ 100000
    · rw [if_pos h5]; exact ⟨5, rfl, by omega, by omega, by omega⟩
    rw [if_neg h5]
    clear h6
    by_cases h4 : s ≥ 10000
    · rw [if_pos h4]; exact ⟨4, rfl, by omega, by omega, by omega⟩
    rw [if_neg h4]
    clear h5
    by_cases h3 : s ≥ 1000
    · rw [if_pos h3]; exact ⟨3, rfl, by omega, by omega, by omega⟩
    rw [if_neg h3]
    clear h4
    by_cases h2 : s ≥ 100
    · rw [if_pos h2]; exact ⟨2, rfl, by omega, by omega, by omega⟩
    rw [if_neg h2]
    clear h3
    by_cases h1 : s ≥ 10
    · rw [if_pos h1]; exact ⟨1, rfl, by omega, by omega, by omega⟩
    rw [if_neg h1]
    clear h2
    exact ⟨0, rfl, by omega, by omega, by omega⟩
  · simp only [maxDigits] at *
    simp only [decimal_length]
    rw [cassert_true (by simp; omega)]
    simp only [Exec.ok_bind]
    by_cases h16 : s ≥ 10000000000000000
    · rw [if_pos h16]; exact ⟨16, rfl, by omega, by omega, by omega⟩
    rw [if_neg h16]
    by_cases h15 : s ≥ 1000000000000000
    · rw [if_pos h15]; exact ⟨15, rfl, by omega, by omega, by omega⟩
    rw [if_neg h15]
    clear h16
    by_cases h14 : s ≥ 100000000000000
    · rw [if_pos h14]; exact ⟨14, rfl, by omega, by omega, by omega⟩
    rw [if_neg h14]
    clear h15
    by_cases h13 : s ≥ 10000000000000
    · rw [if_pos h13]; exact ⟨13, rfl, by omega, by omega, by omega⟩
    rw [if_neg h13]
    clear h14
    by_cases h12 : s ≥ 1000000000000
    · rw [if_pos h12]; exact ⟨12, rfl, by omega, by omega, by omega⟩
    rw [if_neg h12]
    clear h13
    by_cases h11 : s ≥ 100000000000
    · rw [if_pos h11]; exact ⟨11, rfl, by omega, by omega, by omega⟩
    rw [if_neg h11]
    clear h12
    by_cases h10 : s ≥ 10000000000
    · rw [if_pos h10]; exact ⟨10, rfl, by omega, by omega, by omega⟩
    rw [if_neg h10]
    clear h11
    by_cases h9 : s ≥ 1000000000
    · rw [if_pos h9]; exact ⟨9, rfl, by omega, by omega, by omega⟩
    rw [if_neg h9]
    clear h10
    by_cases h8 : s ≥ 100000000
    · rw [if_pos h8]; exact ⟨8, rfl, by omega, by omega, by omega⟩
    rw [if_neg h8]
    clear h9
    by_cases h7 : s ≥ 10000000
    · rw [if_pos h7]; exact ⟨7, rfl, by omega, by omega, by omega⟩
    rw [if_neg h7]
    clear h8
    by_cases h6 : s ≥ 1000000
    · rw [if_pos h6]; exact ⟨6, rfl, by omega, by omega, by omega⟩
    rw [if_neg h6]
    clear h7
    by_cases h5 : s ≥ 100000
    · rw [if_pos h5]; exact ⟨5, rfl, by omega, by omega, by omega⟩
    rw [if_neg h5]
    clear h6
    by_cases h4 : s ≥ 10000
    · rw [if_pos h4]; exact ⟨4, rfl, by omega, by omega, by omega⟩
    rw [if_neg h4]
    clear h5
    by_cases h3 : s ≥ 1000
    · rw [if_pos h3]; exact ⟨3, rfl, by omega, by omega, by omega⟩
    rw [if_neg h3]
    clear h4
    by_cases h2 : s ≥ 100
    · rw [if_pos h2]; exact ⟨2, rfl, by omega, by omega, by omega⟩
    rw [if_neg h2]
    clear h3
    by_cases h1 : s ≥ 10
    · rw [if_pos h1]; exact ⟨1, rfl, by omega, by omega, by omega⟩
    rw [if_neg h1]
    clear h2
    exact ⟨0, rfl, by omega, by omega, by omega⟩

/-! ## The digits

The buffer is `pre ++ G ++ low s i ++ C`: what was there before, space for the digits still to come
and the point, the `i` digits written so far, and the rest. -/

def lay (pre G : Buffer) (s i : Nat) (C : Buffer) : Buffer := pre ++ (G ++ ((low s i).map some ++ C))

/-- Two more digits. -/
theorem lay_copy2 (pre G C : Buffer) (s i : Nat) (pos : Int) {g c t : Nat} (hg : G.length = g + 2)
    (hc : c = s / 10 ^ i % 100) (ht : t = c * 2) (hp : pos = pre.length + g) :
    copy2 (lay pre G s i C) pos t = .ok (lay pre (G.take g) s (i + 2) C) := by
  have hG : G = G.take g ++ G.drop g := (List.take_append_drop g G).symm
  have h1 := copy2_mid (pre ++ G.take g) (G.drop g) ((low s i).map some ++ C) pos (c := c) (t := t)
    (by omega) ht (by simp [hp]; omega) (by simp [hg])
  have e1 : lay pre G s i C = (pre ++ G.take g) ++ (G.drop g ++ ((low s i).map some ++ C)) := by
    unfold lay
    conv_lhs => rw [hG]
    simp only [List.append_assoc]
  rw [e1, h1]
  unfold lay
  rw [Nat.add_comm i 2, low_add, low_two hc.symm]
  simp

theorem print_high_spec (F : Fmt) (pre G C : Buffer) {s k : Nat} (h1 : 10 ^ k ≤ s) (h2 : s < 10 ^ (k + 1))
    (hm : s < 10 ^ maxDigits F) (hG : G.length = k + 2) :
    ∃ i G', print_high F (lay pre G s 0 C) pre.length s (k + 1) = .ok (lay pre G' s i C, s / 10 ^ i, i) ∧
      i ≤ k ∧ G'.length = k + 2 - i ∧ s / 10 ^ i < 2 ^ 32 := by
  have base : s < 2 ^ 32 → print_high F (lay pre G s 0 C) pre.length s (k + 1) =
      .ok (lay pre G s 0 C, s / 10 ^ 0, 0) := by
    intro hs
    cases F
    · simp [print_high]
    · unfold print_high
      simp only
      rw [if_neg (by omega)]
      simp
  by_cases hs : s < 2 ^ 32
  · exact ⟨0, G, base hs, by omega, by omega, by simpa using hs⟩
  · cases F
    · simp only [maxDigits] at hm; omega
    · simp only [maxDigits] at hm
      have hk : 9 ≤ k := by
        by_contra hc
        have : 10 ^ (k + 1) ≤ 10 ^ 9 := Nat.pow_le_pow_right (by norm_num) (by omega)
        omega
      unfold print_high
      simp only
      rw [if_pos (by omega)]
      have ho : subw 32 (wrap 32 s) (wrap 32 (100000000 * wrap 32 (s / 100000000))) = s % 100000000 := by
        unfold subw wrap
        omega
      rw [ho]
      rw [lay_copy2 pre G C s 0 _ (g := k) (c := s % 100000000 % 10000 % 100) (by omega) (by omega) rfl
        (by push_cast; ring)]
      simp only [Exec.ok_bind]
      rw [lay_copy2 pre _ C s 2 _ (g := k - 2) (c := s % 100000000 % 10000 / 100) (by simp; omega) (by omega) rfl
        (by push_cast [show 2 ≤ k by omega]; ring)]
      simp only [Exec.ok_bind]
      rw [lay_copy2 pre _ C s 4 _ (g := k - 4) (c := s % 100000000 / 10000 % 10000 % 100) (by simp; omega) (by omega) rfl
        (by push_cast [show 4 ≤ k by omega]; ring)]
      simp only [Exec.ok_bind]
      rw [lay_copy2 pre _ C s 6 _ (g := k - 6) (c := s % 100000000 / 10000 % 10000 / 100) (by simp; omega) (by omega) rfl
        (by push_cast [show 6 ≤ k by omega]; ring)]
      simp only [Exec.ok_bind]
      exact ⟨8, _, rfl, by omega, by simp; omega, by omega⟩

theorem lt_of_pow_le_div {s k i j : Nat} (h2 : s < 10 ^ (k + 1)) (h : 10 ^ j ≤ s / 10 ^ i) : i + j ≤ k := by
  by_contra hc
  have h3 : 10 ^ j * 10 ^ i ≤ s := le_trans (Nat.mul_le_mul_right _ h) (Nat.div_mul_le_self _ _)
  rw [← pow_add] at h3
  have : 10 ^ (k + 1) ≤ 10 ^ (j + i) := Nat.pow_le_pow_right (by norm_num) (by omega)
  omega

theorem print_loop_spec (pre C : Buffer) {s k : Nat} (h2 : s < 10 ^ (k + 1)) :
    ∀ (fuel i : Nat) (G : Buffer), s / 10 ^ i < 10000 ^ fuel → 0 < fuel → i ≤ k → G.length = k + 2 - i →
      ∃ i' G', print_loop pre.length (k + 1) fuel (lay pre G s i C) (s / 10 ^ i) i =
        .ok (lay pre G' s i' C, s / 10 ^ i', i') ∧ i' ≤ k ∧ G'.length = k + 2 - i' ∧ s / 10 ^ i' < 10000 := by
  intro fuel
  induction fuel with
  | zero => intro i G _ h; omega
  | succ fuel ih =>
    intro i G hlt _ hi hG
    unfold print_loop
    by_cases hc : 10000 ≤ s / 10 ^ i
    · rw [if_pos hc]
      have hk := lt_of_pow_le_div (j := 4) h2 hc
      have e1 : s / 10 ^ (i + 2) = s / 10 ^ i / 100 := by
        rw [Nat.div_div_eq_div_mul, pow_add]; norm_num
      have e2 : s / 10 ^ i / 10000 = s / 10 ^ (i + 4) := by
        rw [Nat.div_div_eq_div_mul, pow_add]; norm_num
      simp only
      rw [lay_copy2 pre G C s i _ (g := k - i) (c := s / 10 ^ i % 10000 % 100) (by omega) (by omega) rfl
        (by push_cast [show i ≤ k by omega]; ring)]
      simp only [Exec.ok_bind]
      rw [lay_copy2 pre _ C s (i + 2) _ (g := k - i - 2) (c := s / 10 ^ i % 10000 / 100) (by simp; omega)
        (by rw [e1]; omega) rfl (by push_cast [show i ≤ k by omega, show 2 ≤ k - i by omega]; ring)]
      simp only [Exec.ok_bind]
      rw [e2]
      refine ih (i + 4) _ ?_ ?_ hk (by simp; omega)
      · rw [← e2, Nat.div_lt_iff_lt_mul (by norm_num), ← pow_succ]; exact hlt
      · rcases Nat.eq_zero_or_pos fuel with h0 | h0
        · subst h0; omega
        · exact h0
    · rw [if_neg hc]
      exact ⟨i, G, rfl, hi, hG, by omega⟩

theorem print_rest_spec (pre G C : Buffer) {s k i : Nat} (h1 : 10 ^ k ≤ s) (h2 : s < 10 ^ (k + 1)) (hi : i ≤ k)
    (hG : G.length = k + 2 - i) (hlt : s / 10 ^ i < 10000) :
    ∃ y, print_rest (lay pre G s i C) pre.length (k + 1) (s / 10 ^ i) i =
      .ok (pre ++ some (Nat.digitChar (s / 10 ^ k)) :: y :: ((low s k).map some ++ C)) := by
  -- the part after the first `if`
  have last : ∀ (i : Nat) (G : Buffer), i ≤ k → G.length = k + 2 - i → s / 10 ^ i < 100 →
      ∃ y, (if s / 10 ^ i ≥ 10 then do
          let a ← radix_at (s / 10 ^ i * 2 + 1)
          let mem ← put (lay pre G s i C) (pre.length + (k + 1 : Nat) - i) a
          let b ← radix_at (s / 10 ^ i * 2)
          put mem pre.length b
        else put (lay pre G s i C) pre.length (Char.ofNat (48 + s / 10 ^ i)) : Exec Buffer) =
      .ok (pre ++ some (Nat.digitChar (s / 10 ^ k)) :: y :: ((low s k).map some ++ C)) := by
    intro i G hi hG hlt
    by_cases hc : 10 ≤ s / 10 ^ i
    · have hik := lt_of_pow_le_div (j := 1) h2 (by simpa using hc)
      have hki : k = i + 1 := by
        by_contra hne
        have : 10 ^ (i + 2) ≤ s := le_trans (Nat.pow_le_pow_right (by norm_num) (by omega)) h1
        have : 10 ^ 2 ≤ s / 10 ^ i := by
          rw [Nat.le_div_iff_mul_le (by positivity), ← pow_add, Nat.add_comm]; exact this
        omega
      subst hki
      rw [if_pos hc, radix_hi hlt]
      simp only [Exec.ok_bind]
      obtain ⟨a, b, c, rfl⟩ : ∃ a b c, G = [a, b, c] := List.length_eq_three.mp (by omega)
      have e : lay pre [a, b, c] s i C = (pre ++ [a, b]) ++ c :: ((low s i).map some ++ C) := by simp [lay]
      rw [e, put_mid _ _ _ _ _ (by simp; ring)]
      simp only [Exec.ok_bind]
      rw [radix_lo hlt]
      simp only [Exec.ok_bind]
      rw [show (pre ++ [a, b]) ++ some (Nat.digitChar (s / 10 ^ i % 10)) :: ((low s i).map some ++ C) =
        pre ++ a :: ([b, some (Nat.digitChar (s / 10 ^ i % 10))] ++ ((low s i).map some ++ C)) by simp]
      rw [put_mid _ _ _ _ _ rfl]
      refine ⟨b, ?_⟩
      rw [Nat.add_comm i 1, low_add, pow_add, Nat.mul_comm (10 ^ 1), ← Nat.div_div_eq_div_mul]
      simp [low]
    · have hki : k = i := by
        by_contra hne
        have : 10 ^ (i + 1) ≤ s := le_trans (Nat.pow_le_pow_right (by norm_num) (by omega)) h1
        have : 10 ^ 1 ≤ s / 10 ^ i := by
          rw [Nat.le_div_iff_mul_le (by positivity), ← pow_add, Nat.add_comm]; exact this
        omega
      subst hki
      rw [if_neg hc, digit_char (by omega)]
      obtain ⟨a, b, rfl⟩ : ∃ a b, G = [a, b] := List.length_eq_two.mp (by omega)
      refine ⟨b, ?_⟩
      rw [show lay pre [a, b] s k C = pre ++ a :: (b :: ((low s k).map some ++ C)) by simp [lay], put_mid _ _ _ _ _ rfl]
  unfold print_rest
  by_cases hc : 100 ≤ s / 10 ^ i
  · have hik := lt_of_pow_le_div (j := 2) h2 (by simpa using hc)
    have e1 : s / 10 ^ i / 100 = s / 10 ^ (i + 2) := by
      rw [Nat.div_div_eq_div_mul, pow_add]; norm_num
    rw [if_pos hc, lay_copy2 pre G C s i _ (g := k - i) (c := s / 10 ^ i % 100) (by omega) rfl rfl
        (by push_cast [show i ≤ k by omega]; ring)]
    simp only [Exec.ok_bind]
    rw [e1]
    exact last (i + 2) _ hik (by simp; omega) (by rw [← e1]; omega)
  · rw [if_neg hc]
    simp only [Exec.ok_bind]
    exact last i G hi hG (by omega)

/-! ## The exponent -/

/-- Exponents below this are printed correctly. -/
def expLimit : Fmt → Nat
  | .b32 => 100
  | .b64 => 1000

theorem print_exponent_spec (F : Fmt) (pre Y Z : Buffer) {e : Nat}
    (he : e < expLimit F) (hY : Y.length = (Nat.toDigits 10 e).length)
    (buf : Int) (hb : buf = pre.length) :
    print_exponent F (pre ++ (Y ++ Z)) buf e =
      .ok (pre ++ ((Nat.toDigits 10 e).map some ++ Z), buf + (Nat.toDigits 10 e).length) := by
  have one : e < 10 → ∃ y, Y = [y] ∧ Nat.toDigits 10 e = [Nat.digitChar e] := by
    intro h
    rw [Nat.toDigits_of_lt_base h] at hY ⊢
    obtain ⟨y, rfl⟩ := List.length_eq_one_iff.mp hY
    exact ⟨y, rfl, rfl⟩
  have two : 10 ≤ e → e < 100 → Y.length = 2 ∧ Nat.toDigits 10 e = [Nat.digitChar (e / 10), Nat.digitChar (e % 10)] := by
    intro h1 h2
    have := toDigits_eq_low (s := e) (k := 1) (by simpa using h1) (by simpa using h2)
    simp [low] at this
    rw [this] at hY ⊢
    exact ⟨by simpa using hY, rfl⟩
  have p2 : 10 ≤ e → e < 100 → (do
      let mem ← copy2 (pre ++ (Y ++ Z)) buf (2 * e)
      .ok (mem, buf + 2) : Exec (Buffer × Int)) =
      .ok (pre ++ ((Nat.toDigits 10 e).map some ++ Z), buf + (Nat.toDigits 10 e).length) := by
    intro h1 h2
    obtain ⟨hy, hd⟩ := two h1 h2
    rw [copy2_mid pre Y Z buf (c := e) h2 (by ring) hb hy, hd]
    rfl
  have p1 : e < 10 → (do
      let mem ← put (pre ++ (Y ++ Z)) buf (Char.ofNat (48 + e))
      .ok (mem, buf + 1) : Exec (Buffer × Int)) =
      .ok (pre ++ ((Nat.toDigits 10 e).map some ++ Z), buf + (Nat.toDigits 10 e).length) := by
    intro h
    obtain ⟨y, rfl, hd⟩ := one h
    rw [digit_char h, List.cons_append, put_mid pre _ _ _ _ hb, hd]
    rfl
  cases F
  · simp only [expLimit] at he
    unfold print_exponent
    simp only
    split_ifs with h
    · exact p2 h he
    · exact p1 (by omega)
  · simp only [expLimit] at he
    unfold print_exponent
    simp only
    split_ifs with h h'
    · have hd := toDigits_eq_low (s := e) (k := 2) (by simpa using h) (by simpa using he)
      have hl : (Nat.toDigits 10 e).length = 3 := by rw [hd]; simp
      obtain ⟨a, b, c, rfl⟩ := List.length_eq_three.mp (hY.trans hl)
      rw [show pre ++ ([a, b, c] ++ Z) = pre ++ ([a, b] ++ (c :: Z)) by simp,
        copy2_mid pre [a, b] (c :: Z) buf (c := e / 10) (by omega) (by ring) hb rfl]
      simp only [Exec.ok_bind]
      rw [← List.append_assoc, put_mid _ _ _ _ _ (by simp [hb]), digit_char (by omega)]
      simp only [Exec.ok_bind, hl]
      rw [hd]
      simp only [low, List.nil_append, List.cons_append, List.map_cons, List.map_nil, List.append_assoc]
      rw [show e / 10 / 10 = e / 10 ^ 2 by omega]
      rfl
    · exact p2 h' (by omega)
    · exact p1 (by omega)

/-! ## `fp_to_chars_impl` -/

theorem sci_length_pos (s : Nat) (t : Int) : 3 ≤ (sci false s t).length := by
  unfold sci
  have h1 := Nat.length_toDigits_pos (b := 10) (n := s)
  have h2 := Nat.length_toDigits_pos (b := 10) (n := (t + (Nat.toDigits 10 s).length - 1).natAbs)
  simp
  omega

theorem fp_to_chars_impl_spec (cfg : Cfg) (F : Fmt) {s : Nat} {t : Int} (pre Y Z : Buffer) (h0 : 0 < s)
    (hm : s < 10 ^ maxDigits F)
    (he : (t + (Nat.toDigits 10 s).length - 1).natAbs < expLimit F)
    (hY : Y.length = (sci false s t).length) (buf : Int) (hb : buf = pre.length) :
    fp_to_chars_impl cfg F s t (pre ++ (Y ++ Z)) buf =
      .ok (pre ++ ((sci false s t).map some ++ Z), buf + (sci false s t).length) := by
  obtain ⟨k, hk, h1, h2, hk2⟩ := decimal_length_spec cfg F h0 hm
  have hd := toDigits_eq_low h1 h2
  have hl := length_toDigits_eq h1 h2
  subst hb
  -- split the space: digits with the point, then the rest of the text
  set E := (t + ((k + 1 : Nat) : Int) - 1) with hE
  set ex := (if E < 0 then ['-'] else []) ++ Nat.toDigits 10 E.natAbs with hex
  have hsci : sci false s t = Nat.digitChar (s / 10 ^ k) :: ((if k + 1 > 1 then '.' :: low s k else []) ++ 'E' :: ex) := by
    unfold sci
    simp only [hl]
    rw [hd]
    simp [hex, hE]
  have hex1 : 1 ≤ ex.length := by
    have := Nat.length_toDigits_pos (b := 10) (n := E.natAbs)
    simp [hex]; omega
  have hYl : k + 2 ≤ Y.length := by
    rw [hY, hsci]
    by_cases hk0 : k + 1 > 1 <;> simp [hk0]
    omega
  obtain ⟨G, Y0, rfl, hG⟩ : ∃ G Y0, Y = G ++ Y0 ∧ G.length = k + 2 :=
    ⟨Y.take (k + 2), Y.drop (k + 2), (List.take_append_drop _ _).symm, by simp; omega⟩
  set C := Y0 ++ Z with hC
  unfold fp_to_chars_impl
  rw [hk]
  simp only [Exec.ok_bind]
  have hlay : pre ++ (G ++ Y0 ++ Z) = lay pre G s 0 C := by simp [lay, low, hC]
  rw [hlay]
  obtain ⟨i, G', e1, hi, hG', hlt⟩ := print_high_spec F pre G C h1 h2 hm hG
  rw [e1]
  simp only [Exec.ok_bind]
  rw [show wrap 32 (s / 10 ^ i) = s / 10 ^ i from Nat.mod_eq_of_lt hlt]
  obtain ⟨i', G'', e2, hi', hG'', hlt'⟩ := print_loop_spec pre C h2 4 i G' (lt_trans hlt (by norm_num)) (by norm_num) hi hG'
  rw [e2]
  simp only [Exec.ok_bind]
  obtain ⟨y, e3⟩ := print_rest_spec pre G'' C h1 h2 hi' hG'' hlt'
  rw [e3]
  simp only [Exec.ok_bind]
  -- what has been written, and the space left for the exponent
  obtain ⟨W, Y1, hW, hY1, e4⟩ : ∃ (W : List Char) (Y1 : Buffer),
      W = Nat.digitChar (s / 10 ^ k) :: (if k + 1 > 1 then '.' :: low s k else []) ∧
      W.length + Y1.length = (G ++ Y0).length ∧
      (if k + 1 > 1 then do
        let mem ← put (pre ++ some (Nat.digitChar (s / 10 ^ k)) :: y :: ((low s k).map some ++ C))
          ((pre.length : Int) + 1) '.'
        .ok (mem, (pre.length : Int) + (k + 1 : Nat) + 1)
      else .ok (pre ++ some (Nat.digitChar (s / 10 ^ k)) :: y :: ((low s k).map some ++ C),
        (pre.length : Int) + 1) : Exec (Buffer × Int)) =
      .ok (pre ++ W.map some ++ (Y1 ++ Z), (pre.length : Int) + W.length) := by
    by_cases hk0 : k + 1 > 1
    · refine ⟨_, Y0, rfl, ?_, ?_⟩
      · simp [hk0, hG]
      · rw [if_pos hk0, if_pos hk0, show pre ++ some (Nat.digitChar (s / 10 ^ k)) :: y :: ((low s k).map some ++ C) =
          (pre ++ [some (Nat.digitChar (s / 10 ^ k))]) ++ y :: ((low s k).map some ++ C) by simp,
          put_mid _ _ _ _ _ (by simp)]
        simp [hC]
        omega
    · refine ⟨_, y :: Y0, rfl, ?_, ?_⟩
      · simp [hk0, hG]
        omega
      · rw [if_neg hk0, if_neg hk0]
        have : k = 0 := by omega
        subst this
        simp [low, hC]
  rw [e4]
  simp only [Exec.ok_bind]
  have hYW : (G ++ Y0).length = W.length + 1 + ex.length := by
    rw [hY, hsci, hW]; simp; omega
  have hsci' : sci false s t = W ++ 'E' :: ex := by rw [hsci, hW]; simp
  -- the letter
  obtain ⟨c0, Y2, rfl⟩ : ∃ c0 C1, Y1 = c0 :: C1 := by
    cases Y1 with
    | nil => simp only [List.length_nil] at hY1; omega
    | cons a b => exact ⟨a, b, rfl⟩
  have hY2 : Y2.length = ex.length := by simp only [List.length_cons] at hY1; omega
  rw [List.cons_append, put_mid _ _ _ _ _ (by simp)]
  simp only [Exec.ok_bind]
  have he' : E.natAbs < expLimit F := by rw [hl] at he; exact he
  have fin : ∀ (P : Buffer) (hP : P = pre ++ W.map some ++ [some 'E']) , P ++ (Y2 ++ Z) =
      pre ++ W.map some ++ some 'E' :: (Y2 ++ Z) := by
    rintro P rfl; simp
  rw [← fin _ rfl]
  by_cases hneg : E < 0
  · rw [if_pos hneg]
    have hx : ex = '-' :: Nat.toDigits 10 E.natAbs := by rw [hex, if_pos hneg]; rfl
    obtain ⟨c1, Y3, rfl⟩ : ∃ c1 C1, Y2 = c1 :: C1 := by
      cases Y2 with
      | nil => rw [hx] at hY2; simp at hY2
      | cons a b => exact ⟨a, b, rfl⟩
    have hY3 : Y3.length = (Nat.toDigits 10 E.natAbs).length := by rw [hx] at hY2; simpa using hY2
    rw [List.cons_append, put_mid _ _ _ _ _ (by simp; ring)]
    simp only [Exec.ok_bind]
    have := print_exponent_spec F (pre ++ W.map some ++ [some 'E', some '-']) Y3 Z he' hY3
      ((pre.length : Int) + W.length + 1 + 1) (by simp; ring)
    rw [show (-E).toNat = E.natAbs by omega,
      show pre ++ W.map some ++ [some 'E'] ++ some '-' :: (Y3 ++ Z) =
        (pre ++ W.map some ++ [some 'E', some '-']) ++ (Y3 ++ Z) by simp, this, hsci', hx]
    simp
    ring
  · rw [if_neg hneg]
    have hx : ex = Nat.toDigits 10 E.natAbs := by rw [hex, if_neg hneg]; rfl
    have hY3 : Y2.length = (Nat.toDigits 10 E.natAbs).length := by rw [hx] at hY2; simpa using hY2
    have := print_exponent_spec F (pre ++ W.map some ++ [some 'E']) Y2 Z he' hY3
      ((pre.length : Int) + W.length + 1) (by simp; ring)
    rw [show E.toNat = E.natAbs by omega, this, hsci', hx]
    simp
    ring

/-! ## Reading the text -/

open Spec (readText readDigits readSign readFraction digitsValue dec)

theorem digitChar_value {n : Nat} (h : n < 10) : (Nat.digitChar n).toNat - 48 = n := by
  have : ∀ n ∈ List.range 10, (Nat.digitChar n).toNat - 48 = n := by decide
  exact this n (List.mem_range.mpr h)

theorem toDigits_digits (s : Nat) : ∀ ch ∈ Nat.toDigits 10 s, ch.isDigit = true := by
  induction s using Nat.strongRecOn with
  | _ s ih =>
    by_cases h : s < 10
    · rw [Nat.toDigits_of_lt_base h]
      simp [Nat.isDigit_digitChar, h]
    · rw [Nat.toDigits_of_base_le (by norm_num) (by omega)]
      intro ch hch
      rcases List.mem_append.mp hch with h' | h'
      · exact ih (s / 10) (by omega) ch h'
      · rw [List.mem_singleton.mp h', Nat.isDigit_digitChar]
        simp
        omega

theorem digitsValue_toDigits (s : Nat) : digitsValue (Nat.toDigits 10 s) = s := by
  induction s using Nat.strongRecOn with
  | _ s ih =>
    by_cases h : s < 10
    · rw [Nat.toDigits_of_lt_base h]
      simp [digitsValue, digitChar_value h]
    · rw [Nat.toDigits_of_base_le (by norm_num) (by omega)]
      have := ih (s / 10) (by omega)
      unfold digitsValue at this ⊢
      rw [List.foldl_append, this]
      simp only [List.foldl_cons, List.foldl_nil]
      rw [digitChar_value (by omega)]
      omega

theorem readDigits_append {ds : List Char} (h : ∀ ch ∈ ds, ch.isDigit = true) (rest : List Char)
    (hr : rest = [] ∨ ∃ c cs, rest = c :: cs ∧ c.isDigit = false) : readDigits (ds ++ rest) = (ds, rest) := by
  unfold readDigits
  rw [List.takeWhile_append_of_pos h, List.dropWhile_append_of_pos h]
  rcases hr with rfl | ⟨c, cs, rfl, hc⟩
  · simp
  · simp [hc]

theorem readSign_digit {ds : List Char} (h : ∀ ch ∈ ds, ch.isDigit = true) (hne : ds ≠ []) (rest : List Char) :
    readSign (ds ++ rest) = (false, ds ++ rest) := by
  cases ds with
  | nil => exact absurd rfl hne
  | cons d ds =>
    have hd := h d (by simp)
    unfold readSign
    split
    · rename_i heq
      simp only [List.cons_append, List.cons.injEq] at heq
      rw [heq.1] at hd
      exact absurd hd (by decide)
    · rfl

theorem read_sci (neg : Bool) (s : Nat) (t : Int) : readText (sci neg s t) = some (neg, dec s t) := by
  set ds := Nat.toDigits 10 s with hds
  set E : Int := t + ds.length - 1 with hE
  have hdig := toDigits_digits s
  rw [← hds] at hdig
  have hne : ds ≠ [] := Nat.toDigits_ne_nil
  obtain ⟨d, fs, hdf⟩ : ∃ d fs, ds = d :: fs := List.exists_cons_of_ne_nil hne
  have hd : d.isDigit = true := hdig d (by rw [hdf]; simp)
  have hfs : ∀ ch ∈ fs, ch.isDigit = true := fun ch h => hdig ch (by rw [hdf]; simp [h])
  set exd := Nat.toDigits 10 E.natAbs with hexd
  have hexdig := toDigits_digits E.natAbs
  rw [← hexd] at hexdig
  have hexne : exd ≠ [] := Nat.toDigits_ne_nil
  set tail : List Char := 'E' :: ((if E < 0 then ['-'] else []) ++ exd) with htail
  have hsci : sci neg s t = (if neg then ['-'] else []) ++ ([d] ++ ((if fs = [] then [] else '.' :: fs) ++ tail)) := by
    unfold sci
    simp only
    rw [← hds, ← hE, ← hexd, ← htail, hdf]
    cases fs <;> simp
  have r1 : readSign (sci neg s t) = (neg, [d] ++ ((if fs = [] then [] else '.' :: fs) ++ tail)) := by
    rw [hsci]
    cases neg
    · exact readSign_digit (ds := [d]) (by simpa using hd) (by simp) _
    · rfl
  have r2 : readDigits ([d] ++ ((if fs = [] then [] else '.' :: fs) ++ tail)) =
      ([d], (if fs = [] then [] else '.' :: fs) ++ tail) := by
    refine readDigits_append (by simpa using hd) _ (Or.inr ?_)
    by_cases h : fs = []
    · exact ⟨'E', _, by simp [h, htail]; rfl, rfl⟩
    · exact ⟨'.', _, by simp [h]; rfl, rfl⟩
  have r3 : readFraction ((if fs = [] then [] else '.' :: fs) ++ tail) = (fs, tail) := by
    by_cases h : fs = []
    · simp only [h, if_true, List.nil_append]
      rfl
    · simp only [h, if_false, List.cons_append]
      exact readDigits_append hfs _ (Or.inr ⟨'E', _, rfl, rfl⟩)
  have r4 : readSign ((if E < 0 then ['-'] else []) ++ exd) = (decide (E < 0), exd) := by
    by_cases h : E < 0
    · simp only [h, if_true, decide_true]
      rfl
    · simp only [h, if_false, decide_false, List.nil_append]
      have := readSign_digit hexdig hexne []
      simpa using this
  have r5 : readDigits exd = (exd, []) := by
    have := readDigits_append hexdig [] (Or.inl rfl)
    simpa using this
  unfold readText
  simp only [r1, r2, r3]
  rw [htail]
  simp only [r4, r5]
  rw [if_neg (by simp [hexne])]
  have hv1 : digitsValue ([d] ++ fs) = s := by
    have := digitsValue_toDigits s
    rw [← hds, hdf] at this
    exact this
  have hv2 : digitsValue exd = E.natAbs := digitsValue_toDigits _
  rw [hv1, hv2]
  have : (if decide (E < 0) = true then -((E.natAbs : Nat) : Int) else ((E.natAbs : Nat) : Int)) - fs.length = t := by
    have hlen : (ds.length : Int) = fs.length + 1 := by rw [hdf]; simp
    by_cases h : E < 0
    · simp only [h, decide_true, if_true]; omega
    · simp only [h, decide_false, Bool.false_eq_true, if_false]; omega
  rw [this]
  rfl

end Grisu
