import Mathlib.Tactic.Linarith
import Mathlib.Tactic.Ring
import Mathlib.Tactic.LinearCombination
import Verif.Model.MinMaxEuclid

/-! # Correctness of the loop of `minmax_euclid` -/

namespace Grisu.MinMaxProof

/-- The loop invariant. -/
structure Inv (a b N ai bi si ui : Nat) : Prop where
  hs : ∃ X : Int, (a : Int) * si = ai + b * X
  hu : ∃ Y : Int, (a : Int) * ui + bi = b * Y
  det : (si : Int) * bi + ui * ai = b
  ha : 0 < ai
  hb : 0 < bi
  hbb : bi ≤ b
  hs1 : 1 ≤ si
  hsN : si ≤ N
  huN : ui ≤ N

/-- What the caller gets. -/
structure Good (a b N : Nat) (r : MinMax) : Prop where
  min_le : ∀ n, 1 ≤ n → n ≤ N → r.min ≤ a * n % b
  le_max : ∀ n, 1 ≤ n → n ≤ N → a * n % b ≤ r.max
  argmin1 : 1 ≤ r.argmin
  argminN : r.argmin ≤ N
  hmin : a * r.argmin % b = r.min
  argmaxN : r.argmax ≤ N
  hmax : a * r.argmax % b = r.max
  argmax1 : ¬ b ∣ a → 1 ≤ r.argmax

/-- Integer coordinates of `(n, r)`. -/
theorem coords {a b N ai bi si ui : Nat} (h : Inv a b N ai bi si ui) (hb0 : 0 < b) {n r t : Int}
    (hr : (a : Int) * n = r + b * t) :
    ∃ x y : Int, n = x * si + y * ui ∧ r = x * ai - y * bi ∧
      b * x = n * bi + r * ui ∧ b * y = n * ai - r * si := by
  obtain ⟨X, hX⟩ := h.hs
  obtain ⟨Y, hY⟩ := h.hu
  have hd := h.det
  have hb' : (b : Int) ≠ 0 := by exact_mod_cast hb0.ne'
  have e1 : (b : Int) * (n * Y - t * ui) = n * bi + r * ui := by
    linear_combination (-n) * hY + ui * hr
  have e2 : (b : Int) * (t * si - n * X) = n * ai - r * si := by
    linear_combination (n) * hX - si * hr
  refine ⟨n * Y - t * ui, t * si - n * X, ?_, ?_, e1, e2⟩
  · apply mul_left_cancel₀ hb'
    linear_combination (-(n:Int)) * hd - si * e1 - ui * e2
  · apply mul_left_cancel₀ hb'
    linear_combination (-(r:Int)) * hd - ai * e1 + bi * e2

theorem emod_data {a b n : Nat} (hb0 : 0 < b) :
    ∃ t : Int, (a : Int) * n = ((a * n % b : Nat) : Int) + b * t ∧ ((a * n % b : Nat) : Int) < b := by
  refine ⟨((a * n / b : Nat) : Int), ?_, by exact_mod_cast Nat.mod_lt _ hb0⟩
  exact_mod_cast (Nat.mod_add_div (a * n) b).symm

theorem mod_eq_of {a b n r : Nat} {t : Int} (h : (a : Int) * n = r + b * t) (hr : r < b) :
    a * n % b = r := by
  have : ((a * n % b : Nat) : Int) = r := by
    push_cast
    rw [h, Int.add_mul_emod_self_left]
    exact Int.emod_eq_of_lt (by positivity) (by exact_mod_cast hr)
  exact_mod_cast this

/-- Positive first coordinate for residues in `[0, b)`. -/
theorem coords_pos {a b N ai bi si ui : Nat} (h : Inv a b N ai bi si ui) (hb0 : 0 < b) {n : Nat}
    (hn : 1 ≤ n) :
    ∃ x y : Int, (n : Int) = x * si + y * ui ∧ ((a * n % b : Nat) : Int) = x * ai - y * bi ∧ 1 ≤ x := by
  obtain ⟨t, ht, _⟩ := emod_data (a := a) (n := n) hb0
  obtain ⟨x, y, h1, h2, h3, _⟩ := coords h hb0 ht
  refine ⟨x, y, h1, h2, ?_⟩
  have hbi : (0 : Int) < bi := by exact_mod_cast h.hb
  have hn' : (0 : Int) < n := by exact_mod_cast hn
  have p1 : (0 : Int) < n * bi := mul_pos hn' hbi
  have p2 : (0 : Int) ≤ ((a * n % b : Nat) : Int) * ui := by positivity
  have hbp : (0 : Int) < b := by exact_mod_cast hb0
  by_contra hx
  have : (b : Int) * x ≤ 0 := mul_nonpos_of_nonneg_of_nonpos hbp.le (by omega)
  omega

/-- Positive second coordinate for residues shifted to `[-b, 0)`. -/
theorem coords_neg {a b N ai bi si ui : Nat} (h : Inv a b N ai bi si ui) (hb0 : 0 < b) {n : Nat}
    (hn : 1 ≤ n) :
    ∃ x y : Int, (n : Int) = x * si + y * ui ∧ ((a * n % b : Nat) : Int) - b = x * ai - y * bi ∧
      1 ≤ y := by
  obtain ⟨t, ht, hlt⟩ := emod_data (a := a) (n := n) hb0
  have ht' : (a : Int) * n = (((a * n % b : Nat) : Int) - b) + b * (t + 1) := by
    rw [ht]; ring
  obtain ⟨x, y, h1, h2, _, h4⟩ := coords h hb0 ht'
  refine ⟨x, y, h1, h2, ?_⟩
  have hsi : (0 : Int) < si := by exact_mod_cast h.hs1
  have p1 : (0 : Int) ≤ n * ai := by positivity
  have p2 : (((a * n % b : Nat) : Int) - b) * si < 0 :=
    mul_neg_of_neg_of_pos (by omega) hsi
  have hbp : (0 : Int) < b := by exact_mod_cast hb0
  by_contra hy
  have : (b : Int) * y ≤ 0 := mul_nonpos_of_nonneg_of_nonpos hbp.le (by omega)
  omega

theorem div_positive_spec (cfg : Cfg) {x n : Nat} (hx : 0 < x) (hn : 0 < n) :
    ∃ q r, div_positive cfg x n = .ok (q, r) ∧ x = q * n + r ∧ 0 < r ∧ r ≤ n := by
  have hd := Nat.div_add_mod x n
  by_cases h0 : x % n = 0
  · have hq : 0 < x / n := by
      rcases Nat.eq_zero_or_pos (x / n) with h | h
      · rw [h, h0] at hd; omega
      · exact h
    refine ⟨x / n - 1, n, ?_, ?_, hn, le_rfl⟩
    · simp [div_positive, big_div, hn.ne', h0, cassert, hq]
    · obtain ⟨m, hm⟩ := Nat.exists_eq_add_of_le' hq
      rw [hm, Nat.add_sub_cancel]
      rw [hm, h0] at hd
      rw [← hd]; ring
  · refine ⟨x / n, x % n, ?_, ?_, Nat.pos_of_ne_zero h0, (Nat.mod_lt _ hn).le⟩
    · simp [div_positive, big_div, hn.ne', h0]
    · rw [Nat.mul_comm]; exact hd.symm

/-- The half step that replaces `bi`, `ui`. -/
theorem inv_step_u {a b N ai bi si ui q nb : Nat} (h : Inv a b N ai bi si ui)
    (hq : bi = q * ai + nb) (h0 : 0 < nb) (hN : q * si + ui ≤ N) :
    Inv a b N ai nb si (q * si + ui) := by
  obtain ⟨X, hX⟩ := h.hs
  obtain ⟨Y, hY⟩ := h.hu
  have hd := h.det
  have hq' : (bi : Int) = q * ai + nb := by exact_mod_cast hq
  refine ⟨⟨X, hX⟩, ⟨q * X + Y, ?_⟩, ?_, h.ha, h0, ?_, h.hs1, h.hsN, hN⟩
  · push_cast
    linear_combination q * hX + hY - hq'
  · push_cast
    linear_combination hd - si * hq'
  · have := h.hbb
    have : nb ≤ bi := by rw [hq]; exact Nat.le_add_left _ _
    omega

/-- The half step that replaces `ai`, `si`. -/
theorem inv_step_s {a b N ai bi si ui p na : Nat} (h : Inv a b N ai bi si ui)
    (hp : ai = p * bi + na) (h0 : 0 < na) (hN : p * ui + si ≤ N) :
    Inv a b N na bi (p * ui + si) ui := by
  obtain ⟨X, hX⟩ := h.hs
  obtain ⟨Y, hY⟩ := h.hu
  have hd := h.det
  have hp' : (ai : Int) = p * bi + na := by exact_mod_cast hp
  refine ⟨⟨p * Y + X, ?_⟩, ⟨Y, hY⟩, ?_, h0, h.hb, h.hbb, ?_, hN, h.huN⟩
  · push_cast
    linear_combination p * hY + hX + hp'
  · push_cast
    linear_combination hd - ui * hp'
  · have := h.hs1
    omega

theorem mod_si {a b N ai bi si ui : Nat} (h : Inv a b N ai bi si ui) (hlt : ai < b) :
    a * si % b = ai := by
  obtain ⟨X, hX⟩ := h.hs
  exact mod_eq_of hX hlt

theorem mod_ui {a b N ai bi si ui : Nat} (h : Inv a b N ai bi si ui) (_hb0 : 0 < b) :
    a * ui % b = b - bi := by
  obtain ⟨Y, hY⟩ := h.hu
  have := h.hbb
  have := h.hb
  refine mod_eq_of (t := Y - 1) ?_ (by omega)
  push_cast [h.hbb]
  linear_combination hY

/-- Exit after the first half step. -/
theorem exit_u {a b N ai bi si ui q nb k : Nat} (h : Inv a b N ai bi si ui) (hb0 : 0 < b)
    (hq : bi = q * ai + nb) (h0 : 0 < nb) (hN : N < q * si + ui)
    (hk1 : k * si ≤ N - ui) (hk2 : N - ui < (k + 1) * si) :
    Good a b N ⟨ai, b - bi + k * ai, si, ui + k * si⟩ := by
  have hs1 := h.hs1
  have hsN := h.hsN
  have huN := h.huN
  have ha := h.ha
  have hb := h.hb
  have hbb := h.hbb
  have hd : si * bi + ui * ai = b := by exact_mod_cast h.det
  have hkq : k < q := by
    by_contra hc
    have : q * si ≤ k * si := Nat.mul_le_mul_right _ (by omega)
    omega
  have hk3 : k * ai < bi := by
    have : k * ai ≤ q * ai := Nat.mul_le_mul_right _ hkq.le
    omega
  have halt : ai < b := by
    rcases Nat.eq_zero_or_pos ui with hu | hu
    · subst hu
      have : 2 ≤ q := by
        by_contra hc
        have : q * si ≤ 1 * si := Nat.mul_le_mul_right _ (by omega)
        omega
      have : 2 * ai ≤ q * ai := Nat.mul_le_mul_right _ this
      omega
    · have h1 : 1 * ai ≤ ui * ai := Nat.mul_le_mul_right _ hu
      have h2 : 0 < si * bi := Nat.mul_pos hs1 hb
      omega
  have zs : (1 : Int) ≤ si := by exact_mod_cast hs1
  have zu : (0 : Int) ≤ ui := by positivity
  have za : (1 : Int) ≤ ai := by exact_mod_cast ha
  have zb : (1 : Int) ≤ bi := by exact_mod_cast hb
  refine ⟨?_, ?_, hs1, hsN, mod_si h halt, by show ui + k * si ≤ N; omega, ?_, ?_⟩
  · intro n hn1 hnN
    obtain ⟨x, y, hx, hy, hx1⟩ := coords_pos h hb0 hn1
    by_cases hy0 : y ≤ 0
    · have p1 : (ai : Int) ≤ x * ai := by nlinarith
      have p2 : y * bi ≤ 0 := mul_nonpos_of_nonpos_of_nonneg hy0 (by omega)
      show ai ≤ _
      omega
    · exfalso
      have hN' : (n : Int) < q * si + ui := by
        have : n < q * si + ui := by omega
        exact_mod_cast this
      have p1 : (ui : Int) ≤ y * ui := by nlinarith
      have p2 : x < q := by
        by_contra hc
        have : (q : Int) * si ≤ x * si := mul_le_mul_of_nonneg_right (by omega) (by omega)
        omega
      have p3 : x * ai ≤ (q - 1 : Int) * ai := mul_le_mul_of_nonneg_right (by omega) (by omega)
      have p4 : (bi : Int) ≤ y * bi := by nlinarith
      have hq' : (bi : Int) = q * ai + nb := by exact_mod_cast hq
      have p5 : (q - 1 : Int) * ai = q * ai - ai := by ring
      have p6 : (0 : Int) ≤ ((a * n % b : Nat) : Int) := by positivity
      omega
  · intro n hn1 hnN
    obtain ⟨x, y, hx, hy, hy1⟩ := coords_neg h hb0 hn1
    show a * n % b ≤ b - bi + k * ai
    have hxk : x ≤ k := by
      by_contra hc
      have p1 : ((k : Int) + 1) * si ≤ x * si := mul_le_mul_of_nonneg_right (by omega) (by omega)
      have p2 : (ui : Int) ≤ y * ui := by nlinarith
      have p3 : (N : Int) - ui < (k + 1) * si := by
        have : N < (k + 1) * si + ui := by omega
        have : (N : Int) < (k + 1) * si + ui := by exact_mod_cast this
        omega
      omega
    have p1 : x * ai ≤ k * ai := mul_le_mul_of_nonneg_right hxk (by omega)
    have p2 : (bi : Int) ≤ y * bi := by nlinarith
    zify [hbb]
    have : ((a * n % b : Nat) : Int) ≤ b - bi + k * ai := by omega
    exact_mod_cast this
  · obtain ⟨X, hX⟩ := h.hs
    obtain ⟨Y, hY⟩ := h.hu
    refine mod_eq_of (t := Y - 1 + k * X) ?_ (by show b - bi + k * ai < b; omega)
    push_cast [hbb]
    linear_combination hY + k * hX
  · intro _
    show 1 ≤ ui + k * si
    by_contra hc
    have h1 : ui = 0 := by omega
    have h2 : k * si = 0 := by omega
    have h3 : k = 0 := by
      rcases Nat.mul_eq_zero.mp h2 with h | h
      · exact h
      · omega
    subst h3
    omega

/-- Exit after the second half step. -/
theorem exit_s {a b N ai nb si nu p na k : Nat} (h : Inv a b N ai nb si nu) (hb0 : 0 < b)
    (hp : ai = p * nb + na) (h0 : 0 < na) (hN : N < p * nu + si)
    (hk1 : k * nu ≤ N - si) (hk2 : N - si < (k + 1) * nu) :
    Good a b N ⟨ai - k * nb, b - nb, si + k * nu, nu⟩ ∧ k * nb ≤ ai := by
  have hs1 := h.hs1
  have hsN := h.hsN
  have huN := h.huN
  have ha := h.ha
  have hb := h.hb
  have hbb := h.hbb
  have hd : si * nb + nu * ai = b := by exact_mod_cast h.det
  have hnu : 1 ≤ nu := by
    by_contra hc
    have : nu = 0 := by omega
    subst this
    omega
  have hkp : k < p := by
    by_contra hc
    have : p * nu ≤ k * nu := Nat.mul_le_mul_right _ (by omega)
    omega
  have hk3 : k * nb < ai := by
    have : k * nb ≤ p * nb := Nat.mul_le_mul_right _ hkp.le
    omega
  have halt : ai < b := by
    have h1 : 1 * ai ≤ nu * ai := Nat.mul_le_mul_right _ hnu
    have h2 : 0 < si * nb := Nat.mul_pos hs1 hb
    omega
  have zs : (1 : Int) ≤ si := by exact_mod_cast hs1
  have zu : (1 : Int) ≤ nu := by exact_mod_cast hnu
  have za : (1 : Int) ≤ ai := by exact_mod_cast ha
  have zb : (1 : Int) ≤ nb := by exact_mod_cast hb
  refine ⟨⟨?_, ?_, by show 1 ≤ si + k * nu; omega, by show si + k * nu ≤ N; omega, ?_, huN, mod_ui h hb0,
    fun _ => hnu⟩, hk3.le⟩
  · intro n hn1 hnN
    obtain ⟨x, y, hx, hy, hx1⟩ := coords_pos h hb0 hn1
    show ai - k * nb ≤ a * n % b
    have hyk : y ≤ k := by
      by_contra hc
      have p1 : ((k : Int) + 1) * nu ≤ y * nu := mul_le_mul_of_nonneg_right (by omega) (by omega)
      have p2 : (si : Int) ≤ x * si := by nlinarith
      have p3 : (N : Int) - si < (k + 1) * nu := by
        have : N < (k + 1) * nu + si := by omega
        have : (N : Int) < (k + 1) * nu + si := by exact_mod_cast this
        omega
      omega
    have p1 : y * nb ≤ k * nb := mul_le_mul_of_nonneg_right hyk (by omega)
    have p2 : (ai : Int) ≤ x * ai := by nlinarith
    have : (ai : Int) - k * nb ≤ ((a * n % b : Nat) : Int) := by omega
    have : (ai : Int) ≤ ((a * n % b + k * nb : Nat) : Int) := by push_cast at this ⊢; omega
    omega
  · intro n hn1 hnN
    obtain ⟨x, y, hx, hy, hy1⟩ := coords_neg h hb0 hn1
    show a * n % b ≤ b - nb
    have hlt : a * n % b < b := Nat.mod_lt _ hb0
    by_cases hx0 : x ≤ 0
    · have p1 : x * ai ≤ 0 := mul_nonpos_of_nonpos_of_nonneg hx0 (by omega)
      have p2 : (nb : Int) ≤ y * nb := by nlinarith
      omega
    · exfalso
      have hN' : (n : Int) < p * nu + si := by
        have : n < p * nu + si := by omega
        exact_mod_cast this
      have p1 : (si : Int) ≤ x * si := by nlinarith
      have p2 : y < p := by
        by_contra hc
        have : (p : Int) * nu ≤ y * nu := mul_le_mul_of_nonneg_right (by omega) (by omega)
        omega
      have p3 : y * nb ≤ (p - 1 : Int) * nb := mul_le_mul_of_nonneg_right (by omega) (by omega)
      have p4 : (ai : Int) ≤ x * ai := by nlinarith
      have hp' : (ai : Int) = p * nb + na := by exact_mod_cast hp
      have p5 : (p - 1 : Int) * nb = p * nb - nb := by ring
      omega
  · obtain ⟨X, hX⟩ := h.hs
    obtain ⟨Y, hY⟩ := h.hu
    refine mod_eq_of (t := X + k * Y) ?_ (by show ai - k * nb < b; omega)
    push_cast [hk3.le]
    linear_combination hX + k * hY

/-- Exit at the greatest common divisor. -/
theorem exit_gcd {a b N g si ui : Nat} (h : Inv a b N g g si ui) (hb0 : 0 < b) :
    (N < si + ui → Good a b N ⟨g, b - g, si, ui⟩) ∧
    (si + ui ≤ N → Good a b N ⟨0, b - g, si + ui, ui⟩) := by
  have hs1 := h.hs1
  have hsN := h.hsN
  have huN := h.huN
  have ha := h.ha
  have hbb := h.hbb
  have hd' := h.det
  have hd : si * g + ui * g = b := by exact_mod_cast hd'
  have zg : (1 : Int) ≤ g := by exact_mod_cast ha
  have hmaxle : ∀ n, 1 ≤ n → n ≤ N → a * n % b ≤ b - g := by
    intro n hn1 _
    obtain ⟨x, y, hx, hy, hy1⟩ := coords_neg h hb0 hn1
    have hlt : a * n % b < b := Nat.mod_lt _ hb0
    have e : ((a * n % b : Nat) : Int) - b = (x - y) * g := by rw [hy]; ring
    have : x - y ≤ -1 := by
      by_contra hc
      have : (0 : Int) ≤ (x - y) * g := mul_nonneg (by omega) (by omega)
      omega
    have p : (x - y) * g ≤ -1 * g := mul_le_mul_of_nonneg_right this (by omega)
    omega
  have harg : ¬ b ∣ a → 1 ≤ ui := by
    intro hnd
    by_contra hc
    have hu0 : ui = 0 := by omega
    subst hu0
    obtain ⟨Y, hY⟩ := h.hu
    obtain ⟨X, hX⟩ := h.hs
    apply hnd
    have hgb : b ∣ g := by
      have : (b : Int) ∣ g := ⟨Y, by linear_combination hY⟩
      exact_mod_cast this
    have hge : g = b := Nat.le_antisymm hbb (Nat.le_of_dvd ha hgb)
    have hsi : si = 1 := by
      subst hge
      have : si * g = 1 * g := by omega
      exact Nat.eq_of_mul_eq_mul_right ha this
    subst hsi
    have : (b : Int) ∣ a := ⟨1 + X, by
      have : (g : Int) = b := by exact_mod_cast hge
      linear_combination hX + this⟩
    exact_mod_cast this
  constructor
  · intro hN
    have hui : 1 ≤ ui := by omega
    have hgb : g < b := by
      have h1 : 1 * g ≤ ui * g := Nat.mul_le_mul_right _ hui
      have h2 : 1 * g ≤ si * g := Nat.mul_le_mul_right _ hs1
      omega
    refine ⟨?_, hmaxle, hs1, hsN, mod_si h hgb, huN, mod_ui h hb0, harg⟩
    intro n hn1 hnN
    show g ≤ a * n % b
    obtain ⟨x, y, hx, hy, hx1⟩ := coords_pos h hb0 hn1
    have e : ((a * n % b : Nat) : Int) = (x - y) * g := by rw [hy]; ring
    have hxy : 1 ≤ x - y := by
      by_contra hc
      rcases lt_or_eq_of_le (show x - y ≤ 0 by omega) with hc | hc
      · have : (x - y) * g < 0 := mul_neg_of_neg_of_pos hc (by omega)
        omega
      · have hxe : y = x := by omega
        subst hxe
        have p : (1 : Int) * (si + ui) ≤ y * (si + ui) := mul_le_mul_of_nonneg_right hx1 (by omega)
        have : (n : Int) = y * (si + ui) := by rw [hx]; ring
        omega
    have p : 1 * (g : Int) ≤ (x - y) * g := mul_le_mul_of_nonneg_right hxy (by omega)
    omega
  · intro hN
    refine ⟨fun n _ _ => Nat.zero_le _, hmaxle, by show 1 ≤ si + ui; omega, hN, ?_, huN, mod_ui h hb0, harg⟩
    obtain ⟨X, hX⟩ := h.hs
    obtain ⟨Y, hY⟩ := h.hu
    refine mod_eq_of (t := X + Y) ?_ hb0
    push_cast
    linear_combination hX + hY

theorem wrap64 {n N : Nat} (hN : N < 2 ^ 64) (h : n ≤ N) : wrap 64 n = n :=
  Nat.mod_eq_of_lt (by omega)

theorem subw64 {x N : Nat} (hN : N < 2 ^ 64) (h : x ≤ N) : subw 64 N x = N - x := by
  unfold subw
  rw [Nat.mod_eq_of_lt (show x < 2 ^ 64 by omega)]
  omega

theorem loop_good (cfg : Cfg) {a b N : Nat} (hb0 : 0 < b) (hN64 : N < 2 ^ 64) :
    ∀ fuel ai bi si ui, Inv a b N ai bi si ui → ai + bi < fuel →
      ∃ r, minmax_loop cfg b N fuel ai bi si ui = .ok r ∧ Good a b N r
  | 0, _, _, _, _, _, hf => absurd hf (Nat.not_lt_zero _)
  | fuel + 1, ai, bi, si, ui, h, hf => by
    obtain ⟨q, nb, hq, hqe, hnb0, hnba⟩ := div_positive_spec cfg h.hb h.ha
    unfold minmax_loop
    rw [hq]
    simp only [Exec.ok_bind]
    by_cases hu : q * si + ui > N
    · rw [if_pos hu, big_sub, if_pos h.hbb]
      simp only [Exec.ok_bind]
      refine ⟨_, rfl, ?_⟩
      rw [subw64 hN64 h.huN]
      have hsp : 0 < si := h.hs1
      have k1 : (N - ui) / si * si ≤ N - ui := Nat.div_mul_le_self _ _
      have k2 : N - ui < ((N - ui) / si + 1) * si := by
        rw [Nat.mul_comm]; exact Nat.lt_mul_div_succ _ hsp
      have huN := h.huN
      rw [wrap64 hN64 (show (N - ui) / si * si ≤ N by omega), wrap64 hN64 (by omega)]
      exact exit_u h hb0 hqe hnb0 hu k1 k2
    · have hu' : q * si + ui ≤ N := by omega
      rw [if_neg hu]
      have hI := inv_step_u h hqe hnb0 hu'
      obtain ⟨p, na, hp, hpe, hna0, hnab⟩ := div_positive_spec cfg h.ha hnb0
      rw [cassert, if_pos (by simp; right; omega)]
      simp only [Exec.ok_bind]
      rw [hp]
      simp only [Exec.ok_bind]
      rw [wrap64 hN64 hu']
      by_cases hs : p * (q * si + ui) + si > N
      · rw [if_pos hs]
        have hsN := h.hsN
        rw [subw64 hN64 hsN]
        have hnu : 0 < q * si + ui := by
          by_contra hc
          have : q * si + ui = 0 := by omega
          rw [this] at hs
          omega
        have k1 : (N - si) / (q * si + ui) * (q * si + ui) ≤ N - si := Nat.div_mul_le_self _ _
        have k2 : N - si < ((N - si) / (q * si + ui) + 1) * (q * si + ui) := by
          rw [Nat.mul_comm]; exact Nat.lt_mul_div_succ _ hnu
        obtain ⟨hg, hle⟩ := exit_s hI hb0 hpe hna0 hs k1 k2
        rw [big_sub, if_pos hle, big_sub, if_pos hI.hbb]
        simp only [Exec.ok_bind]
        refine ⟨_, rfl, ?_⟩
        rw [wrap64 hN64 (show (N - si) / (q * si + ui) * (q * si + ui) ≤ N by omega),
          wrap64 hN64 (by omega)]
        exact hg
      · have hs' : p * (q * si + ui) + si ≤ N := by omega
        rw [if_neg hs, cassert, if_pos (by simp; right; omega)]
        simp only [Exec.ok_bind]
        rw [wrap64 hN64 hs']
        have hJ := inv_step_s hI hpe hna0 hs'
        by_cases hg : nb = bi ∧ na = ai
        · rw [if_pos hg]
          obtain ⟨rfl, rfl⟩ := hg
          have hq0 : q = 0 := by
            rcases Nat.eq_zero_or_pos q with h0 | h0
            · exact h0
            · have : 0 < q * na := Nat.mul_pos h0 hna0
              omega
          have hp0 : p = 0 := by
            rcases Nat.eq_zero_or_pos p with h0 | h0
            · exact h0
            · have : 0 < p * nb := Nat.mul_pos h0 hnb0
              omega
          subst hq0 hp0
          have hge : nb = na := by omega
          subst hge
          simp only [Nat.zero_mul, Nat.zero_add] at *
          obtain ⟨g1, g2⟩ := exit_gcd h hb0
          simp only [cassert, decide_true, Bool.or_true, if_true, Exec.ok_bind, big_sub, if_pos h.hbb]
          by_cases hsum : si + ui > N
          · rw [if_pos hsum]
            exact ⟨_, rfl, g1 hsum⟩
          · rw [if_neg hsum, if_pos (by simp; right; omega)]
            simp only [Exec.ok_bind]
            rw [wrap64 hN64 (by omega)]
            exact ⟨_, rfl, g2 (by omega)⟩
        · rw [if_neg hg]
          apply loop_good cfg hb0 hN64 fuel _ _ _ _ hJ
          have h1 : nb ≤ bi := by rw [hqe]; exact Nat.le_add_left _ _
          have h2 : na ≤ ai := by rw [hpe]; exact Nat.le_add_left _ _
          omega

theorem euclid_good (cfg : Cfg) {a b N : Nat} (ha : 0 < a) (hb : 0 < b) (hN : 0 < N)
    (hN64 : N < 2 ^ 64) : ∃ r, minmax_euclid cfg a b N = .ok r ∧ Good a b N r := by
  apply loop_good cfg hb hN64 _ _ _ _ _ _ (by omega)
  exact ⟨⟨0, by simp⟩, ⟨1, by simp⟩, by simp, ha, hb, le_rfl, le_rfl, hN, Nat.zero_le _⟩

end Grisu.MinMaxProof
