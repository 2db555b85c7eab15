import Verif.Model.Compute
import Verif.Proofs.Arith
import Mathlib.Tactic.Positivity
import Mathlib.Tactic.Linarith
import Mathlib.Tactic.IntervalCases

/-!
# The search for the largest power of ten

The interval of numbers that round to the input is, after multiplication by `2^e * 10^k`, the
interval between `X / B` and `Z / B`.  `lo` and `hi` are the smallest and largest integer in it.
-/

namespace Grisu

/-- The smallest integer in the interval. -/
def loOf (il : Bool) (X B : Nat) : Nat := if il = true ∧ B ∣ X then X / B else X / B + 1

/-- The largest integer in the interval. -/
def hiOf (ir : Bool) (Z B : Nat) : Nat := if ir = false ∧ B ∣ Z then Z / B - 1 else Z / B

theorem loOf_le_iff {il : Bool} {X B n : Nat} (hB : 0 < B) :
    loOf il X B ≤ n ↔ X < n * B ∨ (il = true ∧ X = n * B) := by
  unfold loOf
  split
  · rename_i h
    obtain ⟨h1, k, rfl⟩ := h
    rw [Nat.mul_div_cancel_left _ hB, mul_comm n B]
    constructor
    · intro h
      rcases Nat.lt_or_eq_of_le h with h | h
      · exact Or.inl (Nat.mul_lt_mul_of_pos_left h hB)
      · exact Or.inr ⟨h1, by rw [h]⟩
    · rintro (h | ⟨-, h⟩)
      · exact le_of_lt (Nat.lt_of_mul_lt_mul_left h)
      · exact le_of_eq (Nat.eq_of_mul_eq_mul_left hB h)
  · rename_i h
    rw [Nat.succ_le_iff, Nat.div_lt_iff_lt_mul hB]
    constructor
    · exact Or.inl
    · rintro (h' | ⟨h1, h2⟩)
      · exact h'
      · exact absurd ⟨h1, Dvd.intro_left n h2.symm⟩ h

theorem le_hiOf_iff {ir : Bool} {Z B n : Nat} (hB : 0 < B) (hZ : 0 < Z) :
    n ≤ hiOf ir Z B ↔ n * B < Z ∨ (ir = true ∧ n * B = Z) := by
  unfold hiOf
  split
  · rename_i h
    obtain ⟨h1, k, rfl⟩ := h
    have hk : 0 < k := Nat.pos_of_mul_pos_left hZ
    rw [Nat.mul_div_cancel_left _ hB, mul_comm n B]
    constructor
    · intro h
      exact Or.inl (Nat.mul_lt_mul_of_pos_left (by omega) hB)
    · rintro (h | ⟨h2, -⟩)
      · have := Nat.lt_of_mul_lt_mul_left h
        omega
      · rw [h1] at h2; cases h2
  · rename_i h
    rw [Nat.le_div_iff_mul_le hB]
    constructor
    · intro h'
      rcases Nat.lt_or_eq_of_le h' with h' | h'
      · exact Or.inl h'
      · right
        refine ⟨?_, h'⟩
        by_contra h1
        exact h ⟨by simpa using h1, Dvd.intro_left n h'⟩
    · rintro (h' | ⟨-, h'⟩)
      · exact h'.le
      · exact h'.le

/-- Integer parts of `Z/B`, `X/B` and `(Z-X)/B`. -/
theorem div_sub_div {X Z B : Nat} (hB : 0 < B) (h : X ≤ Z) :
    (Z / B = (Z - X) / B + X / B ∧ X % B + (Z - X) % B < B) ∨
    (Z / B = (Z - X) / B + X / B + 1 ∧ B ≤ X % B + (Z - X) % B) := by
  obtain ⟨D, rfl⟩ := Nat.exists_eq_add_of_le h
  rw [Nat.add_sub_cancel_left, Nat.add_div hB]
  split
  · right; omega
  · left; omega

theorem lo_cases {il : Bool} {X Z B : Nat} (hB : 0 < B) (h : X ≤ Z) :
    loOf il X B + (Z - X) / B = Z / B ∨ loOf il X B + (Z - X) / B = Z / B + 1 := by
  have hd : B ∣ X ↔ X % B = 0 := Nat.dvd_iff_mod_eq_zero
  unfold loOf
  have h2 := Nat.mod_lt (Z - X) hB
  rcases div_sub_div hB h with h1 | h1 <;> split <;> rename_i h3
  · left; omega
  · right; omega
  · rw [hd] at h3; omega
  · left; omega

theorem lo_parity {il : Bool} {X Z B : Nat} (hB : 0 < B) (h : X ≤ Z)
    (hp : Z / B % 2 = (Z - X) / B % 2) :
    ((X / B % 2 = 1 ∨ (il = true ∧ B ∣ X)) ↔ loOf il X B + (Z - X) / B = Z / B) := by
  have hd : B ∣ X ↔ X % B = 0 := Nat.dvd_iff_mod_eq_zero
  unfold loOf
  have h2 := Nat.mod_lt (Z - X) hB
  rcases div_sub_div hB h with h1 | h1 <;> split <;> rename_i h3
  · constructor
    · intro; omega
    · intro; right; exact h3
  · constructor
    · rintro (h4 | h4)
      · omega
      · exact absurd h4 h3
    · intro; omega
  · rw [hd] at h3; omega
  · constructor
    · intro; omega
    · intro; left; omega

/-- What the search needs to know about the result of Step 1. -/
structure Good (c : Ctx) (X Z B : Nat) : Prop where
  posB : 0 < B
  le : X ≤ Z
  zi : c.zi = Z / B
  di : c.deltai = (Z - X) / B
  lo_pos : 0 < loOf c.interval_type.include_left_endpoint X B
  zs : c.zf_smaller =
    .ok (decide (X / B % 2 = 1 ∨ (c.interval_type.include_left_endpoint = true ∧ B ∣ X)))
  zi_lt : Z / B < (match c.F with | .b32 => 10 ^ 9 | .b64 => 10 ^ 19)
  di_ge : (match c.F with | .b32 => 2 | .b64 => 16) ≤ (Z - X) / B
  di_lt : (Z - X) / B < 400

/-- Abbreviations. -/
abbrev Ctx.lo (c : Ctx) (X B : Nat) : Nat := loOf c.interval_type.include_left_endpoint X B
abbrev Ctx.hi (c : Ctx) (Z B : Nat) : Nat := hiOf c.interval_type.include_right_endpoint Z B

variable {c : Ctx} {X Z B : Nat}

/-- `lo` is `zi - deltai` or one more. -/
theorem Good.lo_or (g : Good c X Z B) : c.lo X B + c.deltai = c.zi ∨ c.lo X B + c.deltai = c.zi + 1 := by
  rw [g.zi, g.di]
  exact lo_cases g.posB g.le

theorem Good.zs_iff (g : Good c X Z B) (hp : c.zi % 2 = c.deltai % 2) :
    c.zf_smaller = .ok (decide (c.lo X B + c.deltai = c.zi)) := by
  rw [g.zs]
  congr 1
  rw [decide_eq_decide, g.zi, g.di]
  exact lo_parity g.posB g.le (by rw [← g.zi, ← g.di]; exact hp)

theorem Good.lt_q (g : Good c X Z B) : c.zi < 2 ^ c.F.q := by
  have := g.zi_lt
  rw [g.zi]
  cases h : c.F <;> rw [h] at this <;> simp only [Fmt.q] at * <;> omega

/-- A multiple of `10^κ` in `[lo, zi]` exists. -/
def Reach (c : Ctx) (X B κ : Nat) : Prop := c.lo X B + c.zi % 10 ^ κ ≤ c.zi

theorem mod_pow_mono (n : Nat) {a b : Nat} (h : a ≤ b) : n % 10 ^ a ≤ n % 10 ^ b := by
  have : 10 ^ a ∣ 10 ^ b := pow_dvd_pow 10 h
  rw [← Nat.mod_mod_of_dvd n this]
  exact Nat.mod_le _ _

theorem Reach.anti {a b : Nat} (h : a ≤ b) (hr : Reach c X B b) : Reach c X B a := by
  unfold Reach at *
  have := mod_pow_mono c.zi h
  omega

theorem Reach.pow_le (g : Good c X Z B) {κ : Nat} (h : Reach c X B κ) : 10 ^ κ ≤ c.zi := by
  by_contra h1
  unfold Reach at h
  rw [Nat.mod_eq_of_lt (by omega)] at h
  have := g.lo_pos
  unfold Ctx.lo at h
  omega

/-- The comparisons of `r` with `deltai` decide `Reach`. -/
theorem Good.reach_of_lt (g : Good c X Z B) {κ : Nat} (h : c.zi % 10 ^ κ < c.deltai) :
    Reach c X B κ := by
  unfold Reach
  have := g.lo_or
  omega

theorem Good.not_reach_of_gt (g : Good c X Z B) {κ : Nat} (h : c.deltai < c.zi % 10 ^ κ) :
    ¬ Reach c X B κ := by
  unfold Reach
  have := g.lo_or
  omega

theorem Good.reach_iff_of_eq (g : Good c X Z B) {κ : Nat} (h : c.zi % 10 ^ κ = c.deltai) :
    Reach c X B κ ↔ c.lo X B + c.deltai = c.zi := by
  unfold Reach
  have := g.lo_or
  omega

theorem even_mod {n κ : Nat} (hκ : 1 ≤ κ) : n % 10 ^ κ % 2 = n % 2 := by
  apply Nat.mod_mod_of_dvd
  exact Dvd.dvd.trans (by norm_num : 2 ∣ 10) (dvd_pow_self 10 (by omega))

theorem Good.zs_reach (g : Good c X Z B) {κ : Nat} (hκ : 1 ≤ κ) (h : c.zi % 10 ^ κ = c.deltai)
    [Decidable (Reach c X B κ)] :
    c.zf_smaller = .ok (decide (Reach c X B κ)) := by
  rw [g.zs_iff (by rw [← h, even_mod hκ])]
  congr 1
  rw [decide_eq_decide]
  exact (g.reach_iff_of_eq h).symm

/-- Consistency of the remembered comparison. -/
def ZfOK (c : Ctx) (X B : Nat) : ZfVsDeltaf → Prop
  | .not_compared_yet => True
  | .zf_larger => c.lo X B + c.deltai = c.zi + 1
  | .zf_smaller => c.lo X B + c.deltai = c.zi

/-- The state at `kappa = κ`. -/
structure At (c : Ctx) (κ : Nat) (st : State) : Prop where
  significand : st.significand = c.zi / 10 ^ κ
  exponent : st.exponent = κ + c.minus_k
  r : st.r = c.zi % 10 ^ κ
  divisor : st.divisor = 10 ^ κ

theorem power_of_10_eq (F : Fmt) {n : Nat} (h : n ≤ 9) : F.power_of_10 n = 10 ^ n := by
  cases F <;> interval_cases n <;> decide

theorem mod_pow_add (n a b : Nat) : n % 10 ^ (a + b) = n % 10 ^ a + 10 ^ a * (n / 10 ^ a % 10 ^ b) := by
  rw [pow_add, Nat.mod_mul]

theorem At.increase (g : Good c X Z B) {κ l : Nat} {st : State} (h : At c κ st) (hl : l ≤ 9)
    (hr : Reach c X B (κ + l)) (zf : ZfVsDeltaf) :
    At c (κ + l) (c.increase l st (c.zi % 10 ^ (κ + l)) zf) := by
  have h1 := hr.pow_le g
  have h2 := g.lt_q
  constructor
  · simp only [Ctx.increase, power_of_10_eq _ hl, h.significand]
    rw [Nat.div_div_eq_div_mul, pow_add]
  · simp only [Ctx.increase, h.exponent]
    push_cast
    ring
  · rfl
  · simp only [Ctx.increase, power_of_10_eq _ hl, h.divisor]
    rw [← pow_add, wrap_of_lt (by omega)]

/-- One step of the increasing search. -/
theorem Good.increasing_search (g : Good c X Z B) {κ l : Nat} {st : State} (init : Bool) (h : At c κ st)
    (hl : l ≤ 9) (hκ : 1 ≤ κ) (hr : Reach c X B κ) (hn : ¬ Reach c X B (κ + 2 * l)) (hz : ZfOK c X B st.zf)
    (hi : init = true → st.zf ≠ .zf_larger) :
    ∃ κ' st', c.increasing_search l init st = .ok st' ∧ At c κ' st' ∧ κ ≤ κ' ∧ Reach c X B κ' ∧
      ¬ Reach c X B (κ' + l) ∧ ZfOK c X B st'.zf := by
  classical
  have hq := g.lt_q
  have hnew : wrap c.F.q (st.r + wrap c.F.q (st.divisor * (st.significand % c.F.power_of_10 l))) =
      c.zi % 10 ^ (κ + l) := by
    rw [h.r, h.divisor, h.significand, power_of_10_eq _ hl, mod_pow_add]
    have h1 : c.zi % 10 ^ (κ + l) ≤ c.zi := Nat.mod_le _ _
    rw [mod_pow_add] at h1
    rw [wrap_of_lt (n := 10 ^ κ * _) (by omega), wrap_of_lt (by omega)]
  have stay : ∀ zf, ZfOK c X B zf → ¬ Reach c X B (κ + l) →
      ∃ κ' st', Exec.ok { st with zf := zf } = Exec.ok st' ∧ At c κ' st' ∧ κ ≤ κ' ∧ Reach c X B κ' ∧
      ¬ Reach c X B (κ' + l) ∧ ZfOK c X B st'.zf := fun zf hzf hnr =>
    ⟨κ, _, rfl, ⟨h.significand, h.exponent, h.r, h.divisor⟩, le_refl _, hr, hnr, hzf⟩
  have go : ∀ zf, ZfOK c X B zf → Reach c X B (κ + l) →
      ∃ κ' st', Exec.ok (c.increase l st (c.zi % 10 ^ (κ + l)) zf) = Exec.ok st' ∧ At c κ' st' ∧
      κ ≤ κ' ∧ Reach c X B κ' ∧ ¬ Reach c X B (κ' + l) ∧ ZfOK c X B st'.zf := fun zf hzf hre =>
    ⟨κ + l, _, rfl, h.increase g hl hre zf, by omega, hre,
      by rw [add_assoc, ← two_mul]; exact hn, hzf⟩
  unfold Ctx.increasing_search
  simp only [hnew]
  by_cases c1 : c.zi % 10 ^ (κ + l) > c.deltai
  · rw [if_pos c1]
    exact stay st.zf hz (g.not_reach_of_gt c1)
  · rw [if_neg c1]
    by_cases c2 : c.zi % 10 ^ (κ + l) = c.deltai
    · rw [if_pos c2]
      have hiff := g.reach_iff_of_eq c2
      cases hzf : st.zf with
      | not_compared_yet =>
        simp only
        rw [g.zs_reach (by omega) c2]
        simp only [Exec.ok_bind, decide_eq_true_eq]
        by_cases c3 : Reach c X B (κ + l)
        · rw [if_pos c3]
          exact go _ (hiff.1 c3) c3
        · rw [if_neg c3]
          refine stay _ ?_ c3
          have := g.lo_or
          show _ = _
          rw [hiff] at c3
          omega
      | zf_larger =>
        simp only
        rw [if_neg (by intro hh; exact hi hh hzf)]
        have := stay st.zf hz (by
          rw [hzf] at hz
          simp only [ZfOK] at hz
          rw [hiff]
          omega)
        exact this
      | zf_smaller =>
        simp only
        rw [hzf] at hz
        exact go _ hz (hiff.2 hz)
    · rw [if_neg c2]
      exact go _ hz (g.reach_of_lt (by omega))

/-- The outcome of Step 2. -/
structure SearchPost (c : Ctx) (X B κ : Nat) (label : Label) (st : State) : Prop where
  at_ : At c κ st
  reach : Reach c X B κ
  max : ¬ Reach c X B (κ + 1)
  le18 : κ ≤ 18
  label : (label = .boundary_adjustment ∧ (c.crs ≠ .do_not_care → c.tag = .to_nearest → 1 ≤ κ) ∧
      (c.F = .b64 → 1 ≤ κ)) ∨
    (label = .correct_rounding_search_when_kappa_is_0 ∧ c.F = .b32 ∧ κ = 0 ∧
      c.crs ≠ .do_not_care ∧ c.tag = .to_nearest) ∨
    (label = .correct_rounding_search ∧ c.F = .b64 ∧ κ = 1 ∧
      c.crs ≠ .do_not_care ∧ c.tag = .to_nearest)

theorem Good.not_reach_big (g : Good c X Z B) {κ : Nat} (h : c.zi < 10 ^ κ) : ¬ Reach c X B κ := by
  intro hr
  have := hr.pow_le g
  omega

theorem SearchPost.of_reach (g : Good c X Z B) {κ : Nat} {st : State} (h : At c κ st)
    (hr : Reach c X B κ) (hn : ¬ Reach c X B (κ + 1)) (h1 : 1 ≤ κ) :
    SearchPost c X B κ .boundary_adjustment st := by
  refine ⟨h, hr, hn, ?_, Or.inl ⟨rfl, fun _ _ => h1, fun _ => h1⟩⟩
  by_contra hlt
  refine g.not_reach_big ?_ (hr.anti (show 19 ≤ κ by omega))
  have := g.zi_lt
  rw [g.zi]
  cases hF : c.F <;> rw [hF] at this <;> simp only at this <;> omega

theorem Good.increasing_searches (g : Good c X Z B) {st : State}
    (hs : st.significand = c.zi / 10 ^ c.F.initial_kappa)
    (he : st.exponent = c.F.initial_kappa + c.minus_k) (hr : st.r = c.zi % 10 ^ c.F.initial_kappa)
    (hre : Reach c X B c.F.initial_kappa) (hz : ZfOK c X B st.zf) (hl : st.zf ≠ .zf_larger) :
    ∃ κ st', c.increasing_searches st = .ok (.boundary_adjustment, st') ∧
      SearchPost c X B κ .boundary_adjustment st' := by
  have hzi := g.zi_lt
  rw [← g.zi] at hzi
  have hat : At c c.F.initial_kappa { st with divisor := c.F.power_of_10 c.F.initial_kappa } :=
    ⟨hs, he, hr, power_of_10_eq _ (by cases c.F <;> decide)⟩
  unfold Ctx.increasing_searches
  cases hF : c.F with
  | b32 =>
    rw [hF] at hzi hat hre
    simp only [Fmt.initial_kappa] at hzi hat hre ⊢
    obtain ⟨k1, s1, e1, a1, l1, r1, n1, z1⟩ := g.increasing_search (l := 4) true hat (by omega) (by omega)
      hre (g.not_reach_big (by omega)) hz (fun _ => hl)
    rw [e1]
    simp only [Exec.ok_bind]
    obtain ⟨k2, s2, e2, a2, l2, r2, n2, z2⟩ := g.increasing_search (l := 2) false a1 (by omega) (by omega)
      r1 n1 z1 (by simp)
    rw [e2]
    simp only [Exec.ok_bind]
    obtain ⟨k3, s3, e3, a3, l3, r3, n3, z3⟩ := g.increasing_search (l := 1) false a2 (by omega) (by omega)
      r2 n2 z2 (by simp)
    rw [e3]
    simp only [Exec.ok_bind]
    exact ⟨k3, s3, rfl, SearchPost.of_reach g a3 r3 n3 (by omega)⟩
  | b64 =>
    rw [hF] at hzi hat hre
    simp only [Fmt.initial_kappa] at hzi hat hre ⊢
    obtain ⟨k1, s1, e1, a1, l1, r1, n1, z1⟩ := g.increasing_search (l := 8) true hat (by omega) (by omega)
      hre (g.not_reach_big (by omega)) hz (fun _ => hl)
    rw [e1]
    simp only [Exec.ok_bind]
    obtain ⟨k2, s2, e2, a2, l2, r2, n2, z2⟩ := g.increasing_search (l := 4) false a1 (by omega) (by omega)
      r1 n1 z1 (by simp)
    rw [e2]
    simp only [Exec.ok_bind]
    obtain ⟨k3, s3, e3, a3, l3, r3, n3, z3⟩ := g.increasing_search (l := 2) false a2 (by omega) (by omega)
      r2 n2 z2 (by simp)
    rw [e3]
    simp only [Exec.ok_bind]
    obtain ⟨k4, s4, e4, a4, l4, r4, n4, z4⟩ := g.increasing_search (l := 1) false a3 (by omega) (by omega)
      r3 n3 z3 (by simp)
    rw [e4]
    simp only [Exec.ok_bind]
    exact ⟨k4, s4, rfl, SearchPost.of_reach g a4 r4 n4 (by omega)⟩

theorem At.decrease_by_1 (g : Good c X Z B) {st : State} (zf : ZfVsDeltaf)
    (hs : st.significand = c.zi / 10 ^ c.F.initial_kappa)
    (he : st.exponent = c.F.initial_kappa + c.minus_k) (hr : st.r = c.zi % 10 ^ c.F.initial_kappa) :
    At c (c.F.initial_kappa - 1) (c.decrease_by_1 st (wrap 32 st.r / 10 ^ (c.F.initial_kappa - 1))
      (c.zi % 10 ^ (c.F.initial_kappa - 1)) zf).2 := by
  have hq := g.lt_q
  constructor
  · simp only [Ctx.decrease_by_1, hs, hr]
    cases hF : c.F <;> rw [hF] at hq <;> simp only [Fmt.initial_kappa, Fmt.q, wrap] at hq ⊢ <;> omega
  · simp only [Ctx.decrease_by_1, he]
    cases hF : c.F <;> simp only [Fmt.initial_kappa] <;> omega
  · rfl
  · simp only [Ctx.decrease_by_1]
    exact power_of_10_eq _ (by cases c.F <;> decide)

theorem At.decrease_by_2 (g : Good c X Z B) {st : State} (zf : ZfVsDeltaf)
    (hs : st.significand = c.zi / 10 ^ c.F.initial_kappa)
    (he : st.exponent = c.F.initial_kappa + c.minus_k) (hr : st.r = c.zi % 10 ^ c.F.initial_kappa) :
    At c (c.F.initial_kappa - 2) (c.decrease_by_2 st (wrap 32 st.r / 10 ^ (c.F.initial_kappa - 1))
      (c.zi % 10 ^ (c.F.initial_kappa - 1)) zf).2 := by
  have hq := g.lt_q
  constructor
  · simp only [Ctx.decrease_by_2, hs, hr]
    cases hF : c.F <;> rw [hF] at hq <;> simp only [Fmt.initial_kappa, Fmt.q, wrap] at hq ⊢ <;> omega
  · simp only [Ctx.decrease_by_2, he]
    cases hF : c.F <;> simp only [Fmt.initial_kappa] <;> omega
  · simp only [Ctx.decrease_by_2]
    cases hF : c.F <;> simp only [Fmt.initial_kappa] <;> omega
  · simp only [Ctx.decrease_by_2]
    exact power_of_10_eq _ (by cases c.F <;> decide)

theorem Good.reach_min (g : Good c X Z B) : Reach c X B (c.F.initial_kappa - 2) := by
  apply g.reach_of_lt
  have := g.di_ge
  rw [← g.di] at this
  cases hF : c.F <;> rw [hF] at this <;> simp only [Fmt.initial_kappa] at * <;> omega

theorem Good.decreasing_search (g : Good c X Z B) {st : State}
    (hs : st.significand = c.zi / 10 ^ c.F.initial_kappa)
    (he : st.exponent = c.F.initial_kappa + c.minus_k) (hr : st.r = c.zi % 10 ^ c.F.initial_kappa)
    (hn : ¬ Reach c X B c.F.initial_kappa) (hz : ZfOK c X B st.zf) (hl : st.zf ≠ .zf_smaller) :
    ∃ κ l st', c.decreasing_search st = .ok (l, st') ∧ SearchPost c X B κ l st' := by
  classical
  have hpow : wrap 32 (c.F.power_of_10 (c.F.initial_kappa - 1)) = 10 ^ (c.F.initial_kappa - 1) := by
    cases c.F <;> decide
  have hnew : wrap 32 st.r % 10 ^ (c.F.initial_kappa - 1) = c.zi % 10 ^ (c.F.initial_kappa - 1) := by
    rw [hr]
    cases c.F <;> simp only [Fmt.initial_kappa, wrap] <;> omega
  have hik : 2 ≤ c.F.initial_kappa := by cases c.F <;> decide
  have d1 : ∀ zf, Reach c X B (c.F.initial_kappa - 1) →
      ∃ κ l st', Exec.ok (c.decrease_by_1 st (wrap 32 st.r / 10 ^ (c.F.initial_kappa - 1))
      (c.zi % 10 ^ (c.F.initial_kappa - 1)) zf) = .ok (l, st') ∧ SearchPost c X B κ l st' := by
    intro zf hre
    refine ⟨_, _, _, rfl, SearchPost.of_reach g (At.decrease_by_1 g zf hs he hr) hre ?_ (by omega)⟩
    rw [Nat.sub_add_cancel (by omega)]
    exact hn
  have d2 : ∀ zf, ¬ Reach c X B (c.F.initial_kappa - 1) →
      ∃ κ l st', Exec.ok (c.decrease_by_2 st (wrap 32 st.r / 10 ^ (c.F.initial_kappa - 1))
      (c.zi % 10 ^ (c.F.initial_kappa - 1)) zf) = .ok (l, st') ∧ SearchPost c X B κ l st' := by
    intro zf hre
    refine ⟨_, _, _, rfl, At.decrease_by_2 g zf hs he hr, g.reach_min, ?_, ?_, ?_⟩
    · rw [show c.F.initial_kappa - 2 + 1 = c.F.initial_kappa - 1 by omega]
      exact hre
    · cases c.F <;> decide
    · unfold Ctx.after_decrease_by_2
      by_cases hc : c.crs ≠ .do_not_care ∧ c.tag = .to_nearest
      · rw [if_pos hc]
        cases hF : c.F
        · right; left
          exact ⟨if_pos (by decide), rfl, rfl, hc.1, hc.2⟩
        · right; right
          exact ⟨if_neg (by decide), rfl, rfl, hc.1, hc.2⟩
      · rw [if_neg hc]
        left
        refine ⟨rfl, fun h1 h2 => absurd ⟨h1, h2⟩ hc, fun h => ?_⟩
        rw [h]; decide
  unfold Ctx.decreasing_search
  simp only [hpow, hnew]
  by_cases c1 : c.zi % 10 ^ (c.F.initial_kappa - 1) < c.deltai
  · rw [if_pos c1]
    exact d1 _ (g.reach_of_lt c1)
  · rw [if_neg c1]
    by_cases c2 : c.zi % 10 ^ (c.F.initial_kappa - 1) = c.deltai
    · by_cases c3 : st.zf = .not_compared_yet
      · rw [if_pos ⟨c2, c3⟩, g.zs_reach (by omega) c2]
        simp only [Exec.ok_bind, decide_eq_true_eq]
        by_cases c4 : Reach c X B (c.F.initial_kappa - 1)
        · rw [if_pos c4]
          exact d1 _ c4
        · rw [if_neg c4]
          exact d2 _ c4
      · rw [if_neg (by tauto)]
        refine d2 _ ?_
        rw [g.reach_iff_of_eq c2]
        have : st.zf = .zf_larger := by
          cases h : st.zf <;> simp_all
        rw [this] at hz
        simp only [ZfOK] at hz
        omega
    · rw [if_neg (by tauto)]
      exact d2 _ (g.not_reach_of_gt (by omega))

/-- Step 2 finds the largest `κ` for which `[lo, zi]` contains a multiple of `10^κ`. -/
theorem Good.search (g : Good c X Z B) :
    ∃ κ l st, c.search = .ok (l, st) ∧ SearchPost c X B κ l st := by
  classical
  have hik : 2 ≤ c.F.initial_kappa ∧ c.F.initial_kappa ≤ 9 := by cases c.F <;> decide
  unfold Ctx.search
  simp only [power_of_10_eq _ hik.2]
  by_cases c1 : c.zi % 10 ^ c.F.initial_kappa < c.deltai
  · rw [if_pos c1]
    obtain ⟨κ, st', h1, h2⟩ := g.increasing_searches (st := ⟨_, _, _, _, .not_compared_yet⟩) rfl rfl rfl
      (g.reach_of_lt c1) trivial (by simp)
    exact ⟨κ, _, st', h1, h2⟩
  · rw [if_neg c1]
    by_cases c2 : c.zi % 10 ^ c.F.initial_kappa = c.deltai
    · rw [if_pos c2, g.zs_reach (by omega) c2]
      simp only [Exec.ok_bind, decide_eq_true_eq]
      have hiff := g.reach_iff_of_eq c2
      by_cases c3 : Reach c X B c.F.initial_kappa
      · rw [if_pos c3]
        obtain ⟨κ, st', h1, h2⟩ := g.increasing_searches (st := ⟨_, _, _, _, .zf_smaller⟩) rfl rfl rfl
          c3 (hiff.1 c3) (by simp)
        exact ⟨κ, _, st', h1, h2⟩
      · rw [if_neg c3]
        refine g.decreasing_search (st := ⟨_, _, _, _, .zf_larger⟩) rfl rfl rfl c3 ?_ (by simp)
        show _ = _
        have := g.lo_or
        rw [hiff] at c3
        omega
    · rw [if_neg c2]
      exact g.decreasing_search (st := ⟨_, _, _, _, .not_compared_yet⟩) rfl rfl rfl
        (g.not_reach_of_gt (by omega)) trivial (by simp)

end Grisu
