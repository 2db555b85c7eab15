import Verif.SpecBest
import Verif.Proofs.Short

/-! # The specification determines the result: lemmas -/

namespace Grisu

open Spec (RoundsTo value mag isNeg FiniteNonzero dec numDigits TieChoice IsNearest IsAway IsTruncating Best
  LargestShortest NotShortest)

variable {F : Fmt} {x : Nat} {s s' : Nat} {t t' : Int}

/-- The distance to the smaller neighbour is at most the one to the larger. -/
theorem pred_gap {m : Nat} (h : 0 < m) :
    value F m - value F (m - 1) ≤ value F (m + 1) - value F m := by
  have h2 := Spec.two_zpow_pos (Spec.ex F m)
  rw [Spec.value_succ]
  by_cases hc : Spec.Closer F m
  · rw [Spec.value_pred_closer hc, Spec.value_eq m]
    nlinarith
  · rw [Spec.value_pred_generic h hc, Spec.value_eq m]
    nlinarith

/-- What reads back as `x` is less than one unit in the last place away. -/
theorem reads_near (h : FiniteNonzero F x) {mode : RoundingMode} {v : ℚ} (hr : Reads F mode x v) :
    |v - value F (mag F x)| < value F (mag F x + 1) - value F (mag F x) := by
  have hp := h.nonzero
  have hf := h.finite
  have gap := pred_gap (F := F) hp
  have hup := Spec.value_lt_succ (F := F) (mag F x)
  have hdn : value F (mag F x - 1) < value F (mag F x) := Spec.value_strictMono (by omega)
  have near : ∀ prefers, Spec.Nearest F prefers v (mag F x) →
      |v - value F (mag F x)| < value F (mag F x + 1) - value F (mag F x) := by
    intro prefers hn
    have h1 : |v - value F (mag F x)| ≤ |v - value F (mag F x + 1)| :=
      (hn.2 (mag F x + 1) (by omega) (by omega)).elim le_of_lt (fun h => h.1.le)
    have h2 : |v - value F (mag F x)| ≤ |v - value F (mag F x - 1)| :=
      (hn.2 (mag F x - 1) (by omega) (by omega)).elim le_of_lt (fun h => h.1.le)
    rcases le_total v (value F (mag F x)) with g | g
    · rw [abs_of_nonpos (by linarith)] at h2 ⊢
      rcases le_total v (value F (mag F x - 1)) with g' | g'
      · rw [abs_of_nonpos (by linarith)] at h2
        linarith
      · rw [abs_of_nonneg (by linarith)] at h2
        linarith
    · rw [abs_of_nonneg (by linarith)] at h1 ⊢
      rcases le_total v (value F (mag F x + 1)) with g' | g'
      · rw [abs_of_nonpos (by linarith)] at h1
        linarith
      · rw [abs_of_nonneg (by linarith)] at h1
        linarith
  have zero : Spec.TowardZero F v (mag F x) →
      |v - value F (mag F x)| < value F (mag F x + 1) - value F (mag F x) := by
    rintro ⟨-, h1, h2⟩
    rw [abs_of_nonneg (by linarith)]
    linarith
  have away : Spec.AwayFromZero F v (mag F x) →
      |v - value F (mag F x)| < value F (mag F x + 1) - value F (mag F x) := by
    rintro ⟨-, -, h1, h2⟩
    rw [abs_of_nonpos (by linarith)]
    linarith
  unfold Reads RoundsTo at hr
  cases mode <;> simp only [] at hr <;> first
    | exact near _ hr
    | exact zero hr
    | exact away hr
    | (split at hr <;> first | exact near _ hr | exact zero hr | exact away hr)

theorem value_reads (h : FiniteNonzero F x) (mode : RoundingMode) : Reads F mode x (value F (mag F x)) := by
  rw [reads_eq h]; exact value_mem _ h

/-- An input that is a decimal as coarse as the spacing of the floating-point numbers is the output. -/
theorem exact_core (h : FiniteNonzero F x) {mode : RoundingMode} (o : Output (Reads F mode x) s t) {d : Nat} {k : Int}
    (hv : value F (mag F x) = dec d k) (hu : value F (mag F x + 1) - value F (mag F x) ≤ 10 ^ k) :
    dec s t = dec d k := by
  have hk : k ≤ t := by
    by_contra hc
    exact o.noMult d k (by omega) (hv ▸ value_reads h mode)
  have h1 := reads_near h o.mem
  rw [hv] at h1
  rw [dec_shift' s hk] at h1 ⊢
  generalize s * 10 ^ (t - k).toNat = a at *
  have hT := ten_zpow_pos k
  congr 1
  by_contra hne
  rw [hv] at hu
  have h2 : (10 : ℚ) ^ k ≤ |dec a k - dec d k| := by
    unfold dec
    rw [← sub_mul, abs_mul, abs_of_pos hT]
    have h3 : (1 : ℚ) ≤ |(a : ℚ) - d| := by
      have : (1 : ℤ) ≤ |(a : ℤ) - d| := Int.one_le_abs (by omega)
      exact_mod_cast this
    nlinarith
  linarith

/-- None of the inputs on which the truncating modes are not shortest is such a decimal. -/
theorem notShortest_not_exact (hx : NotShortest F x) {d : Nat} {k : Int}
    (hv : value F (mag F x) = dec d k) : ¬ value F (mag F x + 1) - value F (mag F x) ≤ 10 ^ k := by
  intro hu
  have hmag := fun E => notShortest_sum (E := E) hx.1
  have hE := hx.2
  have key : ∀ A B : Nat, value F (mag F x) = (A : ℚ) → value F (mag F x + 1) = (B : ℚ) → A + 11 ≤ B →
      A % 100 ≠ 0 → False := by
    intro A B e1 e2 e3 e4
    have hk : 2 ≤ k := by
      by_contra hc
      have h1 : (10 : ℚ) ^ k ≤ 10 ^ (1 : Int) := ten_zpow_le.mpr (by omega)
      have h2 : (A : ℚ) + 11 ≤ B := by exact_mod_cast e3
      rw [e1, e2] at hu
      norm_num at h1
      linarith
    rw [e1, dec_shift' d hk] at hv
    unfold dec at hv
    have h1 : A = d * 10 ^ (k - 2).toNat * 100 := by
      have : (A : ℚ) = ((d * 10 ^ (k - 2).toNat * 100 : Nat) : ℚ) := by
        rw [hv]; push_cast; norm_num
      exact_mod_cast this
    omega
  cases F with
  | b32 =>
    have h4 : mag .b32 x ∈ [0x54FFFFFF, 0x587FFFFF, 0x5D7FFFFF, 0x5DFFFFFF] := by
      rw [hmag _ rfl]
      generalize Spec.exponentField .b32 x = E at hE
      revert E
      decide
    simp only [List.mem_cons, List.not_mem_nil, or_false] at h4
    rcases h4 with h4 | h4 | h4 | h4 <;> rw [h4] at key
    · exact key ((2 ^ 24 - 1) * 2 ^ 19) (2 ^ 24 * 2 ^ 19) (by norm_num [value, Spec.mantBits, Spec.ulpExp])
        (by norm_num [value, Spec.mantBits, Spec.ulpExp]) (by norm_num) (by norm_num)
    · exact key ((2 ^ 24 - 1) * 2 ^ 26) (2 ^ 24 * 2 ^ 26) (by norm_num [value, Spec.mantBits, Spec.ulpExp])
        (by norm_num [value, Spec.mantBits, Spec.ulpExp]) (by norm_num) (by norm_num)
    · exact key ((2 ^ 24 - 1) * 2 ^ 36) (2 ^ 24 * 2 ^ 36) (by norm_num [value, Spec.mantBits, Spec.ulpExp])
        (by norm_num [value, Spec.mantBits, Spec.ulpExp]) (by norm_num) (by norm_num)
    · exact key ((2 ^ 24 - 1) * 2 ^ 37) (2 ^ 24 * 2 ^ 37) (by norm_num [value, Spec.mantBits, Spec.ulpExp])
        (by norm_num [value, Spec.mantBits, Spec.ulpExp]) (by norm_num) (by norm_num)
  | b64 =>
    have h4 : mag .b64 x = 0x461FFFFFFFFFFFFF := by
      rw [hmag _ rfl]
      generalize Spec.exponentField .b64 x = E at hE
      revert E
      decide
    rw [h4] at key
    exact key ((2 ^ 53 - 1) * 2 ^ 46) (2 ^ 53 * 2 ^ 46) (by norm_num [value, Spec.mantBits, Spec.ulpExp])
        (by norm_num [value, Spec.mantBits, Spec.ulpExp]) (by norm_num) (by norm_num)

/-- A decimal is determined by its value and its number of digits. -/
theorem dec_inj (hs : 0 < s) (hs' : 0 < s') (hd : numDigits s = numDigits s') (h : dec s t = dec s' t') :
    s = s' ∧ t = t' := by
  have key : ∀ {a b : Nat} {u w : Int}, 0 < b → numDigits a = numDigits b → dec a u = dec b w → ¬ u < w := by
    intro a b u w hb hd h hc
    have h1 := dec_lt_pow a u
    have h2 := pow_le_dec hb w
    rw [h] at h1
    have h3 := ten_zpow_lt.mp (lt_of_le_of_lt h2 h1)
    omega
  have ht : t = t' := by
    have := key hs' hd h
    have := key hs hd.symm h.symm
    omega
  subst ht
  refine ⟨?_, rfl⟩
  rcases Nat.lt_trichotomy s s' with g | g | g
  · exact absurd h (dec_lt_dec.mpr g).ne
  · exact g
  · exact absurd h (dec_lt_dec.mpr g).ne'

theorem Output.largest_all {I : ℚ → Prop} (hI : Interval? I) (o : Output I s t) (l : Largest I s t)
    (h : I (dec s' t')) (hd : numDigits s' = numDigits s) : dec s' t' ≤ dec s t := by
  rcases lt_trichotomy t' t with g | rfl | g
  · refine (dec_lt_pow s' t').le.trans (le_trans ?_ (pow_le_dec (o.pos hI) t))
    rw [ten_zpow_le]
    omega
  · exact dec_le_dec.mpr (l _ h)
  · exact absurd h (o.noMult _ _ g)

/-- Largest of the shortest decimals. -/
theorem largestShortest_iff (h : FiniteNonzero F x) {mode : RoundingMode} (o : Output (Reads F mode x) s t)
    (l : Largest (Reads F mode x) s t) : LargestShortest F mode x s' t' ↔ s' = s ∧ t' = t := by
  have hI : Interval? (Reads F mode x) := reads_interval_left h mode
  have me : LargestShortest F mode x s t :=
    ⟨o.mem, fun _ _ h' => o.shortest hI h', fun _ _ h' hd => o.largest_all hI l h' hd⟩
  constructor
  · intro b
    have hd : numDigits s' = numDigits s := le_antisymm (b.shortest _ _ o.mem) (me.shortest _ _ b.reads)
    refine dec_inj ?_ (o.pos hI) hd (le_antisymm (me.largest _ _ b.reads hd) (b.largest _ _ o.mem hd.symm))
    rcases Nat.eq_zero_or_pos s' with h0 | h0
    · have := hI.pos _ b.reads
      rw [h0] at this
      simp [dec] at this
    · exact h0
  · rintro ⟨rfl, rfl⟩
    exact me

theorem best_iff_nearest (h : FiniteNonzero F x) {mode : RoundingMode} {crs : Crs} (hcrs : crs ≠ .do_not_care)
    (o : Output (Reads F mode x) s t) (c : ClosestAt (Reads F mode x) (value F (mag F x)) crs s t)
    (a : ∀ s' t', Reads F mode x (dec s' t') → numDigits s' ≤ numDigits s →
      |dec s t - value F (mag F x)| ≤ |dec s' t' - value F (mag F x)| ∧
      ((s', t') ≠ (s, t) → |dec s t - value F (mag F x)| = |dec s' t' - value F (mag F x)| →
        t' = t ∧ TieChoice crs s s')) : Best F mode crs x s' t' ↔ s' = s ∧ t' = t := by
  have hI : Interval? (Reads F mode x) := reads_interval_left h mode
  have me : Best F mode crs x s t :=
    ⟨o.mem, fun _ _ h' => o.shortest hI h', fun _ _ h' hd => (a _ _ h' hd.le).1,
      fun _ hne h' hd he => c.tie _ hne h' he⟩
  constructor
  · intro b
    have hd : numDigits s' = numDigits s := le_antisymm (b.shortest _ _ o.mem) (me.shortest _ _ b.reads)
    by_contra hne
    have he : |dec s t - value F (mag F x)| = |dec s' t' - value F (mag F x)| :=
      le_antisymm (me.closest _ _ b.reads hd) (b.closest _ _ o.mem hd.symm)
    obtain ⟨rfl, -⟩ := (a _ _ b.reads hd.le).2 (fun hc => hne (by cases hc; exact ⟨rfl, rfl⟩)) he
    have o' : Output (Reads F mode x) s' t' := ⟨b.reads, o.noMult⟩
    have c' : ClosestAt (Reads F mode x) (value F (mag F x)) crs s' t' := by
      refine ⟨fun n hn => he ▸ c.closest n hn, fun n hn hr heq => ?_⟩
      refine b.tie n hn hr ?_ heq
      refine le_antisymm ?_ (b.shortest _ _ hr)
      by_contra hc
      apply o.not_pow (j := t' + numDigits s') (by have := numDigits_pos (o'.pos hI); omega)
      refine hI.convex _ _ _ b.reads hr (dec_lt_pow s' t').le (le_trans ?_ (pow_le_dec (s := n) ?_ t'))
      · rw [ten_zpow_le]; omega
      · rcases Nat.eq_zero_or_pos n with h0 | h0
        · rw [h0] at hc; unfold numDigits at hc; simp at hc
        · exact h0
    exact hne (ClosestAt.unique hI hcrs o' o c' c)
  · rintro ⟨rfl, rfl⟩
    exact me

theorem best_iff_away (h : FiniteNonzero F x) {mode : RoundingMode} {crs : Crs}
    (hm : IsAway (isNeg F x) mode = true)
    (o : Output (Reads F mode x) s t) (l : Largest (Reads F mode x) s t) :
    Best F mode crs x s' t' ↔ s' = s ∧ t' = t := by
  have hI : Interval? (Reads F mode x) := reads_interval_left h mode
  have me : Best F mode crs x s t :=
    ⟨o.mem, fun _ _ h' => o.shortest hI h', fun _ _ h' hd => (closest_away h hm o l h' hd.le).1,
      fun _ hne h' hd he => absurd ((closest_away h hm o l h' hd.le).2 he) (by simpa using hne)⟩
  constructor
  · intro b
    have hd : numDigits s' = numDigits s := le_antisymm (b.shortest _ _ o.mem) (me.shortest _ _ b.reads)
    have := (closest_away h hm o l b.reads hd.le).2
      (le_antisymm (me.closest _ _ b.reads hd) (b.closest _ _ o.mem hd.symm))
    simpa using this
  · rintro ⟨rfl, rfl⟩
    exact me

/-- Two closest decimals with the same exponent are neighbours, with the input halfway between them. -/
theorem closest_neighbours {I : ℚ → Prop} (hI : Interval? I) {y : ℚ} {a b : Nat} (hab : a < b)
    (ca : ∀ n, I (dec n t) → |dec a t - y| ≤ |dec n t - y|) (ma : I (dec a t)) (mb : I (dec b t))
    (he : |dec a t - y| = |dec b t - y|) : b = a + 1 ∧ y = (dec a t + dec b t) / 2 := by
  have l0 : dec a t < dec b t := dec_lt_dec.mpr hab
  have hy : y = (dec a t + dec b t) / 2 := by
    rcases le_total y (dec a t) with g1 | g1
    · rw [abs_of_nonneg (by linarith), abs_of_nonneg (by linarith)] at he; linarith
    · rcases le_total y (dec b t) with g2 | g2
      · rw [abs_of_nonpos (by linarith), abs_of_nonneg (by linarith)] at he; linarith
      · rw [abs_of_nonpos (by linarith), abs_of_nonpos (by linarith)] at he; linarith
  refine ⟨?_, hy⟩
  by_contra hc
  have l1 : dec a t < dec (a + 1) t := dec_lt_dec.mpr (by omega)
  have l2 : dec (a + 1) t < dec b t := dec_lt_dec.mpr (by omega)
  have hm : I (dec (a + 1) t) := hI.convex _ _ _ ma mb l1.le l2.le
  have hcl := ca _ hm
  have h3 : |dec (a + 1) t - y| < |dec a t - y| := by
    rw [abs_of_nonpos (a := dec a t - y) (by linarith), abs_lt]
    constructor <;> linarith
  linarith

/-- What is known of a call in a nearest mode with a tie policy. -/
theorem nearest_all (cfg : Cfg) (rs : Bool) (handler : CaseHandler) {mode : RoundingMode} {crs : Crs}
    (h : FiniteNonzero F x) (hm : IsNearest mode = true) (hcrs : crs ≠ .do_not_care) :
    ∃ s t, grisu_exact cfg F rs x mode crs handler = .ok ⟨s, t, if rs then some (isNeg F x) else none⟩ ∧
      Output (Reads F mode x) s t ∧ ClosestAt (Reads F mode x) (value F (mag F x)) crs s t ∧
      ∀ s' t', Reads F mode x (dec s' t') → numDigits s' ≤ numDigits s →
        |dec s t - value F (mag F x)| ≤ |dec s' t' - value F (mag F x)| ∧
        ((s', t') ≠ (s, t) → |dec s t - value F (mag F x)| = |dec s' t' - value F (mag F x)| →
          t' = t ∧ TieChoice crs s s') := by
  obtain ⟨s, t, h1, h2, h3, -⟩ := main_nearest cfg rs handler h hm hcrs
  obtain ⟨s', t', g1, -, g3⟩ := main_nearest_closest cfg rs handler h hm hcrs
  rw [h1] at g1
  cases g1
  exact ⟨s, t, h1, h2, h3, g3⟩

/-- A number that reads back in one nearest mode and not in another is halfway to a neighbour. -/
theorem nearest_halfway (h : FiniteNonzero F x) {mode mode' : RoundingMode} (hm : IsNearest mode = true)
    (hm' : IsNearest mode' = true) {v : ℚ} (h1 : Reads F mode x v) (h2 : ¬ Reads F mode' x v) :
    v = (value F (mag F x) + value F (mag F x + 1)) / 2 ∨ v = (value F (mag F x) + value F (mag F x - 1)) / 2 := by
  by_contra hc
  push Not at hc
  apply h2
  have hup := Spec.value_lt_succ (F := F) (mag F x)
  have hdn : value F (mag F x - 1) < value F (mag F x) := Spec.value_strictMono (by have := h.nonzero; omega)
  have inn : ∀ prefers, Spec.Nearest F prefers v (mag F x) →
      (value F (mag F x) + value F (mag F x - 1)) / 2 < v ∧ v < (value F (mag F x) + value F (mag F x + 1)) / 2 := by
    intro prefers hn
    rw [Spec.nearest_iff h.nonzero h.finite] at hn
    obtain ⟨a, b⟩ := hn
    constructor
    · rcases a with a | a
      · linarith
      · exact absurd (by linarith [a.1]) hc.2
    · rcases b with a | a
      · linarith
      · exact absurd (by linarith [a.1]) hc.1
  have out : ∀ prefers, (value F (mag F x) + value F (mag F x - 1)) / 2 < v →
      v < (value F (mag F x) + value F (mag F x + 1)) / 2 → Spec.Nearest F prefers v (mag F x) := by
    intro prefers a b
    rw [Spec.nearest_iff h.nonzero h.finite]
    exact ⟨Or.inl (by linarith), Or.inl (by linarith)⟩
  have h3 : ∃ prefers, Spec.Nearest F prefers v (mag F x) := by
    unfold Reads RoundsTo at h1
    cases mode <;> simp only [IsNearest, Bool.false_eq_true] at h1 hm <;> first
      | exact ⟨_, h1⟩
      | (split at h1 <;> exact ⟨_, h1⟩)
  obtain ⟨p, h4⟩ := h3
  obtain ⟨h5, h6⟩ := inn p h4
  unfold Reads RoundsTo
  cases mode' <;> simp only [IsNearest, Bool.false_eq_true] at hm' ⊢ <;> first
    | exact out _ h5 h6
    | (split <;> exact out _ h5 h6)

/-- If each of two best decimals also reads back in the other mode, they are the same. -/
theorem best_cross (h : FiniteNonzero F x) {mode mode' : RoundingMode} {crs : Crs} (hcrs : crs ≠ .do_not_care)
    (o : Output (Reads F mode x) s t) (c : ClosestAt (Reads F mode x) (value F (mag F x)) crs s t)
    (a : ∀ s' t', Reads F mode x (dec s' t') → numDigits s' ≤ numDigits s →
      |dec s t - value F (mag F x)| ≤ |dec s' t' - value F (mag F x)| ∧
      ((s', t') ≠ (s, t) → |dec s t - value F (mag F x)| = |dec s' t' - value F (mag F x)| →
        t' = t ∧ TieChoice crs s s'))
    (b : Best F mode' crs x s' t') (h1 : Reads F mode x (dec s' t')) (h2 : Reads F mode' x (dec s t)) :
    s' = s ∧ t' = t := by
  have hI : Interval? (Reads F mode x) := reads_interval_left h mode
  have hd : numDigits s' = numDigits s := le_antisymm (b.shortest _ _ h2) (o.shortest hI h1)
  by_contra hne
  have he : |dec s t - value F (mag F x)| = |dec s' t' - value F (mag F x)| :=
    le_antisymm (a _ _ h1 hd.le).1 (b.closest _ _ h2 hd.symm)
  obtain ⟨rfl, t1⟩ := (a _ _ h1 hd.le).2 (fun hc => hne (by cases hc; exact ⟨rfl, rfl⟩)) he
  have hs : s ≠ s' := fun hc => hne ⟨hc.symm, rfl⟩
  have t2 := b.tie s hs h2 hd.symm he.symm
  rcases Nat.lt_or_gt_of_ne hs with hlt | hlt
  · have := (closest_neighbours hI hlt c.closest o.mem h1 he).1
    cases crs <;> simp only [TieChoice] at t1 t2 <;> first | omega | exact hcrs rfl
  · have := (closest_neighbours hI hlt (fun n hn => he ▸ c.closest n hn) h1 o.mem he.symm).1
    cases crs <;> simp only [TieChoice] at t1 t2 <;> first | omega | exact hcrs rfl

/-- A midpoint that is an output is an integer, its odd part is a multiple of the power of five. -/
theorem midpoint_output {N : Nat} {e : Int} (hN : N % 2 = 1) (hm : dec s t = N * 2 ^ e) {f : Nat} {ex : Int}
    {I : ℚ → Prop} (o : Output I s t) (hx : I (f * 2 ^ ex)) (he : e < ex) (hpos : ex ≤ 0 → e < 0) :
    0 ≤ e ∧ (0 < t → 5 ^ t.toNat ≤ N) := by
  have h2 : (2 : ℚ) ≠ 0 := by norm_num
  -- `x` is a multiple of a power of ten
  have ht : min ex 0 ≤ t := by
    by_contra hc
    rcases le_total 0 ex with h0 | h0
    · apply o.noMult (f * 2 ^ ex.toNat) 0 (by omega)
      have : dec (f * 2 ^ ex.toNat) 0 = f * 2 ^ ex := by
        unfold dec
        push_cast
        rw [mul_one, ← zpow_natCast, Int.toNat_of_nonneg h0]
      rw [this]
      exact hx
    · apply o.noMult (f * 5 ^ (-ex).toNat) ex (by omega)
      have : dec (f * 5 ^ (-ex).toNat) ex = f * 2 ^ ex := by
        unfold dec
        push_cast
        rw [← zpow_natCast, Int.toNat_of_nonneg (by omega), mul_assoc, show (10 : ℚ) = 5 * 2 by norm_num,
          mul_zpow, ← mul_assoc ((5 : ℚ) ^ (-ex)), ← zpow_add₀ (by norm_num)]
        simp
      rw [this]
      exact hx
  have hN0 : 0 < N := by omega
  unfold dec at hm
  have he0 : 0 ≤ e := by
    by_contra hc
    obtain ⟨a, ha⟩ : ∃ a : Nat, e = -((a : Int) + 1) := ⟨(-e).toNat - 1, by omega⟩
    rcases le_total 0 t with h0 | h0
    · obtain ⟨b, rfl⟩ : ∃ b : Nat, t = b := ⟨t.toNat, by omega⟩
      have : s * 10 ^ b * 2 ^ (a + 1) = N := by
        have h3 : (s : ℚ) * 10 ^ b * 2 ^ (a + 1) = N := by
          rw [zpow_natCast] at hm
          rw [hm, ha, mul_assoc, zpow_neg, ← Nat.cast_succ, zpow_natCast, inv_mul_cancel₀ (by positivity), mul_one]
        exact_mod_cast h3
      rw [pow_succ, ← mul_assoc] at this
      omega
    · obtain ⟨b, rfl⟩ : ∃ b : Nat, t = -(b : Int) := ⟨(-t).toNat, by omega⟩
      have h3 : s * 2 ^ (a + 1) = N * 10 ^ b := by
        have h4 : (s : ℚ) * 2 ^ (a + 1) = N * 10 ^ b := by
          rw [ha, zpow_neg, zpow_neg, ← Nat.cast_succ, zpow_natCast, zpow_natCast] at hm
          have h5 : (10 : ℚ) ^ b ≠ 0 := by positivity
          have h6 : (2 : ℚ) ^ (a + 1) ≠ 0 := by positivity
          field_simp at hm
          rw [mul_comm (N : ℚ)]
          exact hm
        exact_mod_cast h4
      have h4 : b ≤ a := by omega
      obtain ⟨c, hc⟩ : ∃ c, a = b + c := ⟨a - b, by omega⟩
      have h5 : s * 2 ^ (c + 1) = N * 5 ^ b := by
        apply Nat.eq_of_mul_eq_mul_right (show 0 < 2 ^ b by positivity)
        calc s * 2 ^ (c + 1) * 2 ^ b = s * 2 ^ (a + 1) := by rw [hc]; ring
          _ = N * 10 ^ b := h3
          _ = N * 5 ^ b * 2 ^ b := by rw [mul_assoc, ← mul_pow]; norm_num
      have h6 : (N * 5 ^ b) % 2 = 1 := by
        rw [Nat.mul_mod, hN, Nat.pow_mod]
        simp
      rw [← h5, pow_succ, ← mul_assoc] at h6
      omega
  refine ⟨he0, fun ht0 => ?_⟩
  obtain ⟨b, rfl⟩ : ∃ b : Nat, t = b := ⟨t.toNat, by omega⟩
  obtain ⟨a, rfl⟩ : ∃ a : Nat, e = a := ⟨e.toNat, by omega⟩
  rw [zpow_natCast, zpow_natCast] at hm
  have h3 : s * 10 ^ b = N * 2 ^ a := by exact_mod_cast hm
  have h4 : 5 ^ b ∣ N * 2 ^ a := by
    rw [← h3]
    exact Dvd.dvd.mul_left (by rw [show (10 : Nat) = 5 * 2 by norm_num, mul_pow]; exact Dvd.intro _ rfl) _
  have h5 : Nat.Coprime (5 ^ b) (2 ^ a) := Nat.Coprime.pow _ _ (by decide)
  simpa using Nat.le_of_dvd hN0 (h5.dvd_of_dvd_mul_right h4)

/-- Power of ten above all outputs that are halfway between neighbours. -/
def halfwayDigits : Fmt → Nat
  | .b32 => 19
  | .b64 => 40

/-- An output in a nearest mode that is halfway between the input and a neighbour. -/
theorem halfway_range (h : FiniteNonzero F x) {mode : RoundingMode} (o : Output (Reads F mode x) s t)
    (hh : dec s t = (value F (mag F x) + value F (mag F x + 1)) / 2 ∨
      dec s t = (value F (mag F x) + value F (mag F x - 1)) / 2) :
    2 ^ (Spec.mantBits F + 1) ≤ value F (mag F x) ∧
      value F (mag F x) < 2 * 10 ^ halfwayDigits F := by
  have hI : Interval? (Reads F mode x) := reads_interval_left h mode
  have hv := value_reads h mode
  have hv0 := Spec.value_nonneg (F := F) (mag F x)
  have hup := Spec.value_lt_succ (F := F) (mag F x)
  have hp := h.nonzero
  have hle : value F (mag F x) ≤ 2 * dec s t := by
    have h1 := Spec.value_nonneg (F := F) (mag F x - 1)
    rcases hh with hh | hh <;> linarith
  rw [Spec.value_eq] at hv
  have hsg : Spec.sg F (mag F x) < 2 ^ (Spec.mantBits F + 1) := by
    unfold Spec.sg
    have := Nat.mod_lt (mag F x) (show 0 < 2 ^ Spec.mantBits F by positivity)
    rw [pow_succ]
    split <;> omega
  have hsg0 : 0 < Spec.sg F (mag F x) := by
    have := Spec.value_pos (F := F) hp
    rw [Spec.value_eq] at this
    rcases Nat.eq_zero_or_pos (Spec.sg F (mag F x)) with h0 | h0
    · rw [h0] at this; simp at this
    · exact h0
  have main : ∃ (N : Nat) (e : Int), N % 2 = 1 ∧ dec s t = N * 2 ^ e ∧ e < Spec.ex F (mag F x) ∧
      N < 2 ^ (Spec.mantBits F + 2) := by
    have hz : ∀ k : Int, (2 : ℚ) ^ k = 2 * 2 ^ (k - 1) := fun k => by
      rw [mul_comm, ← zpow_add_one₀ (by norm_num : (2 : ℚ) ≠ 0)]; congr 1; omega
    rcases hh with hh | hh
    · refine ⟨2 * Spec.sg F (mag F x) + 1, Spec.ex F (mag F x) - 1, by omega, ?_, by omega, ?_⟩
      · rw [hh, Spec.value_succ, Spec.value_eq, hz (Spec.ex F (mag F x))]
        push_cast
        ring
      · rw [pow_succ]; omega
    · by_cases hc : Spec.Closer F (mag F x)
      · refine ⟨4 * Spec.sg F (mag F x) - 1, Spec.ex F (mag F x) - 2, by omega, ?_, by omega, ?_⟩
        · rw [hh, Spec.value_pred_closer hc, Spec.value_eq, hz (Spec.ex F (mag F x)), hz (Spec.ex F (mag F x) - 1)]
          have : ((4 * Spec.sg F (mag F x) - 1 : Nat) : ℚ) = 4 * (Spec.sg F (mag F x)) - 1 := by
            rw [Nat.cast_sub (by omega)]; push_cast; ring
          rw [this, show Spec.ex F (mag F x) - 1 - 1 = Spec.ex F (mag F x) - 2 by omega]
          ring
        · have : Spec.sg F (mag F x) = 2 ^ Spec.mantBits F := by
            unfold Spec.sg
            rw [if_neg (by have := hc.2; omega), hc.1]
            rfl
          rw [this, pow_add]
          have : 0 < 2 ^ Spec.mantBits F := by positivity
          omega
      · refine ⟨2 * Spec.sg F (mag F x) - 1, Spec.ex F (mag F x) - 1, by omega, ?_, by omega, ?_⟩
        · rw [hh, Spec.value_pred_generic hp hc, Spec.value_eq, hz (Spec.ex F (mag F x))]
          have : ((2 * Spec.sg F (mag F x) - 1 : Nat) : ℚ) = 2 * (Spec.sg F (mag F x)) - 1 := by
            rw [Nat.cast_sub (by omega)]; push_cast; ring
          rw [this]
          ring
        · rw [pow_succ]; omega
  obtain ⟨N, e, h1, h2, h3, h4⟩ := main
  obtain ⟨h5, h6⟩ := midpoint_output h1 h2 o hv h3 (by omega)
  constructor
  · have hn : 2 ^ Spec.mantBits F ≤ Spec.sg F (mag F x) := by
      have h7 : 0 < Spec.ex F (mag F x) := by omega
      unfold Spec.ex at h7
      unfold Spec.sg
      split
      · rename_i h0
        rw [if_pos h0] at h7
        exact absurd h7 (by cases F <;> decide)
      · omega
    have h8 : (2 : ℚ) ^ (1 : Int) ≤ 2 ^ Spec.ex F (mag F x) := zpow_le_zpow_right₀ (by norm_num) (by omega)
    have h9 : ((2 : ℚ) ^ Spec.mantBits F) ≤ Spec.sg F (mag F x) := by exact_mod_cast hn
    rw [Spec.value_eq, pow_succ]
    rw [zpow_one] at h8
    have h10 : (0 : ℚ) < 2 ^ Spec.mantBits F := by positivity
    nlinarith
  · refine lt_of_le_of_lt hle ?_
    have hd : numDigits s ≤ maxDigits F := by
      have o' := o
      rw [reads_eq h] at o'
      exact digits_bound _ (FiniteNonzero.input h) o'
    have ht : t + numDigits s ≤ (halfwayDigits F : Int) := by
      by_contra hc
      have h7 : 0 < t := by cases F <;> simp only [maxDigits, halfwayDigits] at hd hc <;> omega
      have h8 := h6 h7
      have h9 : 5 ^ (halfwayDigits F + 1 - maxDigits F) ≤ 5 ^ t.toNat := by
        apply Nat.pow_le_pow_right (by norm_num)
        cases F <;> simp only [maxDigits, halfwayDigits] at hd hc ⊢ <;> omega
      have h10 := lt_of_le_of_lt (h9.trans h8) h4
      revert h10
      cases F <;> decide
    have h7 := dec_lt_pow s t
    have h8 := (ten_zpow_le (a := t + numDigits s)).mpr ht
    rw [zpow_natCast] at h8
    linarith

end Grisu
