import Verif.Model.RyuSizeDebug
import Verif.Proofs.RyuDebug
import Verif.Proofs.RyuSizeMain

/-! # Ryu with both `RYU_DEBUG` and `RYU_OPTIMIZE_SIZE`: lemmas -/

namespace Grisu.Ryu

open Grisu Printed Spec

/-- The two versions of the third step, whatever the functions they call. -/
theorem pos_result (l : Int → Exec Nat) (p : Int → Exec Int) (g : Nat → Exec (Nat × Nat))
    (h : Nat → Nat × Nat → Int → Nat → Exec (Nat × Nat × Nat)) (mp : Nat → Nat → Exec Bool) (d : Nat → Nat) (n : Int)
    (m2 : Nat) (e2 : Int) (mmShift : Nat) (acceptBounds : Bool) :
    (do
      let mv := wrap 64 (4 * m2)
      let q ← run (l e2)
      let q := subw 32 q (if e2 > 3 then 1 else 0)
      let e10 : Int := q
      let b ← run (p q)
      let k := n + b - 1
      let i := -e2 + q + k
      let t ← run (g q)
      let (vr, vp, vm) ← run (h m2 t i mmShift)
      sayChars (decimal_nat mv ++ " * 2^".toList ++ decimal_int e2 ++ " / 10^".toList ++ decimal_nat q ++ "\n".toList)
      debug_v vp vr vm
      if q ≤ 21 then
        let mvMod5 := rem32 mv 5 (d mv)
        if mvMod5 = 0 then do
          let z ← run (mp mv q)
          pure (⟨vr, vp, vm, false, z, 0, 0⟩, e10)
        else if acceptBounds then do
          let z ← run (mp (subw 64 (subw 64 mv 1) mmShift) q)
          pure (⟨vr, vp, vm, z, false, 0, 0⟩, e10)
        else do
          let z ← run (mp (wrap 64 (mv + 2)) q)
          pure (⟨vr, subw 64 vp (if z then 1 else 0), vm, false, false, 0, 0⟩, e10)
      else pure (⟨vr, vp, vm, false, false, 0, 0⟩, e10) : Printed (St × Int)).result =
    (do
      let mv := wrap 64 (4 * m2)
      let q ← l e2
      let q := subw 32 q (if e2 > 3 then 1 else 0)
      let e10 : Int := q
      let k := n + (← p q) - 1
      let i := -e2 + q + k
      let t ← g q
      let (vr, vp, vm) ← h m2 t i mmShift
      if q ≤ 21 then
        let mvMod5 := rem32 mv 5 (d mv)
        if mvMod5 = 0 then
          let z ← mp mv q
          .ok (⟨vr, vp, vm, false, z, 0, 0⟩, e10)
        else if acceptBounds then
          let z ← mp (subw 64 (subw 64 mv 1) mmShift) q
          .ok (⟨vr, vp, vm, z, false, 0, 0⟩, e10)
        else
          let z ← mp (wrap 64 (mv + 2)) q
          .ok (⟨vr, subw 64 vp (if z then 1 else 0), vm, false, false, 0, 0⟩, e10)
      else .ok (⟨vr, vp, vm, false, false, 0, 0⟩, e10) : Exec (St × Int)) := by
  simp only [result_bind, result_run, result_sayChars, result_debug_v, result_ite, result_pure, Exec.ok_bind]

theorem d_step3_pos_size_debug_result (c : Config) (m2 : Nat) (e2 : Int) (mmShift : Nat) (acc : Bool) :
    (d_step3_pos_size_debug c m2 e2 mmShift acc).result = d_step3_pos_size c m2 e2 mmShift acc :=
  pos_result (log10Pow2 c) (pow5bits c) (double_computeInvPow5 c) (mulShiftAll64 c) (multipleOfPowerOf5 c) (div5 c) 122
    m2 e2 mmShift acc

theorem d_step3_neg_size_debug_result (c : Config) (m2 : Nat) (e2 : Int) (mmShift : Nat) (acc : Bool) :
    (d_step3_neg_size_debug c m2 e2 mmShift acc).result = d_step3_neg_size c m2 e2 mmShift acc := by
  unfold d_step3_neg_size_debug d_step3_neg_size
  generalize double_computePow5 c = g
  generalize mulShiftAll64 c = h
  simp only [result_bind, result_run, result_sayChars, result_debug_v, result_debug_flag, result_ite, result_pure,
    Exec.ok_bind]

theorem f_step3_pos_size_debug_result (c : Config) (m2 : Nat) (e2 : Int) (mmShift : Nat) (acc : Bool) :
    (f_step3_pos_size_debug c m2 e2 mmShift acc).result = f_step3_pos_size c m2 e2 mmShift acc := by
  unfold f_step3_pos_size_debug f_step3_pos_size
  generalize mulPow5InvDivPow2_size c = g
  simp only [result_bind, result_run, result_sayChars, result_debug_v, result_ite, result_pure, Exec.ok_bind]

theorem f_step3_neg_size_debug_result (c : Config) (m2 : Nat) (e2 : Int) (mmShift : Nat) (acc : Bool) :
    (f_step3_neg_size_debug c m2 e2 mmShift acc).result = f_step3_neg_size c m2 e2 mmShift acc := by
  unfold f_step3_neg_size_debug f_step3_neg_size
  generalize mulPow5divPow2_size c = g
  simp only [result_bind, result_run, result_sayChars, result_debug_v, result_debug_flag, result_ite, result_pure,
    Exec.ok_bind]

theorem d2d_size_debug_result (c : Config) (f E : Nat) : (d2d_size_debug c f E).result = d2d_size c f E := by
  unfold d2d_size_debug d2d_size
  simp only [result_bind, result_ite, result_debug_value, result_debug_step3, result_debug_result, result_pure,
    d_step3_pos_size_debug_result, d_step3_neg_size_debug_result, Exec.ok_bind, ← d_step4_debug_result, Exec.bind_assoc, ite_bind]

theorem f2d_size_debug_result (c : Config) (f E : Nat) : (f2d_size_debug c f E).result = f2d_size c f E := by
  unfold f2d_size_debug f2d_size
  simp only [result_bind, result_ite, result_debug_value, result_debug_step3, result_debug_result, result_pure,
    f_step3_pos_size_debug_result, f_step3_neg_size_debug_result, Exec.ok_bind, ← f_step4_debug_result, Exec.bind_assoc, ite_bind]

theorem d2s_buffered_n_size_debug_result (c : Config) (x : Nat) (mem : Buffer) :
    (d2s_buffered_n_size_debug c x mem).result = d2s_buffered_n_size c x mem := by
  unfold d2s_buffered_n_size_debug d2s_buffered_n_size
  simp only [result_bind, result_debug_in, Exec.ok_bind, result_ite, result_run]
  split
  · rfl
  · cases d2d_small_int (wrap 64 x &&& (2 ^ 52 - 1)) (wrap 32 (wrap 64 x / 2 ^ 52 &&& (2 ^ 11 - 1))) with
    | none =>
      dsimp only
      rw [d2d_size_debug_result]
      exact Exec.bind_congr rfl fun v => d_to_chars_debug_result c v _ mem
    | some v =>
      dsimp only
      rw [result_run]
      exact Exec.bind_congr rfl fun v => d_to_chars_debug_result c v _ mem

theorem f2s_buffered_n_size_debug_result (c : Config) (x : Nat) (mem : Buffer) :
    (f2s_buffered_n_size_debug c x mem).result = f2s_buffered_n_size c x mem := by
  unfold f2s_buffered_n_size_debug f2s_buffered_n_size
  simp only [result_bind, result_debug_in, Exec.ok_bind, result_ite, result_run, f2d_size_debug_result]
  split
  · rfl
  · exact Exec.bind_congr rfl fun v => f_to_chars_debug_result c v _ mem

/-! ## What the third step shows -/

theorem d_step3_pos_size_out (c : Config) {m s : Nat} {e : Int} {acc : Bool} (hm0 : 0 < m) (hm : m < 2 ^ 53) (hs : s ≤ 1)
    (hedge : s = 0 → m = 2 ^ 52) (h0 : 0 ≤ e) (h1 : e ≤ 970) (x2 : e = 720 → m ≠ 8385515147034757) :
    (d_step3_pos_size_debug c m e s acc).out = natText (4 * m) ++ " * 2^".toList ++ natText e.natAbs ++ " / 10^".toList ++
      natText (dq e) ++ "\n".toList ++ vText ((4 * m + 2) * num e (dq e) / den e (dq e))
        (4 * m * num e (dq e) / den e (dq e)) ((4 * m - 1 - s) * num e (dq e) / den e (dq e)) := by
  obtain ⟨b', d', ⟨-, -, f3', -⟩, -⟩ := dFactsS (by omega) h1
  obtain ⟨u, u1, u2⟩ := d_productsS c hm0 hm hs hedge (by omega : -1076 ≤ e) h1 (fun h => by omega) x2
  have hq := dq_zero_of_pos h0
  have hsh' : ((dShiftS e (dq e) : Nat) : Int) =
      -e + (dq e : Int) + ((small_pow5_inv_bitcount : Int) + ((p5b (dq e) : Nat) : Int) - 1) := by
    unfold dShiftS at f3' ⊢
    unfold small_pow5_inv_bitcount
    rw [if_pos h0] at f3' ⊢
    omega
  have hu : dReadS c e (dq e) = double_computeInvPow5 c (dq e) := by unfold dReadS; rw [if_pos h0]
  rw [hu] at u1
  have hsub : subw 32 (e.toNat * 78913 / 2 ^ 18) (if e > 3 then 1 else 0) = dq e := by
    rw [hq]
    apply subw_of_le
    · split <;> omega
    · omega
  have hdq : dq e ≤ 3528 := by rw [hq]; omega
  unfold d_step3_pos_size_debug
  dsimp only
  rw [log10Pow2_eq c h0 (by omega), run_ok_bind, hsub, pow5bits_eq c hdq, run_ok_bind, u1, run_ok_bind, ← hsh', u2,
    run_ok_bind]
  dsimp only
  rw [wrap_of_lt (show 4 * m < 2 ^ 64 by omega), sayChars_bind, out_bind (result_debug_v _ _ _)]
  simp only [out_ite, out_run]
  rw [decimal_int_nonneg h0]
  simp only [pure_eq, ite_self, List.append_nil]
  rfl

theorem d_step3_neg_size_out (c : Config) {m s : Nat} {e : Int} {acc : Bool} (hm0 : 0 < m) (hm : m < 2 ^ 53) (hs : s ≤ 1)
    (hedge : s = 0 → m = 2 ^ 52) (h0 : -1076 ≤ e) (h1 : e < 0) (x1 : e = -605 → m ≠ 7233432835334966) :
    ∃ (b : Int) (x : Printed (St × Int)), b = ((5 ^ (-e - dq e).toNat).log2 + 1 : Nat) - ((121 : Nat) : Int) ∧
    FlagOk x ∧ (d_step3_neg_size_debug c m e s acc).result = x.result ∧
    (d_step3_neg_size_debug c m e s acc).out = natText (4 * m) ++ " * 5^".toList ++ natText e.natAbs ++ " / 10^".toList ++
      natText (dq e) ++ "\n".toList ++ (natText (dq e) ++ " ".toList ++ intText (-e - dq e) ++ " ".toList ++ intText b ++
        " ".toList ++ intText (dq e - b) ++ "\n".toList) ++ vText ((4 * m + 2) * num e (dq e) / den e (dq e))
        (4 * m * num e (dq e) / den e (dq e)) ((4 * m - 1 - s) * num e (dq e) / den e (dq e)) ++ x.out := by
  obtain ⟨b', d', ⟨-, -, f3', -⟩, -⟩ := dFactsS h0 (by omega)
  obtain ⟨u, u1, u2⟩ := d_productsS c hm0 hm hs hedge h0 (by omega : e ≤ 970) x1 (fun h => by omega)
  obtain ⟨-, -, -, -, -, -, -, -, -, -, -, f10⟩ := dFacts h0 (by omega : e ≤ 970)
  have hq := dq_of_neg h1
  have hn : ¬ 0 ≤ e := by omega
  have hsub : subw 32 ((-e).toNat * 732923 / 2 ^ 20) (if -e > 1 then 1 else 0) = dq e := by
    rw [hq]
    apply subw_of_le
    · split <;> omega
    · omega
  have hi : -e - (dq e : Int) = (((-e).toNat - dq e : Nat) : Int) := by omega
  have hsh' : ((dShiftS e (dq e) : Nat) : Int) =
      (dq e : Int) - (((p5b ((-e).toNat - dq e) : Nat) : Int) - (small_pow5_bitcount : Int)) := by
    unfold dShiftS at f3' ⊢
    unfold small_pow5_bitcount
    rw [if_neg hn] at f3' ⊢
    omega
  have hu : dReadS c e (dq e) = double_computePow5 c ((-e).toNat - dq e) := by unfold dReadS; rw [if_neg hn]
  rw [hu] at u1
  refine ⟨((p5b ((-e).toNat - dq e) : Nat) : Int) - (small_pow5_bitcount : Int), ?flag, ?_, ?mem, ?res, ?eq⟩
  case eq =>
    unfold d_step3_neg_size_debug
    dsimp only
    rw [log10Pow5_eq c (by omega) (by omega), run_ok_bind, hsub, hi, pow5bits_eq c (by omega), run_ok_bind,
      u32_eq (by omega) (by omega), Int.toNat_natCast, u1, run_ok_bind, ← hsh', u2, run_ok_bind]
    dsimp only
    rw [wrap_of_lt (show 4 * m < 2 ^ 64 by omega), sayChars_bind]
    dsimp only
    rw [sayChars_bind]
    dsimp only
    rw [out_bind (result_debug_v _ _ _), decimal_int_neg h1, ← List.append_assoc, ← List.append_assoc]
    rfl
  case res =>
    unfold d_step3_neg_size_debug
    dsimp only
    rw [log10Pow5_eq c (by omega) (by omega), run_ok_bind, hsub, hi, pow5bits_eq c (by omega), run_ok_bind,
      u32_eq (by omega) (by omega), Int.toNat_natCast, u1, run_ok_bind, ← hsh', u2, run_ok_bind]
    dsimp only
    rw [wrap_of_lt (show 4 * m < 2 ^ 64 by omega), bind_result (result_sayChars _), bind_result (result_sayChars _),
      bind_result (result_debug_v _ _ _)]
  · rw [hi, Int.toNat_natCast, p5b_eq (by omega)]
    rfl
  case mem =>
    by_cases g1 : dq e ≤ 1
    · rw [if_pos g1]
      split <;> exact flagOk_pure _
    · rw [if_neg g1]
      split
      · exact flagOk_flag _ _ fun _ => rfl
      · exact flagOk_pure _

theorem f_step3_pos_size_out (c : Config) (hf : c.floatTable = false) {m s : Nat} {e : Int} {acc : Bool} (hm0 : 0 < m)
    (hm : m < 2 ^ 24) (hs : s ≤ 1) (h0 : 0 ≤ e) (h1 : e ≤ 102) :
    (f_step3_pos_size_debug c m e s acc).out = natText (4 * m) ++ " * 2^".toList ++ natText e.natAbs ++ " / 10^".toList ++
      natText (fq e) ++ "\n".toList ++ vText ((4 * m + 2) * num e (fq e) / den e (fq e))
        (4 * m * num e (fq e) / den e (fq e)) ((4 * m - 1 - s) * num e (fq e) / den e (fq e)) := by
  have hq := fq_of_pos h0
  unfold f_step3_pos_size_debug
  dsimp only
  rw [wrap_of_lt (show 4 * m < 2 ^ 32 by omega), wrap_of_lt (show 4 * m + 2 < 2 ^ 32 by omega),
    subw_of_le (show 1 ≤ 4 * m by omega) (by omega), subw_of_le (show s ≤ 4 * m - 1 by omega) (by omega),
    log10Pow2_eq c h0 (by omega), run_ok_bind, ← hq, pow5bits_eq c (by omega), run_ok_bind,
    f_products_posS c hf h0 h1 (by omega), run_ok_bind, f_products_posS c hf h0 h1 (by omega), run_ok_bind,
    f_products_posS c hf h0 h1 (by omega), run_ok_bind, sayChars_bind,
    out_bind (result_debug_v _ _ _), decimal_int_nonneg h0]
  rw [show ∀ (x : Exec Nat) (f : Nat → Printed (St × Int)), (∀ n, (f n).out = []) → (run x >>= f).out = [] from by
    intro x f h
    cases x
    · exact (h _)
    · rfl]
  · rw [List.append_nil]
    rfl
  · intro n
    simp only [out_ite, out_run]
    simp only [pure_eq, ite_self]

theorem f_step3_neg_size_out (c : Config) (hf : c.floatTable = false) {m s : Nat} {e : Int} {acc : Bool} (hm0 : 0 < m)
    (hm : m < 2 ^ 24) (hs : s ≤ 1) (h0 : -151 ≤ e) (h1 : e < 0) :
    ∃ (b : Int) (x : Printed (St × Int)), b = ((5 ^ (-e - fq e).toNat).log2 + 1 : Nat) - ((57 : Nat) : Int) ∧
    FlagOk x ∧ (f_step3_neg_size_debug c m e s acc).result = x.result ∧
    (f_step3_neg_size_debug c m e s acc).out = natText (4 * m) ++ " * 5^".toList ++ natText e.natAbs ++ " / 10^".toList ++
      natText (fq e) ++ "\n".toList ++ (natText (fq e) ++ " ".toList ++ intText (-e - fq e) ++ " ".toList ++ intText b ++
        " ".toList ++ intText (fq e - b) ++ "\n".toList) ++ vText ((4 * m + 2) * num e (fq e) / den e (fq e))
        (4 * m * num e (fq e) / den e (fq e)) ((4 * m - 1 - s) * num e (fq e) / den e (fq e)) ++ x.out := by
  have hq := fq_of_neg h1
  have hi : -e - (fq e : Int) = (((-e).toNat - fq e : Nat) : Int) := by omega
  refine ⟨((p5b ((-e).toNat - fq e) : Nat) : Int) - float_pow5_bitcount_size c, ?flag, ?_, ?mem, ?res, ?eq⟩
  case eq =>
    unfold f_step3_neg_size_debug
    dsimp only
    rw [wrap_of_lt (show 4 * m < 2 ^ 32 by omega), wrap_of_lt (show 4 * m + 2 < 2 ^ 32 by omega),
      subw_of_le (show 1 ≤ 4 * m by omega) (by omega), subw_of_le (show s ≤ 4 * m - 1 by omega) (by omega),
      log10Pow5_eq c (by omega) (by omega), run_ok_bind, ← hq, hi, pow5bits_eq c (by omega), run_ok_bind,
      u32_eq (by omega) (by omega), Int.toNat_natCast,
      f_products_negS c hf h0 h1 (by omega), run_ok_bind, f_products_negS c hf h0 h1 (by omega), run_ok_bind,
      f_products_negS c hf h0 h1 (by omega), run_ok_bind, sayChars_bind]
    dsimp only
    rw [sayChars_bind]
    dsimp only
    rw [out_bind (result_debug_v _ _ _), decimal_int_neg h1, ← List.append_assoc, ← List.append_assoc]
    rfl
  case res =>
    unfold f_step3_neg_size_debug
    dsimp only
    rw [wrap_of_lt (show 4 * m < 2 ^ 32 by omega), wrap_of_lt (show 4 * m + 2 < 2 ^ 32 by omega),
      subw_of_le (show 1 ≤ 4 * m by omega) (by omega), subw_of_le (show s ≤ 4 * m - 1 by omega) (by omega),
      log10Pow5_eq c (by omega) (by omega), run_ok_bind, ← hq, hi, pow5bits_eq c (by omega), run_ok_bind,
      u32_eq (by omega) (by omega), Int.toNat_natCast,
      f_products_negS c hf h0 h1 (by omega), run_ok_bind, f_products_negS c hf h0 h1 (by omega), run_ok_bind,
      f_products_negS c hf h0 h1 (by omega), run_ok_bind,
      bind_result (result_sayChars _), bind_result (result_sayChars _), bind_result (result_debug_v _ _ _)]
  · rw [hi, Int.toNat_natCast, p5b_eq (by omega), bitcount_size_eq c hf]
    rfl
  case mem =>
    refine flagOk_run _ _ fun l => ?_
    by_cases g1 : fq e ≤ 1
    · rw [if_pos g1]
      split <;> exact flagOk_pure _
    · rw [if_neg g1]
      split
      · exact flagOk_flag _ _ fun _ => rfl
      · exact flagOk_pure _

/-! ## The conversion -/

theorem d2d_size_debug_trace (c : Config) {m : Nat} (h0 : 0 < m) (h1 : m < infPattern .b64) (n1 : m ≠ 0x1d89b2c4d2a82336)
    (n2 : m ≠ 0x705dca94e3990085) {s : Nat} {t : Int} (hr : d2d c (m % 2 ^ 52) (m / 2 ^ 52) = .ok ⟨s, t⟩) :
    IsTrace .b64 121 m s t (d2d_size_debug c (m % 2 ^ 52) (m / 2 ^ 52)).out := by
  have h1' : m < 0x7ff0000000000000 := h1
  obtain ⟨he2, hm2, hsh, hb, hsg0, hsg, hedge⟩ := d_frame h0 h1
  have hacc : decide (sg .b64 m &&& 1 = 0) = decide (sg .b64 m % 2 = 0) := by rw [Nat.and_one_is_mod]
  have x1 : ex .b64 m - 2 = -605 → sg .b64 m ≠ 7233432835334966 := by
    intro a b
    rw [← he2] at a
    rw [← hm2] at b
    split at a
    · omega
    · rename_i hE
      rw [if_neg hE, or_pow (Nat.mod_lt _ (by norm_num))] at b
      omega
  have x2 : ex .b64 m - 2 = 720 → sg .b64 m ≠ 8385515147034757 := by
    intro a b
    rw [← he2] at a
    rw [← hm2] at b
    split at a
    · omega
    · rename_i hE
      rw [if_neg hE, or_pow (Nat.mod_lt _ (by norm_num))] at b
      omega
  have e : d2d_size_debug c (m % 2 ^ 52) (m / 2 ^ 52) = d_rest c (decide (sg .b64 m % 2 = 0)) (sg .b64 m) (ex .b64 m - 2)
      (if 0 ≤ ex .b64 m - 2 then
          d_step3_pos_size_debug c (sg .b64 m) (ex .b64 m - 2) (shiftOf .b64 m) (decide (sg .b64 m % 2 = 0))
        else d_step3_neg_size_debug c (sg .b64 m) (ex .b64 m - 2) (shiftOf .b64 m) (decide (sg .b64 m % 2 = 0))) := by
    unfold d2d_size_debug d_rest
    dsimp only
    rw [he2, hm2, hsh, hacc]
  rw [← d2d_size_eq c (Nat.mod_lt _ (by norm_num)) (by omega) (by omega), ← d2d_size_debug_result, e] at hr
  rw [e]
  refine d_trace_core c h0 h1 ?_ (fun h => ?_) (fun h => ?_) hr
  · rw [result_ite, d_step3_pos_size_debug_result, d_step3_neg_size_debug_result]
    by_cases h : 0 ≤ ex .b64 m - 2
    · rw [if_pos h, if_pos h, d_step3_pos_size_eq c hsg0 hsg (shiftOf_le _ _) hedge h hb.2 x2]
    · rw [if_neg h, if_neg h, d_step3_neg_size_eq c hsg0 hsg (shiftOf_le _ _) hedge hb.1 (by omega) x1]
  · rw [if_pos h, d_step3_pos_size_out c hsg0 hsg (shiftOf_le _ _) hedge h hb.2 x2]
  · rw [if_neg h]
    exact d_step3_neg_size_out c hsg0 hsg (shiftOf_le _ _) hedge hb.1 (by omega) x1

theorem f2d_size_debug_table (c : Config) (hf : c.floatTable = true) (f E : Nat) : f2d_size_debug c f E = f2d_debug c f E := by
  have a : float_pow5_inv_bitcount_size c = float_pow5_inv_bitcount c := by
    unfold float_pow5_inv_bitcount_size float_pow5_inv_bitcount; rw [if_pos hf, if_pos hf]
  have b : float_pow5_bitcount_size c = float_pow5_bitcount c := by
    unfold float_pow5_bitcount_size float_pow5_bitcount; rw [if_pos hf, if_pos hf]
  have d : mulPow5InvDivPow2_size c = mulPow5InvDivPow2 c := by
    funext m q j
    unfold mulPow5InvDivPow2_size mulPow5InvDivPow2; rw [if_pos hf, if_pos hf]
  have e : mulPow5divPow2_size c = mulPow5divPow2 c := by
    funext m q j
    unfold mulPow5divPow2_size mulPow5divPow2; rw [if_pos hf, if_pos hf]
  unfold f2d_size_debug f2d_debug f_step3_pos_size_debug f_step3_neg_size_debug f_step3_pos_debug f_step3_neg_debug
  rw [a, b, d, e]

theorem f2d_size_debug_trace (c : Config) (hf : c.floatTable = false) {m : Nat} (h0 : 0 < m) (h1 : m < infPattern .b32)
    (n1 : m ≠ 0x5f79a70) (n2 : m ≠ 0x12f3d7d8) (n3 : m ≠ 0x22e2aef2) (n4 : m ≠ 0x2362aef2) {s : Nat} {t : Int}
    (hr : f2d c (m % 2 ^ 23) (m / 2 ^ 23) = .ok ⟨s, t⟩) :
    IsTrace .b32 57 m s t (f2d_size_debug c (m % 2 ^ 23) (m / 2 ^ 23)).out := by
  have h1' : m < 0x7f800000 := h1
  obtain ⟨he2, hm2, hsh, hb, hsg0, hsg, -, hmin⟩ := f_frame h0 h1
  have hacc : decide (sg .b32 m &&& 1 = 0) = decide (sg .b32 m % 2 = 0) := by rw [Nat.and_one_is_mod]
  have hx : ¬ gBad (ex .b32 m - 2) (sg .b32 m) := by
    intro h
    unfold gBad at h
    rw [← he2, ← hm2] at h
    by_cases hE : m / 2 ^ 23 = 0
    · rw [if_pos hE] at h
      omega
    · rw [if_neg hE, if_neg hE, or_pow (Nat.mod_lt _ (by norm_num))] at h
      omega
  have e : f2d_size_debug c (m % 2 ^ 23) (m / 2 ^ 23) = f_rest (decide (sg .b32 m % 2 = 0)) (sg .b32 m) (ex .b32 m - 2)
      (if 0 ≤ ex .b32 m - 2 then
          f_step3_pos_size_debug c (sg .b32 m) (ex .b32 m - 2) (shiftOf .b32 m) (decide (sg .b32 m % 2 = 0))
        else f_step3_neg_size_debug c (sg .b32 m) (ex .b32 m - 2) (shiftOf .b32 m) (decide (sg .b32 m % 2 = 0))) := by
    unfold f2d_size_debug f_rest
    dsimp only
    rw [he2, hm2, hsh, hacc]
  rw [← f2d_size_eq c (Nat.mod_lt _ (by norm_num)) (by omega) (by omega), ← f2d_size_debug_result, e] at hr
  rw [e]
  refine f_trace_core c h0 h1 ?_ (fun h => ?_) (fun h => ?_) hr
  · rw [result_ite, f_step3_pos_size_debug_result, f_step3_neg_size_debug_result]
    by_cases h : 0 ≤ ex .b32 m - 2
    · rw [if_pos h, if_pos h, f_step3_pos_size_eq c hf hsg0 hsg (shiftOf_le _ _) h hb.2]
    · rw [if_neg h, if_neg h, f_step3_neg_size_eq c hf hsg0 hsg (shiftOf_le _ _) hmin hb.1 (by omega) hx]
  · rw [if_pos h, f_step3_pos_size_out c hf hsg0 hsg (shiftOf_le _ _) h hb.2]
  · rw [if_neg h]
    exact f_step3_neg_size_out c hf hsg0 hsg (shiftOf_le _ _) hb.1 (by omega)

/-! ## Three of the four numbers of `gBad`: the digit that is not right is not shown -/

/-- The third step of the ordinary build, with the text of the other one. -/
def mixed (c : Config) (m2 : Nat) (e2 : Int) (acc : Bool) : Printed (St × Int) :=
  ⟨(f_step3_neg_size_debug c m2 e2 1 acc).out, f_step3_neg c m2 e2 1 acc⟩

theorem f_trace_at (c : Config) (hf : c.floatTable = false) {m m2 : Nat} {e2 : Int} (h0 : 0 < m) (h1 : m < infPattern .b32)
    (hE : (if m / 2 ^ 23 = 0 then 1 - 127 - 23 - 2 else ((m / 2 ^ 23 : Nat) : Int) - 127 - 23 - 2) = e2)
    (hM : (if m / 2 ^ 23 = 0 then m % 2 ^ 23 else 2 ^ 23 ||| m % 2 ^ 23) = m2)
    (hS : (if m % 2 ^ 23 ≠ 0 ∨ m / 2 ^ 23 ≤ 1 then 1 else 0) = 1) (hn : e2 < 0)
    (same : (f_step3_neg_size c m2 e2 1 (decide (m2 % 2 = 0)) >>= fun a => Exec.ok a.1.vrZ) =
      (f_step3_neg c m2 e2 1 (decide (m2 % 2 = 0)) >>= fun a => Exec.ok a.1.vrZ))
    (shown : (f_rest (decide (m2 % 2 = 0)) m2 e2 (f_step3_neg_size_debug c m2 e2 1 (decide (m2 % 2 = 0)))).out =
      (f_rest (decide (m2 % 2 = 0)) m2 e2 (mixed c m2 e2 (decide (m2 % 2 = 0)))).out)
    {s : Nat} {t : Int} (hr : f2d c (m % 2 ^ 23) (m / 2 ^ 23) = .ok ⟨s, t⟩) :
    IsTrace .b32 57 m s t (f2d_size_debug c (m % 2 ^ 23) (m / 2 ^ 23)).out := by
  obtain ⟨he2, hm2, hsh, hb, hsg0, hsg, -, hmin⟩ := f_frame h0 h1
  have q1 : ex .b32 m - 2 = e2 := he2.symm.trans hE
  have q2 : sg .b32 m = m2 := hm2.symm.trans hM
  have q3 : shiftOf .b32 m = 1 := hsh.symm.trans hS
  have hacc : decide (m2 &&& 1 = 0) = decide (m2 % 2 = 0) := by rw [Nat.and_one_is_mod]
  have hng : ¬ e2 ≥ 0 := by omega
  have e : f2d_size_debug c (m % 2 ^ 23) (m / 2 ^ 23) = f_rest (decide (m2 % 2 = 0)) m2 e2
      (f_step3_neg_size_debug c m2 e2 1 (decide (m2 % 2 = 0))) := by
    unfold f2d_size_debug f_rest
    dsimp only
    rw [hE, hM, hS, hacc, if_neg hng]
  have e' : f2d_debug c (m % 2 ^ 23) (m / 2 ^ 23) = f_rest (decide (m2 % 2 = 0)) m2 e2
      (f_step3_neg_debug c m2 e2 1 (decide (m2 % 2 = 0))) := by
    unfold f2d_debug f_rest
    dsimp only
    rw [hE, hM, hS, hacc, if_neg hng]
  rw [← f2d_debug_result, e'] at hr
  rw [e, shown]
  have hr' : (f_rest (decide (m2 % 2 = 0)) m2 e2 (mixed c m2 e2 (decide (m2 % 2 = 0)))).result = .ok ⟨s, t⟩ := by
    rw [← hr]
    unfold f_rest
    rw [bind_result (result_debug_value _ _), bind_result (result_debug_value _ _), result_bind, result_bind,
      f_step3_neg_debug_result]
    rfl
  have key := f_trace_core c (kept := 57) h0 h1 (x := mixed c m2 e2 (decide (m2 % 2 = 0))) (s := s) (t := t)
  rw [q1, q2, q3] at key
  refine key ?_ (fun h => absurd h hng) (fun _ => ?_) hr'
  · rw [if_neg hng]
    rfl
  · obtain ⟨b, y, b1, b2, b3, b4⟩ := f_step3_neg_size_out c hf (q2 ▸ hsg0) (q2 ▸ hsg) (le_refl 1)
      (acc := decide (m2 % 2 = 0)) (q1 ▸ hb.1) hn
    refine ⟨b, ⟨y.out, f_step3_neg c m2 e2 1 (decide (m2 % 2 = 0))⟩, b1, ?_, rfl, b4⟩
    intro s' k' h'
    have h' : f_step3_neg c m2 e2 1 (decide (m2 % 2 = 0)) = .ok (s', k') := h'
    rw [f_step3_neg_size_debug_result] at b3
    rw [h', b3] at same
    cases hy : y.result with
    | fault f =>
      rw [hy] at same
      exact absurd same (by simp)
    | ok a =>
      rw [hy] at same
      have hz : a.1.vrZ = s'.vrZ := Exec.ok.inj same
      rw [← hz]
      exact b2 a.1 a.2 hy

theorem f_trace_three (c : Config) (hf : c.floatTable = false) {m : Nat}
    (hm : m = 0x5f79a70 ∨ m = 0x12f3d7d8 ∨ m = 0x2362aef2)
    {s : Nat} {t : Int} (hr : f2d c (m % 2 ^ 23) (m / 2 ^ 23) = .ok ⟨s, t⟩) :
    IsTrace .b32 57 m s t (f2d_size_debug c (m % 2 ^ 23) (m / 2 ^ 23)).out := by
  rcases c with ⟨_ | _ | _, _ | _, _ | _, _ | _⟩ <;> first | exact absurd hf (by decide) | rcases hm with rfl | rfl | rfl
  all_goals
    first
    | exact f_trace_at _ hf (m2 := 16226928) (e2 := -141) (by decide) (by decide) (by decide) (by decide +kernel) (by decide)
        (by decide) (by decide +kernel) (by decide +kernel) hr
    | exact f_trace_at _ hf (m2 := 15980504) (e2 := -115) (by decide) (by decide) (by decide) (by decide +kernel) (by decide)
        (by decide) (by decide +kernel) (by decide +kernel) hr
    | exact f_trace_at _ hf (m2 := 14855922) (e2 := -82) (by decide) (by decide) (by decide) (by decide +kernel) (by decide)
        (by decide) (by decide +kernel) (by decide +kernel) hr

theorem f2d_size_debug_trace_all (c : Config) {m : Nat} (h0 : 0 < m) (h1 : m < infPattern .b32)
    (n : c.floatTable = true ∨ m ≠ 0x22e2aef2) {s : Nat} {t : Int} (hr : f2d c (m % 2 ^ 23) (m / 2 ^ 23) = .ok ⟨s, t⟩) :
    IsTrace .b32 (if c.floatTable then 61 else 57) m s t (f2d_size_debug c (m % 2 ^ 23) (m / 2 ^ 23)).out := by
  cases hf : c.floatTable with
  | true =>
    rw [f2d_size_debug_table c hf]
    exact f2d_debug_trace c h0 h1 hr
  | false =>
    have n3 : m ≠ 0x22e2aef2 := n.resolve_left (by rw [hf]; decide)
    by_cases h : m = 0x5f79a70 ∨ m = 0x12f3d7d8 ∨ m = 0x2362aef2
    · exact f_trace_three c hf h hr
    · exact f2d_size_debug_trace c hf h0 h1 (fun g => h (Or.inl g)) (fun g => h (Or.inr (Or.inl g))) n3
        (fun g => h (Or.inr (Or.inr g))) hr

end Grisu.Ryu
