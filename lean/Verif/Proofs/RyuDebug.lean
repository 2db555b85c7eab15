import Verif.Model.RyuDebug
import Verif.SpecTrace
import Verif.Proofs.Console
import Verif.Proofs.RyuText
import Verif.Proofs.RyuSmallInt

/-! # Ryu built with `RYU_DEBUG` -/

namespace Grisu.Printed

theorem result_bind {α β : Type} (x : Printed α) (f : α → Printed β) :
    (x >>= f).result = x.result >>= fun a => (f a).result := by
  obtain ⟨o, r⟩ := x
  cases r <;> rfl

theorem result_run {α : Type} (e : Exec α) : (run e).result = e := rfl

theorem result_pure {α : Type} (a : α) : (pure a : Printed α).result = .ok a := rfl

theorem result_sayChars (t : List Char) : (sayChars t).result = .ok () := rfl

theorem out_bind {α β : Type} {x : Printed α} {a : α} (h : x.result = .ok a) (f : α → Printed β) :
    (x >>= f).out = x.out ++ (f a).out := by
  obtain ⟨o, r⟩ := x
  obtain rfl : r = .ok a := h
  rfl

theorem out_run {α β : Type} (e : Exec α) (g : α → β) : (run e >>= fun a => pure (g a)).out = [] := by
  cases e <;> rfl

theorem result_ite {α : Type} (p : Prop) [Decidable p] (x y : Printed α) :
    (if p then x else y).result = if p then x.result else y.result := by split <;> rfl

end Grisu.Printed

namespace Grisu.Ryu

open Grisu Printed Spec

/-! ## The results -/

theorem result_debug_v (a b d : Nat) : (debug_v a b d).result = .ok () := rfl
theorem result_debug_flag (s : String) (b : Bool) : (debug_flag s b).result = .ok () := rfl
theorem result_debug_in (w b : Nat) : (debug_in w b).result = .ok () := rfl
theorem result_debug_value (m : Nat) (e : Int) : (debug_value m e).result = .ok () := rfl
theorem result_debug_step3 (s : St) (e : Int) : (debug_step3 s e).result = .ok () := rfl
theorem result_debug_result (s : St) (o : Nat) (e : Int) : (debug_result s o e).result = .ok () := rfl
theorem result_debug_digits (v : FloatingDecimal) (o : Nat) : (debug_digits v o).result = .ok () := rfl

theorem d_step3_pos_debug_result (c : Config) (m2 : Nat) (e2 : Int) (mmShift : Nat) (acc : Bool) :
    (d_step3_pos_debug c m2 e2 mmShift acc).result = d_step3_pos c m2 e2 mmShift acc := by
  unfold d_step3_pos_debug d_step3_pos
  simp only [result_bind, result_run, result_sayChars, result_debug_v, result_ite, result_pure, Exec.ok_bind]

theorem d_step3_neg_debug_result (c : Config) (m2 : Nat) (e2 : Int) (mmShift : Nat) (acc : Bool) :
    (d_step3_neg_debug c m2 e2 mmShift acc).result = d_step3_neg c m2 e2 mmShift acc := by
  unfold d_step3_neg_debug d_step3_neg
  simp only [result_bind, result_run, result_sayChars, result_debug_v, result_debug_flag, result_ite, result_pure,
    Exec.ok_bind]

theorem f_step3_pos_debug_result (c : Config) (m2 : Nat) (e2 : Int) (mmShift : Nat) (acc : Bool) :
    (f_step3_pos_debug c m2 e2 mmShift acc).result = f_step3_pos c m2 e2 mmShift acc := by
  unfold f_step3_pos_debug f_step3_pos
  simp only [result_bind, result_run, result_sayChars, result_debug_v, result_ite, result_pure, Exec.ok_bind]

theorem f_step3_neg_debug_result (c : Config) (m2 : Nat) (e2 : Int) (mmShift : Nat) (acc : Bool) :
    (f_step3_neg_debug c m2 e2 mmShift acc).result = f_step3_neg c m2 e2 mmShift acc := by
  unfold f_step3_neg_debug f_step3_neg
  simp only [result_bind, result_run, result_sayChars, result_debug_v, result_debug_flag, result_ite, result_pure,
    Exec.ok_bind]

theorem d_step4_debug_result (c : Config) (acc : Bool) (s : St) :
    ((d_step4_debug c acc s).result >>= fun r => .ok (r.1, r.2.removed)) = d_step4 c acc s := by
  unfold d_step4_debug d_step4
  rw [result_ite]
  by_cases h : (s.vmZ || s.vrZ) = true
  · rw [if_pos h, if_pos h]
    simp only [result_bind, result_run, result_sayChars, result_debug_v, result_debug_flag, result_pure, Exec.ok_bind,
      Exec.bind_assoc]
    refine Exec.bind_congr rfl fun s => ?_
    split <;> simp only [Exec.ok_bind]
  · rw [if_neg h, if_neg h]
    simp only [result_bind, result_run, result_sayChars, result_debug_flag, result_pure, Exec.ok_bind, Exec.bind_assoc]

theorem f_step4_debug_result (acc : Bool) (s : St) :
    ((f_step4_debug acc s).result >>= fun r => .ok (r.1, r.2.removed)) = f_step4 acc s := by
  unfold f_step4_debug f_step4
  rw [result_ite]
  by_cases h : (s.vmZ || s.vrZ) = true
  · rw [if_pos h, if_pos h]
    simp only [result_bind, result_run, result_sayChars, result_debug_v, result_debug_flag, result_pure, Exec.ok_bind,
      Exec.bind_assoc]
    refine Exec.bind_congr rfl fun s => ?_
    split <;> simp only [Exec.ok_bind]
  · rw [if_neg h, if_neg h]
    simp only [result_bind, result_run, result_sayChars, result_debug_flag, result_pure, Exec.ok_bind, Exec.bind_assoc]

theorem ite_bind {α β : Type} (p : Prop) [Decidable p] (x y : Exec α) (f : α → Exec β) :
    ((if p then x else y) >>= f) = if p then x >>= f else y >>= f := by split <;> rfl

theorem d2d_debug_result (c : Config) (f E : Nat) : (d2d_debug c f E).result = d2d c f E := by
  unfold d2d_debug d2d
  simp only [result_bind, result_ite, result_debug_value, result_debug_step3, result_debug_result, result_pure,
    d_step3_pos_debug_result, d_step3_neg_debug_result, Exec.ok_bind, ← d_step4_debug_result, Exec.bind_assoc, ite_bind]

theorem f2d_debug_result (c : Config) (f E : Nat) : (f2d_debug c f E).result = f2d c f E := by
  unfold f2d_debug f2d
  simp only [result_bind, result_ite, result_debug_value, result_debug_step3, result_debug_result, result_pure,
    f_step3_pos_debug_result, f_step3_neg_debug_result, Exec.ok_bind, ← f_step4_debug_result, Exec.bind_assoc, ite_bind]

theorem d_to_chars_debug_result (c : Config) (v : FloatingDecimal) (sign : Bool) (mem : Buffer) :
    (d_to_chars_debug c v sign mem).result = d_to_chars c v sign mem := by
  unfold d_to_chars_debug
  simp only [result_bind, result_run, result_debug_digits, Exec.ok_bind]
  cases sign
  · rw [if_neg (by simp), Exec.ok_bind]
    cases h : decimalLength17 c v.mantissa with
    | ok n => rfl
    | fault f =>
      unfold d_to_chars
      rw [if_neg (by simp), Exec.ok_bind]
      dsimp only
      rw [h]
      rfl
  · rw [if_pos rfl]
    cases hp : put mem 0 '-' with
    | fault f =>
      unfold d_to_chars
      rw [if_pos rfl, hp]
      rfl
    | ok mem' =>
      rw [Exec.ok_bind]
      cases h : decimalLength17 c v.mantissa with
      | ok n => rfl
      | fault f =>
        unfold d_to_chars
        rw [if_pos rfl, hp, Exec.ok_bind, Exec.ok_bind]
        dsimp only
        rw [h]
        rfl

theorem f_to_chars_debug_result (c : Config) (v : FloatingDecimal) (sign : Bool) (mem : Buffer) :
    (f_to_chars_debug c v sign mem).result = f_to_chars c v sign mem := by
  unfold f_to_chars_debug
  simp only [result_bind, result_run, result_debug_digits, Exec.ok_bind]
  cases sign
  · rw [if_neg (by simp), Exec.ok_bind]
    cases h : decimalLength9 c v.mantissa with
    | ok n => rfl
    | fault f =>
      unfold f_to_chars
      rw [if_neg (by simp), Exec.ok_bind]
      dsimp only
      rw [h]
      rfl
  · rw [if_pos rfl]
    cases hp : put mem 0 '-' with
    | fault f =>
      unfold f_to_chars
      rw [if_pos rfl, hp]
      rfl
    | ok mem' =>
      rw [Exec.ok_bind]
      cases h : decimalLength9 c v.mantissa with
      | ok n => rfl
      | fault f =>
        unfold f_to_chars
        rw [if_pos rfl, hp, Exec.ok_bind, Exec.ok_bind]
        dsimp only
        rw [h]
        rfl

theorem d2s_buffered_n_debug_result (c : Config) (x : Nat) (mem : Buffer) :
    (d2s_buffered_n_debug c x mem).result = d2s_buffered_n c x mem := by
  unfold d2s_buffered_n_debug d2s_buffered_n
  simp only [result_bind, result_debug_in, Exec.ok_bind, result_ite, result_run]
  split
  · rfl
  · cases d2d_small_int (wrap 64 x &&& (2 ^ 52 - 1)) (wrap 32 (wrap 64 x / 2 ^ 52 &&& (2 ^ 11 - 1))) with
    | none =>
      dsimp only
      rw [d2d_debug_result]
      exact Exec.bind_congr rfl fun v => d_to_chars_debug_result c v _ mem
    | some v =>
      dsimp only
      rw [result_run]
      exact Exec.bind_congr rfl fun v => d_to_chars_debug_result c v _ mem

theorem f2s_buffered_n_debug_result (c : Config) (x : Nat) (mem : Buffer) :
    (f2s_buffered_n_debug c x mem).result = f2s_buffered_n c x mem := by
  unfold f2s_buffered_n_debug f2s_buffered_n
  simp only [result_bind, result_debug_in, Exec.ok_bind, result_ite, result_run, f2d_debug_result]
  split
  · rfl
  · exact Exec.bind_congr rfl fun v => f_to_chars_debug_result c v _ mem

/-! ## The output -/

theorem decimal_int_neg {e : Int} (h : e < 0) : decimal_int (-e) = natText e.natAbs := by
  unfold decimal_int natText
  rw [if_neg (by omega), List.nil_append, Int.natAbs_neg]

theorem decimal_int_nonneg {e : Int} (h : 0 ≤ e) : decimal_int e = natText e.natAbs := by
  unfold decimal_int natText
  rw [if_neg (by omega), List.nil_append]

/-- The text of the three values. -/
def vText (vp vr vm : Nat) : List Char :=
  "V+=".toList ++ decimal_nat vp ++ "\nV =".toList ++ decimal_nat vr ++ "\nV-=".toList ++ decimal_nat vm ++ "\n".toList

theorem out_ite {α : Type} (p : Prop) [Decidable p] (x y : Printed α) :
    (if p then x else y).out = if p then x.out else y.out := by split <;> rfl

/-- The flag shown, if any, is that of the state. -/
def FlagOk (x : Printed (St × Int)) : Prop :=
  ∀ s k, x.result = .ok (s, k) → x.out = [] ∨ x.out = flagText "vr is trailing zeros=" s.vrZ

theorem flagOk_pure (r : St × Int) : FlagOk (pure r) := fun _ _ _ => Or.inl rfl

theorem flagOk_flag (e : Exec Bool) (g : Bool → St × Int) (hg : ∀ z, (g z).1.vrZ = z) :
    FlagOk (run e >>= fun z => debug_flag "vr is trailing zeros=" z >>= fun _ => pure (g z)) := by
  intro s k h
  cases e with
  | fault f => exact Or.inl rfl
  | ok z =>
    have h : (Exec.ok (g z) : Exec _) = .ok (s, k) := h
    have e : z = s.vrZ := by rw [← hg z, Exec.ok.inj h]
    right
    rw [← e]
    exact List.append_nil _

theorem flagOk_run {α : Type} (e : Exec α) (f : α → Printed (St × Int)) (h : ∀ a, FlagOk (f a)) : FlagOk (run e >>= f) := by
  intro s k g
  cases e with
  | fault f => exact Or.inl rfl
  | ok a => exact h a s k g

theorem p5b_table : ((List.range 1077).all fun i => p5b i == (5 ^ i).log2 + 1) = true := by decide +kernel

theorem p5b_eq {i : Nat} (h : i < 1077) : p5b i = (5 ^ i).log2 + 1 := by
  have := List.all_eq_true.mp p5b_table i (List.mem_range.mpr h)
  simpa using this

theorem d_step3_pos_out (c : Config) {m s : Nat} {e : Int} {acc : Bool} (hm0 : 0 < m) (hm : m < 2 ^ 53) (hs : s ≤ 1)
    (hedge : s = 0 → m = 2 ^ 52) (h0 : 0 ≤ e) (h1 : e ≤ 970) :
    (d_step3_pos_debug c m e s acc).out = natText (4 * m) ++ " * 2^".toList ++ natText e.natAbs ++ " / 10^".toList ++
      natText (dq e) ++ "\n".toList ++ vText ((4 * m + 2) * num e (dq e) / den e (dq e))
        (4 * m * num e (dq e) / den e (dq e)) ((4 * m - 1 - s) * num e (dq e) / den e (dq e)) := by
  obtain ⟨b, d, f1, f2, f3, f4, f5, f6, f7, f8, f9, f10⟩ := dFacts (by omega) h1
  obtain ⟨t, t1, t2⟩ := d_products c hm0 hm hs hedge (by omega : -1076 ≤ e) h1
  have hq := dq_zero_of_pos h0
  have hsh : ((dShift e (dq e) : Nat) : Int) = -e + (dq e : Int) + (125 + ((p5b (dq e) : Nat) : Int) - 1) := by
    unfold dShift at f3 ⊢
    rw [if_pos h0] at f3 ⊢
    omega
  have ht : dTable e = DOUBLE_POW5_INV_SPLIT := by unfold dTable; rw [if_pos h0]
  have hix : dIndex e (dq e) = dq e := by unfold dIndex; rw [if_pos h0]
  rw [ht, hix] at t1
  have hsub : subw 32 (e.toNat * 78913 / 2 ^ 18) (if e > 3 then 1 else 0) = dq e := by
    rw [hq]
    apply subw_of_le
    · split <;> omega
    · omega
  have hdq : dq e ≤ 3528 := by rw [hq]; omega
  unfold d_step3_pos_debug
  dsimp only
  rw [log10Pow2_eq c h0 (by omega), run_ok_bind, hsub, pow5bits_eq c hdq, run_ok_bind, t1, run_ok_bind, ← hsh, t2,
    run_ok_bind]
  dsimp only
  rw [wrap_of_lt (show 4 * m < 2 ^ 64 by omega), sayChars_bind, out_bind (result_debug_v _ _ _)]
  simp only [out_ite, out_run]
  rw [decimal_int_nonneg h0]
  simp only [pure_eq, ite_self, List.append_nil]
  rfl

theorem d_step3_neg_out (c : Config) {m s : Nat} {e : Int} {acc : Bool} (hm0 : 0 < m) (hm : m < 2 ^ 53) (hs : s ≤ 1)
    (hedge : s = 0 → m = 2 ^ 52) (h0 : -1076 ≤ e) (h1 : e < 0) :
    ∃ (b : Int) (x : Printed (St × Int)), b = ((5 ^ (-e - dq e).toNat).log2 + 1 : Nat) - (125 : Int) ∧
    dq e ≤ e.natAbs ∧ FlagOk x ∧ (d_step3_neg_debug c m e s acc).result = x.result ∧
    (d_step3_neg_debug c m e s acc).out = natText (4 * m) ++ " * 5^".toList ++ natText e.natAbs ++ " / 10^".toList ++
      natText (dq e) ++ "\n".toList ++ (natText (dq e) ++ " ".toList ++ intText (-e - dq e) ++ " ".toList ++ intText b ++
        " ".toList ++ intText (dq e - b) ++ "\n".toList) ++ vText ((4 * m + 2) * num e (dq e) / den e (dq e))
        (4 * m * num e (dq e) / den e (dq e)) ((4 * m - 1 - s) * num e (dq e) / den e (dq e)) ++ x.out := by
  obtain ⟨b, d, f1, f2, f3, f4, f5, f6, f7, f8, f9, f10⟩ := dFacts h0 (by omega)
  obtain ⟨t, t1, t2⟩ := d_products c hm0 hm hs hedge h0 (by omega : e ≤ 970)
  have hq := dq_of_neg h1
  have hn : ¬ 0 ≤ e := by omega
  have hsub : subw 32 ((-e).toNat * 732923 / 2 ^ 20) (if -e > 1 then 1 else 0) = dq e := by
    rw [hq]
    apply subw_of_le
    · split <;> omega
    · omega
  have hi : -e - (dq e : Int) = (((-e).toNat - dq e : Nat) : Int) := by omega
  have hsh : ((dShift e (dq e) : Nat) : Int) =
      (dq e : Int) - (((p5b ((-e).toNat - dq e) : Nat) : Int) - 125) := by
    unfold dShift at f3 ⊢
    rw [if_neg hn] at f3 ⊢
    omega
  have ht : dTable e = DOUBLE_POW5_SPLIT := by unfold dTable; rw [if_neg hn]
  have hix : dIndex e (dq e) = (-e).toNat - dq e := by unfold dIndex; rw [if_neg hn]
  rw [ht, hix] at t1
  refine ⟨((p5b ((-e).toNat - dq e) : Nat) : Int) - 125, ?flag, ?_, f10, ?mem, ?res, ?eq⟩
  case eq =>
    unfold d_step3_neg_debug
    dsimp only
    rw [log10Pow5_eq c (by omega) (by omega), run_ok_bind, hsub, hi, pow5bits_eq c (by omega), run_ok_bind,
      u32_eq (by omega) (by omega), Int.toNat_natCast, t1, run_ok_bind, ← hsh, t2, run_ok_bind]
    dsimp only
    rw [wrap_of_lt (show 4 * m < 2 ^ 64 by omega), sayChars_bind]
    dsimp only
    rw [sayChars_bind]
    dsimp only
    rw [out_bind (result_debug_v _ _ _), decimal_int_neg h1, ← List.append_assoc, ← List.append_assoc]
    rfl
  case res =>
    unfold d_step3_neg_debug
    dsimp only
    rw [log10Pow5_eq c (by omega) (by omega), run_ok_bind, hsub, hi, pow5bits_eq c (by omega), run_ok_bind,
      u32_eq (by omega) (by omega), Int.toNat_natCast, t1, run_ok_bind, ← hsh, t2, run_ok_bind]
    dsimp only
    rw [wrap_of_lt (show 4 * m < 2 ^ 64 by omega), bind_result (result_sayChars _), bind_result (result_sayChars _),
      bind_result (result_debug_v _ _ _)]
  · rw [hi, Int.toNat_natCast, p5b_eq (by omega)]
  case mem =>
    by_cases g1 : dq e ≤ 1
    · rw [if_pos g1]
      split <;> exact flagOk_pure _
    · rw [if_neg g1]
      split
      · exact flagOk_flag _ _ fun _ => rfl
      · exact flagOk_pure _

theorem f_step3_pos_out (c : Config) {m s : Nat} {e : Int} {acc : Bool} (hm0 : 0 < m) (hm : m < 2 ^ 24) (hs : s ≤ 1)
    (h0 : 0 ≤ e) (h1 : e ≤ 102) :
    (f_step3_pos_debug c m e s acc).out = natText (4 * m) ++ " * 2^".toList ++ natText e.natAbs ++ " / 10^".toList ++
      natText (fq e) ++ "\n".toList ++ vText ((4 * m + 2) * num e (fq e) / den e (fq e))
        (4 * m * num e (fq e) / den e (fq e)) ((4 * m - 1 - s) * num e (fq e) / den e (fq e)) := by
  obtain ⟨v, b, d, f1, f2, f3, f4, f5, f6, f7, f8⟩ := fFacts c.floatTable (by omega : -151 ≤ e) h1
  have hq := fq_of_pos h0
  have hsh : ((fShift c.floatTable e (fq e) : Nat) : Int) =
      -e + (fq e : Int) + ((invBits c.floatTable : Nat) + ((p5b (fq e) : Nat) : Int) - 1) := by
    have hib : 1 ≤ invBits c.floatTable := by unfold invBits; split <;> norm_num
    unfold fShift at f3 ⊢
    rw [if_pos h0] at f3 ⊢
    omega
  rw [decide_eq_true h0] at f1
  have hix : fIndex e (fq e) = fq e := by unfold fIndex; rw [if_pos h0]
  rw [hix] at f1
  have hBp := den_pos e (fq e)
  have hprod : ∀ n, n ≤ 2 ^ 26 → mulPow5InvDivPow2 c n (fq e) (fShift c.floatTable e (fq e) : Nat) =
      .ok (n * num e (fq e) / den e (fq e)) := by
    intro n hn
    rw [mulPow5InvDivPow2_eq c f1 f2, f_product c hn hBp f2 f3 f4 f5 f7]
  unfold f_step3_pos_debug
  dsimp only
  rw [wrap_of_lt (show 4 * m < 2 ^ 32 by omega), wrap_of_lt (show 4 * m + 2 < 2 ^ 32 by omega),
    subw_of_le (show 1 ≤ 4 * m by omega) (by omega), subw_of_le (show s ≤ 4 * m - 1 by omega) (by omega),
    log10Pow2_eq c h0 (by omega), run_ok_bind, ← hq, pow5bits_eq c (by omega), run_ok_bind, invBits_eq, ← hsh,
    hprod _ (by omega), run_ok_bind, hprod _ (by omega), run_ok_bind, hprod _ (by omega), run_ok_bind, sayChars_bind,
    out_bind (result_debug_v _ _ _), decimal_int_nonneg h0]
  rw [show ∀ (x : Exec Nat) (f : Nat → Printed (St × Int)), (∀ n, (f n).out = []) → (run x >>= f).out = [] from by
    intro x f h
    cases x
    · exact (h _)
    · rfl]
  · rw [List.append_nil]
    rfl
  · intro n
    simp only [out_ite, out_run]
    simp only [pure_eq, ite_self]

theorem f_step3_neg_out (c : Config) {m s : Nat} {e : Int} {acc : Bool} (hm0 : 0 < m) (hm : m < 2 ^ 24) (hs : s ≤ 1)
    (h0 : -151 ≤ e) (h1 : e < 0) :
    ∃ (b : Int) (x : Printed (St × Int)), b = ((5 ^ (-e - fq e).toNat).log2 + 1 : Nat) - (61 : Int) ∧
    fq e ≤ e.natAbs ∧ FlagOk x ∧ (f_step3_neg_debug c m e s acc).result = x.result ∧
    (f_step3_neg_debug c m e s acc).out = natText (4 * m) ++ " * 5^".toList ++ natText e.natAbs ++ " / 10^".toList ++
      natText (fq e) ++ "\n".toList ++ (natText (fq e) ++ " ".toList ++ intText (-e - fq e) ++ " ".toList ++ intText b ++
        " ".toList ++ intText (fq e - b) ++ "\n".toList) ++ vText ((4 * m + 2) * num e (fq e) / den e (fq e))
        (4 * m * num e (fq e) / den e (fq e)) ((4 * m - 1 - s) * num e (fq e) / den e (fq e)) ++ x.out := by
  obtain ⟨v, b, d, f1, f2, f3, f4, f5, f6, f7, f8⟩ := fFacts c.floatTable h0 (by omega : e ≤ 102)
  have hn : ¬ 0 ≤ e := by omega
  have hq := fq_of_neg h1
  have hi : -e - (fq e : Int) = (((-e).toNat - fq e : Nat) : Int) := by omega
  have hsh : ((fShift c.floatTable e (fq e) : Nat) : Int) =
      (fq e : Int) - (((p5b ((-e).toNat - fq e) : Nat) : Int) - 61) := by
    unfold fShift at f3 ⊢
    rw [if_neg hn] at f3 ⊢
    omega
  rw [decide_eq_false hn] at f1
  have hix : fIndex e (fq e) = (-e).toNat - fq e := by unfold fIndex; rw [if_neg hn]
  rw [hix] at f1
  have hBp := den_pos e (fq e)
  have hprod : ∀ n, n ≤ 2 ^ 26 → mulPow5divPow2 c n ((-e).toNat - fq e) (fShift c.floatTable e (fq e) : Nat) =
      .ok (n * num e (fq e) / den e (fq e)) := by
    intro n hn
    rw [mulPow5divPow2_eq c f1, f_product c hn hBp f2 f3 f4 f5 f7]
  refine ⟨((p5b ((-e).toNat - fq e) : Nat) : Int) - 61, ?flag, ?_, by omega, ?mem, ?res, ?eq⟩
  case eq =>
    unfold f_step3_neg_debug
    dsimp only
    rw [wrap_of_lt (show 4 * m < 2 ^ 32 by omega), wrap_of_lt (show 4 * m + 2 < 2 ^ 32 by omega),
      subw_of_le (show 1 ≤ 4 * m by omega) (by omega), subw_of_le (show s ≤ 4 * m - 1 by omega) (by omega),
      log10Pow5_eq c (by omega) (by omega), run_ok_bind, ← hq, hi, pow5bits_eq c (by omega), run_ok_bind, bitcount_eq,
      ← hsh, u32_eq (by omega) (by omega), Int.toNat_natCast,
      hprod _ (by omega), run_ok_bind, hprod _ (by omega), run_ok_bind, hprod _ (by omega), run_ok_bind, sayChars_bind]
    dsimp only
    rw [sayChars_bind]
    dsimp only
    rw [out_bind (result_debug_v _ _ _), decimal_int_neg h1, ← List.append_assoc, ← List.append_assoc]
    rfl
  case res =>
    unfold f_step3_neg_debug
    dsimp only
    rw [wrap_of_lt (show 4 * m < 2 ^ 32 by omega), wrap_of_lt (show 4 * m + 2 < 2 ^ 32 by omega),
      subw_of_le (show 1 ≤ 4 * m by omega) (by omega), subw_of_le (show s ≤ 4 * m - 1 by omega) (by omega),
      log10Pow5_eq c (by omega) (by omega), run_ok_bind, ← hq, hi, pow5bits_eq c (by omega), run_ok_bind, bitcount_eq,
      ← hsh, u32_eq (by omega) (by omega), Int.toNat_natCast,
      hprod _ (by omega), run_ok_bind, hprod _ (by omega), run_ok_bind, hprod _ (by omega), run_ok_bind,
      bind_result (result_sayChars _), bind_result (result_sayChars _), bind_result (result_debug_v _ _ _)]
  · rw [hi, Int.toNat_natCast, p5b_eq (by omega)]
  case mem =>
    refine flagOk_run _ _ fun l => ?_
    by_cases g1 : fq e ≤ 1
    · rw [if_pos g1]
      split <;> exact flagOk_pure _
    · rw [if_neg g1]
      split
      · exact flagOk_flag _ _ fun _ => rfl
      · exact flagOk_pure _

/-- The ends of the rounding interval, scaled. -/
theorem ends {F : Fmt} {m A B : Nat} {e10 : Int} (h0 : 0 < m)
    (hsc : (A : ℚ) / B * 10 ^ e10 = 2 ^ (ex F m - 2)) :
    ⌊(value F m + value F (m + 1)) / 2 / 10 ^ e10⌋₊ = (4 * sg F m + 2) * A / B ∧
    ⌊value F m / 10 ^ e10⌋₊ = 4 * sg F m * A / B ∧
    ⌊(value F (m - 1) + value F m) / 2 / 10 ^ e10⌋₊ = (4 * sg F m - 1 - shiftOf F m) * A / B ∧
    (value F m + value F (m + 1)) / 2 = (((4 * sg F m + 2) * A : Nat) : ℚ) / B * 10 ^ e10 ∧
    value F m = ((4 * sg F m * A : Nat) : ℚ) / B * 10 ^ e10 ∧
    (value F (m - 1) + value F m) / 2 = (((4 * sg F m - 1 - shiftOf F m) * A : Nat) : ℚ) / B * 10 ^ e10 := by
  have hp : (0 : ℚ) < 10 ^ e10 := ten_zpow_pos e10
  have hsg := sg_pos (F := F) h0
  have hs := shiftOf_le F m
  have h2 : (2 : ℚ) ^ ex F m = 4 * ((A : ℚ) / B * 10 ^ e10) := by
    rw [hsc, zpow_sub₀ (by norm_num)]
    norm_num
    ring
  have eL : (value F (m - 1) + value F m) / 2 = (((4 * sg F m - 1 - shiftOf F m) * A : Nat) : ℚ) / B * 10 ^ e10 := by
    have hc : (((4 * sg F m - 1 - shiftOf F m) * A : Nat) : ℚ) = (4 * sg F m - 1 - shiftOf F m) * A := by
      rw [Nat.sub_sub, Nat.cast_mul, Nat.cast_sub (by omega)]; push_cast; ring
    rw [hc, value_eq m]
    by_cases hcl : Closer F m
    · rw [value_pred_closer hcl, h2]
      unfold shiftOf
      rw [if_pos hcl]
      push_cast
      ring
    · rw [value_pred_generic h0 hcl, h2]
      unfold shiftOf
      rw [if_neg hcl]
      push_cast
      ring
  have eU : (value F m + value F (m + 1)) / 2 = (((4 * sg F m + 2) * A : Nat) : ℚ) / B * 10 ^ e10 := by
    rw [value_succ, value_eq m, h2]
    push_cast
    ring
  have eM : value F m = ((4 * sg F m * A : Nat) : ℚ) / B * 10 ^ e10 := by
    rw [value_eq m, h2]
    push_cast
    ring
  refine ⟨?_, ?_, ?_, eU, eM, eL⟩
  · rw [eU, mul_div_assoc, div_self hp.ne', mul_one, Nat.floor_div_eq_div]
  · rw [eM, mul_div_assoc, div_self hp.ne', mul_one, Nat.floor_div_eq_div]
  · rw [eL, mul_div_assoc, div_self hp.ne', mul_one, Nat.floor_div_eq_div]

theorem out_debug_step3 (s : St) (k : Int) : (debug_step3 s k).out = "e10=".toList ++ intText k ++ "\n".toList ++
    (threeText s.vp s.vr s.vm ++ (flagText "vm is trailing zeros=" s.vmZ ++ flagText "vr is trailing zeros=" s.vrZ)) :=
  rfl

theorem out_debug_result (s : St) (o : Nat) (t : Int) : (debug_result s o t).out =
    threeText s.vp s.vr s.vm ++ ("O=".toList ++ natText o ++ "\nEXP=".toList ++ intText t ++ "\n".toList) := by
  unfold debug_result
  rw [out_bind (result_debug_v _ _ _), sayChars_bind]
  dsimp only [sayChars]
  have : (debug_v s.vp s.vr s.vm).out = threeText s.vp s.vr s.vm := rfl
  rw [this, show "\nEXP=".toList = "\n".toList ++ "EXP=".toList from rfl]
  simp only [List.append_assoc]
  rfl

/-- The state `s` is that after the removal of `r` digits. -/
structure After (R M P r : Nat) (s : St) : Prop where
  vr : s.vr = R / 10 ^ r
  vm : s.vm = M / 10 ^ r
  vp : s.vp = P / 10 ^ r
  removed : s.removed = r

theorem After.stateAt {R M P last0 : Nat} {f0 z0 : Bool} (r : Nat) : After R M P r (stateAt R M P last0 f0 z0 r) :=
  ⟨rfl, rfl, rfl, rfl⟩

/-- Integer parts in coarser units. -/
theorem floor_coarser {v : ℚ} {k : Int} {n : Nat} (h : ⌊v / 10 ^ k⌋₊ = n) (r : Nat) :
    n / 10 ^ r = ⌊v / 10 ^ (k + (r : Int))⌋₊ := by
  rw [← h, zpow_add₀ (by norm_num), zpow_natCast, ← div_div, show ((10 : ℚ) ^ r) = ((10 ^ r : Nat) : ℚ) by push_cast; rfl,
    Nat.floor_div_natCast]

/-- What step 4 writes, in terms of the digits. -/
def Says (F : Fmt) (R M P last0 : Nat) (f0 z0 : Bool) (r : Nat) (text : List Char) : Prop :=
  ∃ a, a ≤ r ∧ Removed M P 0 a ∧ (f0 = true ∧ 10 ^ a ∣ M → 10 ^ r ∣ M ∧ ¬ 10 ^ (r + 1) ∣ M) ∧
    (¬ (f0 = true ∧ 10 ^ a ∣ M) → r = a) ∧
    text = if f0 || z0 then
        threeText (P / 10 ^ a) (R / 10 ^ a) (M / 10 ^ a) ++ flagText "d-10=" (f0 && decide (10 ^ a ∣ M)) ++
        natText (R / 10 ^ r) ++ " ".toList ++ natText (digit R last0 r) ++ "\n".toList ++
        flagText "vr is trailing zeros=" (zerosB R last0 z0 r)
      else
        natText (R / 10 ^ r) ++ " ".toList ++
        (match (generalizing := false) F with
          | .b32 => natText (digit R last0 r) ++ "\n".toList
          | .b64 => flagText "roundUp=" (decide (5 ≤ digit R last0 r))) ++
        flagText "vr is trailing zeros=" (zerosB R last0 z0 r)

theorem zerosB_false (R last0 : Nat) : ∀ r, zerosB R last0 false r = false
  | 0 => rfl
  | r + 1 => by rw [zerosB, zerosB_false R last0 r]; rfl

theorem zeros_dvd {R last0 : Nat} {z0 : Bool} : ∀ r, zeros R last0 z0 r → 10 ^ (r - 1) ∣ R
  | 0, _ => by simp
  | 1, _ => by simp
  | r + 2, h => by
    have ih := zeros_dvd (r + 1) ⟨h.1, fun k hk => h.2 k (by omega)⟩
    exact (pow_succ_dvd_iff R r).mpr ⟨ih, h.2 (r + 1) (by omega)⟩

theorem dvd_zeros {R : Nat} {z0 : Bool} (h0 : z0 = true) {r : Nat} (h : 10 ^ (r - 1) ∣ R) : zeros R 0 z0 r := by
  refine ⟨h0, fun k hk => ?_⟩
  rcases k with _ | k
  · rfl
  · exact ((pow_succ_dvd_iff R k).mp (dvd_trans (pow_dvd_pow 10 (by omega)) h)).2

theorem zeros_last {R l l' : Nat} {z0 : Bool} {r : Nat} (h : zeros R l z0 r) (hl : l' = 0) : zeros R l' z0 r := by
  refine ⟨h.1, fun k hk => ?_⟩
  rcases k with _ | k
  · exact hl
  · exact h.2 (k + 1) hk

theorem Says.removal {F : Fmt} {R M P last0 r : Nat} {f0 z0 acc : Bool} {text : List Char} {L X U v : ℚ} {k : Int}
    (h : Says F R M P last0 f0 z0 r text) (hc : Core L X U R M P acc f0 z0 last0) (hX : v = X * 10 ^ k) :
    IsRemoval F v k P R M r f0 z0 text := by
  obtain ⟨a, h1, h2, h3, h4, h5⟩ := h
  have hp := ten_zpow_pos k
  have hF : Final M P f0 r := by
    by_cases hz : f0 = true ∧ 10 ^ a ∣ M
    · exact h2.final2 h1 hz.1 (h3 hz).1 (h3 hz).2
    · obtain rfl := h4 hz
      exact h2.final hz
  have hdiv : v / 10 ^ k = X := by rw [hX, mul_div_cancel_right₀ _ hp.ne']
  have hX0 : (0 : ℚ) ≤ X := le_trans (Nat.cast_nonneg R) hc.R_le
  have hR : ⌊v / 10 ^ k⌋₊ = R := by
    rw [hdiv, Nat.floor_eq_iff hX0]
    exact ⟨hc.R_le, hc.lt_R⟩
  have hd : digit R last0 r = ⌊v / 10 ^ (k + (r : Int) - 1)⌋₊ % 10 := by
    rcases r with _ | j
    · obtain ⟨D, d1, d2, d3⟩ := (hc.stop0 (by simpa using hF.stop)).1
      have e : v / 10 ^ (k + ((0 : Nat) : Int) - 1) = 10 * X := by
        rw [Nat.cast_zero, add_zero, zpow_sub_one₀ (by norm_num), ← hdiv]
        field_simp
      rw [e, (Nat.floor_eq_iff (by linarith)).mpr ⟨d1, d2⟩]
      exact d3
    · rw [show k + ((j + 1 : Nat) : Int) - 1 = k + (j : Int) by push_cast; ring, ← floor_coarser hR j]
      rfl
  obtain ⟨-, -, g3, g4⟩ := hc.digit_spec hF
  refine ⟨a, digit R last0 r, zerosB R last0 z0 r, h1, h2.2.1, h2.2.2, h3, h4, hd, ?_, ?_, ?_, h5⟩
  · intro hz
    rw [zerosB_iff] at hz
    exact ⟨hz.1, zeros_dvd r hz⟩
  · intro hz hdv he
    have hXR : X = R := by
      rw [hX] at he
      exact mul_right_cancel₀ hp.ne' he
    rw [zerosB_iff]
    refine zeros_last (dvd_zeros hz hdv) ?_
    rcases hc.last0_ok with h | ⟨D, d1, d2, d3⟩
    · exact h
    · rw [hXR] at d1 d2
      have d1 : D ≤ 10 * R := by exact_mod_cast d1
      have d2 : 10 * R < D + 1 := by exact_mod_cast d2
      omega
  · rw [zerosB_iff, ← floor_coarser hR r]
    have hr : (0 : ℚ) < 10 ^ r := by positivity
    have e : X = (R / 10 ^ r * 10 ^ r : Nat) + (10 ^ r : ℚ) / 2 ↔
        2 * v = (2 * ((R / 10 ^ r : Nat) : ℚ) + 1) * 10 ^ (k + (r : Int)) := by
      rw [hX, zpow_add₀ (by norm_num), zpow_natCast, Nat.cast_mul, Nat.cast_pow]
      constructor
      · intro h
        rw [h]
        push_cast
        ring
      · intro h
        have : 2 * X = (2 * ((R / 10 ^ r : Nat) : ℚ) + 1) * 10 ^ r := by
          refine mul_right_cancel₀ hp.ne' ?_
          rw [mul_assoc, h]
          ring
        push_cast
        linarith
    rw [← e]
    exact ⟨fun h => g3 h.1 h.2, g4⟩

theorem out_sayChars (t : List Char) : (sayChars t).out = t := rfl
theorem out_debug_v (a b d : Nat) : (debug_v a b d).out = threeText a b d := rfl
theorem out_debug_flag (n : String) (b : Bool) : (debug_flag n b).out = flagText n b := rfl

theorem d_step4_debug_says (c : Config) {R M P : Nat} {f0 z0 acc : Bool} (hR : R + 1 < 2 ^ 64) (hM : M < 2 ^ 64)
    (hP : P < 2 ^ 64) (hf : f0 = true → 0 < M) {o : Nat} {s2 : St}
    (h : (d_step4_debug c acc ⟨R, P, M, f0, z0, 0, 0⟩).result = .ok (o, s2)) : ∃ r, After R M P r s2 ∧
    Says .b64 R M P 0 f0 z0 r (d_step4_debug c acc ⟨R, P, M, f0, z0, 0, 0⟩).out := by
  have hs0 : (⟨R, P, M, f0, z0, 0, 0⟩ : St) = stateAt R M P 0 f0 z0 0 := by
    simp [stateAt, zerosB, digit]
  have hP20 : P / 10 ^ 0 < 10 ^ 20 := by
    rw [pow_zero, Nat.div_one]; exact lt_trans hP (by norm_num)
  unfold d_step4_debug at h ⊢
  by_cases hg : (f0 || z0) = true
  · rw [if_pos hg, hs0] at h ⊢
    obtain ⟨r, h1, h2⟩ := d_general_loop_spec (R := R) (last0 := 0) (f0 := f0) (z0 := z0) c (by omega) hM hP 20 0 hP20
    rw [h1, run_ok_bind, bind_result (result_debug_v _ _ _), bind_result (result_debug_flag _ _)] at h
    rw [h1, run_ok_bind, out_bind (result_debug_v _ _ _), out_bind (result_debug_flag _ _)]
    by_cases hz : f0 = true ∧ 10 ^ r ∣ M
    · have hM20 : M / 10 ^ r < 10 ^ 20 := lt_of_le_of_lt (Nat.div_le_self _ _) (lt_trans hM (by norm_num))
      obtain ⟨r', g1, g2, g3, g4⟩ := d_trailing_loop_spec (R := R) (P := P) (last0 := 0) (z0 := z0) c (by omega) hM hP
        (hf hz.1) hz.1 20 r hz.2 hM20
      have hif : (Ryu.stateAt R M P 0 f0 z0 r).vmZ = true := by simp [stateAt, hz.1, hz.2]
      rw [if_pos hif, g1, run_ok_bind,
        bind_result (result_sayChars _), bind_result (result_debug_flag _ _), result_pure] at h
      rw [if_pos hif, g1, run_ok_bind, out_bind (result_sayChars _), out_bind (result_debug_flag _ _), pure_eq]
      obtain rfl : _ = s2 := congrArg Prod.snd (Exec.ok.inj h)
      refine ⟨r', After.stateAt r', r, g2, h2, fun _ => ⟨g3, g4⟩, fun h => absurd hz h, ?_⟩
      rw [if_pos hg]
      simp only [out_sayChars, out_debug_v, out_debug_flag, List.append_assoc, List.append_nil]
      rfl
    · have hif : ¬ (Ryu.stateAt R M P 0 f0 z0 r).vmZ = true := by
        simp only [stateAt, Bool.and_eq_true, decide_eq_true_iff]; exact hz
      rw [if_neg hif, run_ok_bind,
        bind_result (result_sayChars _), bind_result (result_debug_flag _ _), result_pure] at h
      rw [if_neg hif, run_ok_bind, out_bind (result_sayChars _), out_bind (result_debug_flag _ _), pure_eq]
      obtain rfl : _ = s2 := congrArg Prod.snd (Exec.ok.inj h)
      refine ⟨r, After.stateAt r, r, le_rfl, h2, fun h => absurd h hz, fun _ => rfl, ?_⟩
      rw [if_pos hg]
      simp only [out_sayChars, out_debug_v, out_debug_flag, List.append_assoc, List.append_nil]
      rfl
  · rw [if_neg hg] at h ⊢
    have hff : f0 = false := by cases f0 <;> simp_all
    have hzz : z0 = false := by cases z0 <;> simp_all
    subst hff hzz
    dsimp only at h ⊢
    rw [div100_eq c hP, div100_eq c hM, div100_eq c (by omega : R < 2 ^ 64), rem32_eq (by norm_num) (by norm_num)] at h ⊢
    have hlow : ∃ r up, (if P / 100 > M / 100 then
          ((⟨R / 100, P / 100, M / 100, false, false, 0, 0 + 2⟩ : St), decide (R % 100 ≥ 50))
        else (⟨R, P, M, false, false, 0, 0⟩, false)) =
        (⟨R / 10 ^ r, P / 10 ^ r, M / 10 ^ r, false, false, 0, r⟩, up) ∧ up = decide (digit R 0 r ≥ 5) ∧
        (r = 0 ∨ r ≠ 0 ∧ M / 10 ^ r < P / 10 ^ r) := by
      by_cases h : P / 100 > M / 100
      · refine ⟨2, decide (R % 100 ≥ 50), by rw [if_pos h]; norm_num, ?_, Or.inr ⟨by norm_num, h⟩⟩
        rw [decide_eq_decide]
        simp only [digit, pow_one]
        omega
      · refine ⟨0, false, by rw [if_neg h]; simp, by simp [digit], Or.inl rfl⟩
    obtain ⟨r, up, h1, h2, h3⟩ := hlow
    rw [h1] at h ⊢
    dsimp only at h ⊢
    rw [h2] at h ⊢
    obtain ⟨r', g1, g2⟩ := d_common_loop_spec (R := R) c (by omega) hM hP 20 r
      (lt_of_le_of_lt (Nat.div_le_self _ _) (lt_trans hP (by norm_num))) false false 0
    rw [g1, run_ok_bind] at h ⊢
    dsimp only at h ⊢
    rw [bind_result (result_sayChars _), bind_result (result_debug_flag _ _), bind_result (result_debug_flag _ _),
      result_pure] at h
    rw [out_bind (result_sayChars _), out_bind (result_debug_flag _ _), out_bind (result_debug_flag _ _), pure_eq]
    obtain rfl : _ = s2 := congrArg Prod.snd (Exec.ok.inj h)
    have g3 : Removed M P 0 r' := by
      obtain ⟨a, b, e⟩ := g2
      refine ⟨Nat.zero_le _, b, ?_⟩
      rcases e with e | e
      · rw [e]
        rcases h3 with h | h
        · exact Or.inl h
        · exact Or.inr h.2
      · exact Or.inr e
    refine ⟨r', ⟨rfl, rfl, rfl, rfl⟩, r', le_rfl, g3, fun h => absurd h.1 (by simp), fun _ => rfl, ?_⟩
    rw [if_neg hg, zerosB_false]
    simp only [out_sayChars, out_debug_flag, List.append_assoc, List.append_nil]
    rfl

theorem f_step4_debug_says {R M P last0 : Nat} {f0 z0 acc : Bool} (hM : M < 2 ^ 32)
    (hP : P < 2 ^ 32) (hf : f0 = true → 0 < M) {o : Nat} {s2 : St}
    (h : (f_step4_debug acc ⟨R, P, M, f0, z0, last0, 0⟩).result = .ok (o, s2)) : ∃ r, After R M P r s2 ∧
    Says .b32 R M P last0 f0 z0 r (f_step4_debug acc ⟨R, P, M, f0, z0, last0, 0⟩).out := by
  have hs0 : (⟨R, P, M, f0, z0, last0, 0⟩ : St) = stateAt R M P last0 f0 z0 0 := by
    simp [stateAt, zerosB, digit]
  have hP20 : P / 10 ^ 0 < 10 ^ 20 := by
    rw [pow_zero, Nat.div_one]; exact lt_trans hP (by norm_num)
  unfold f_step4_debug at h ⊢
  by_cases hg : (f0 || z0) = true
  · rw [if_pos hg, hs0] at h ⊢
    obtain ⟨r, h1, h2⟩ := f_general_loop_spec (R := R) (M := M) (last0 := last0) (f0 := f0) (z0 := z0) 20 0 hP20
    rw [h1, run_ok_bind, bind_result (result_debug_v _ _ _), bind_result (result_debug_flag _ _)] at h
    rw [h1, run_ok_bind, out_bind (result_debug_v _ _ _), out_bind (result_debug_flag _ _)]
    by_cases hz : f0 = true ∧ 10 ^ r ∣ M
    · have hM20 : M / 10 ^ r < 10 ^ 20 := lt_of_le_of_lt (Nat.div_le_self _ _) (lt_trans hM (by norm_num))
      obtain ⟨r', g1, g2, g3, g4⟩ := f_trailing_loop_spec (R := R) (P := P) (last0 := last0) (z0 := z0)
        (hf hz.1) hz.1 20 r hz.2 hM20
      have hif : (Ryu.stateAt R M P last0 f0 z0 r).vmZ = true := by simp [stateAt, hz.1, hz.2]
      rw [if_pos hif, g1, run_ok_bind,
        bind_result (result_sayChars _), bind_result (result_debug_flag _ _), result_pure] at h
      rw [if_pos hif, g1, run_ok_bind, out_bind (result_sayChars _), out_bind (result_debug_flag _ _), pure_eq]
      obtain rfl : _ = s2 := congrArg Prod.snd (Exec.ok.inj h)
      refine ⟨r', After.stateAt r', r, g2, h2, fun _ => ⟨g3, g4⟩, fun h => absurd hz h, ?_⟩
      rw [if_pos hg]
      simp only [out_sayChars, out_debug_v, out_debug_flag, List.append_assoc, List.append_nil]
      rfl
    · have hif : ¬ (Ryu.stateAt R M P last0 f0 z0 r).vmZ = true := by
        simp only [stateAt, Bool.and_eq_true, decide_eq_true_iff]; exact hz
      rw [if_neg hif, run_ok_bind,
        bind_result (result_sayChars _), bind_result (result_debug_flag _ _), result_pure] at h
      rw [if_neg hif, run_ok_bind, out_bind (result_sayChars _), out_bind (result_debug_flag _ _), pure_eq]
      obtain rfl : _ = s2 := congrArg Prod.snd (Exec.ok.inj h)
      refine ⟨r, After.stateAt r, r, le_rfl, h2, fun h => absurd h hz, fun _ => rfl, ?_⟩
      rw [if_pos hg]
      simp only [out_sayChars, out_debug_v, out_debug_flag, List.append_assoc, List.append_nil]
      rfl
  · rw [if_neg hg] at h ⊢
    have hff : f0 = false := by cases f0 <;> simp_all
    have hzz : z0 = false := by cases z0 <;> simp_all
    subst hff hzz
    obtain ⟨r, g1, g2⟩ := f_common_loop_spec (R := R) (M := M) (last0 := last0) 20 0 hP20 false false
    have hs1 : (⟨R, P, M, false, false, last0, 0⟩ : St) =
        ⟨R / 10 ^ 0, P / 10 ^ 0, M / 10 ^ 0, false, false, digit R last0 0, 0⟩ := by simp [digit]
    rw [hs1, g1, run_ok_bind, bind_result (result_sayChars _), bind_result (result_debug_flag _ _), result_pure] at h
    rw [hs1, g1, run_ok_bind, out_bind (result_sayChars _), out_bind (result_debug_flag _ _), pure_eq]
    obtain rfl : _ = s2 := congrArg Prod.snd (Exec.ok.inj h)
    refine ⟨r, ⟨rfl, rfl, rfl, rfl⟩, r, le_rfl, g2, fun h => absurd h.1 (by simp), fun _ => rfl, ?_⟩
    rw [if_neg hg, zerosB_false]
    simp only [out_sayChars, out_debug_flag, List.append_assoc, List.append_nil]
    rfl

theorem dvd_of_mul_eq {n B c j : Nat} (hB : 0 < B) (h : (n : ℚ) / B = c * j) : c * B ∣ n := by
  have hB' : (B : ℚ) ≠ 0 := by exact_mod_cast hB.ne'
  rw [div_eq_iff hB'] at h
  have h : n = c * j * B := by exact_mod_cast h
  exact ⟨j, by rw [h]; ring⟩

theorem index_nonneg {e : Int} {q : Nat} (hq : q ≤ (e - 2).natAbs) (h : ¬ 0 ≤ e - 2) : 0 ≤ 2 - e - (q : Int) := by omega

/-- Putting the pieces together. -/
theorem trace_of {F : Fmt} {kept m s q r R M P last : Nat} {f0 z0 : Bool} {k : Int} {text v3 r4 : List Char} {s2 : St} (h0 : 0 < m)
    (hsg : sg F m < 2 ^ (mantBits F + 1)) (hq : q ≤ (ex F m - 2).natAbs)
    (hk : k = if 0 ≤ ex F m - 2 then (q : Int) else q + (ex F m - 2))
    (hI : Init (num (ex F m - 2) q) (den (ex F m - 2) q) (sg F m) (shiftOf F m) R M P (decide (sg F m % 2 = 0)) f0 z0 last)
    (h2 : After R M P r s2) (h4 : Says F R M P last f0 z0 r r4)
    (h3 : ∃ line : List Char, v3 = natText (4 * sg F m) ++ (if 2 ≤ ex F m then " * 2^".toList else " * 5^".toList) ++
      natText (ex F m - 2).natAbs ++ " / 10^".toList ++ natText q ++ "\n".toList ++ line ∧
      (0 ≤ ex F m - 2 → line = vText ((4 * sg F m + 2) * num (ex F m - 2) q / den (ex F m - 2) q)
        (4 * sg F m * num (ex F m - 2) q / den (ex F m - 2) q)
        ((4 * sg F m - 1 - shiftOf F m) * num (ex F m - 2) q / den (ex F m - 2) q)) ∧
      (¬ 0 ≤ ex F m - 2 → ∃ (b : Int) (flag : List Char),
        b = ((5 ^ (-(ex F m - 2) - q).toNat).log2 + 1 : Nat) - (kept : Int) ∧
        (flag = [] ∨ flag = flagText "vr is trailing zeros=" z0) ∧
        line = (natText q ++ " ".toList ++ intText (-(ex F m - 2) - q) ++ " ".toList ++ intText b ++
          " ".toList ++ intText (q - b) ++ "\n".toList) ++
          vText ((4 * sg F m + 2) * num (ex F m - 2) q / den (ex F m - 2) q)
            (4 * sg F m * num (ex F m - 2) q / den (ex F m - 2) q)
            ((4 * sg F m - 1 - shiftOf F m) * num (ex F m - 2) q / den (ex F m - 2) q) ++ flag))
    (ht : text = (debug_value (sg F m) (ex F m - 2)).out ++ (v3 ++ ((debug_step3 ⟨R, P, M, f0, z0, last, 0⟩ k).out ++ (r4 ++
      ((debug_result s2 s (k + s2.removed)).out ++ []))))) : IsTrace F kept m s (k + s2.removed) text := by
  obtain ⟨line, h3, hl⟩ := h3
  rw [out_debug_step3] at ht
  dsimp only at ht
  have e2 := out_debug_result s2 s (k + s2.removed)
  have hsc := scale_eq hq
  rw [← hk] at hsc
  obtain ⟨v1, v2, v3', w1, w2, w3⟩ := ends (F := F) h0 hsc
  have hR := hI.R_eq
  have hM := hI.M_eq
  rw [← v2] at hR
  rw [← v3'] at hM
  rw [← v1, ← v2, ← v3'] at hl
  have hp : (0 : ℚ) < 10 ^ k := ten_zpow_pos k
  have hB := hI.B_pos
  have hB' : ((den (ex F m - 2) q : Nat) : ℚ) ≠ 0 := by exact_mod_cast hB.ne'
  have dvd : ∀ {n : Nat}, den (ex F m - 2) q ∣ n →
      (n : ℚ) / (den (ex F m - 2) q : Nat) = ((n / den (ex F m - 2) q : Nat) : ℚ) := by
    intro n h
    rw [Nat.cast_div h hB']
  have p1 : P = ⌊(value F m + value F (m + 1)) / 2 / 10 ^ k⌋₊ ∨ sg F m % 2 = 1 ∧
      (value F m + value F (m + 1)) / 2 = ((P : ℚ) + 1) * 10 ^ k := by
    rcases hI.P_eq with ⟨h, -⟩ | ⟨h, a, d⟩
    · left
      rw [v1]
      exact h
    · right
      refine ⟨by simpa using a, ?_⟩
      have hpos : 1 ≤ (4 * sg F m + 2) * num (ex F m - 2) q / den (ex F m - 2) q := by
        rw [Nat.le_div_iff_mul_le hB, one_mul]
        exact le_trans hI.B_le (Nat.le_mul_of_pos_left _ (by omega))
      rw [w1, dvd d, h, Nat.cast_sub hpos]
      push_cast
      ring
  have p2 : f0 = true → sg F m % 2 = 0 ∧ ∃ n : Nat, (value F (m - 1) + value F m) / 2 = n * 10 ^ k := by
    intro h
    obtain ⟨a, d⟩ := hI.f0_imp h
    exact ⟨by simpa using a, _, by rw [w3, dvd d]⟩
  have p3 : sg F m % 2 = 0 → (∃ n : Nat, (value F (m - 1) + value F m) / 2 = n * 10 ^ (k + 1)) → f0 = true := by
    rintro a ⟨n, hn⟩
    refine hI.imp_f0 (by simpa using a) (dvd_of_mul_eq (j := n) hB ?_)
    rw [w3, zpow_add_one₀ (by norm_num), mul_comm ((10 : ℚ) ^ k), ← mul_assoc] at hn
    have := mul_right_cancel₀ hp.ne' hn
    rw [this]
    push_cast
    ring
  have p4 : z0 = true → ∃ n : Nat, 2 * value F m = n * 10 ^ k := by
    intro h
    rcases hI.z0_imp h with d | ⟨d, -⟩
    · refine ⟨2 * (4 * sg F m * num (ex F m - 2) q / den (ex F m - 2) q), ?_⟩
      rw [w2, dvd d]
      push_cast
      ring
    · refine ⟨2 * R + 1, ?_⟩
      have d' : (2 : ℚ) * ((4 * sg F m * num (ex F m - 2) q : Nat) : ℚ) =
          ((2 * R + 1 : Nat) : ℚ) * (den (ex F m - 2) q : Nat) := by exact_mod_cast d
      rw [w2, ← mul_assoc, ← mul_div_assoc, d', mul_div_assoc, div_self hB', mul_one]
  have p5 : (∃ n : Nat, value F m = n * (5 * 10 ^ k)) → z0 = true := by
    rintro ⟨n, hn⟩
    refine hI.imp_z0 (dvd_of_mul_eq (j := n) hB ?_)
    rw [w2, ← mul_assoc] at hn
    have := mul_right_cancel₀ hp.ne' hn
    rw [this]
    push_cast
    ring
  have hv : (debug_value (sg F m) (ex F m - 2)).out = "-> ".toList ++ natText (sg F m) ++ " * 2^".toList ++
      intText (ex F m) ++ "\n".toList := by
    unfold debug_value
    rw [show ex F m - 2 + 2 = ex F m by ring]
    rfl
  have hi : 2 - ex F m - (q : Int) = -(ex F m - 2) - q := by ring
  have p6 := h4.removal hI.core w2
  rw [hR, hM] at p6
  rw [h2.vr, h2.vm, h2.vp, h2.removed, floor_coarser hR.symm, floor_coarser hM.symm] at e2
  rw [h2.removed, hR, hM] at ht
  rw [h2.removed]
  by_cases h : 0 ≤ ex F m - 2
  · have h' : 2 ≤ ex F m := by omega
    refine ⟨sg F m, q, r, P, ex F m, k, 2 - ex F m - q, 0, _, _, f0, z0, [], r4, value_eq m, hsg, ?_, rfl,
      fun g => by omega, rfl, rfl, p1, p2, p3, p4, p5, rfl, p6, Or.inl rfl, ?_⟩
    · rw [hk, if_pos h, if_pos h']
    · rw [ht, h3, hl.1 h, e2, hv, if_pos h', if_pos h']
      unfold vText threeText
      simp only [List.append_assoc, List.append_nil]
      rfl
  · have h' : ¬ 2 ≤ ex F m := by omega
    have hi0 := index_nonneg hq h
    obtain ⟨b, flag, b1, b2, b3⟩ := hl.2 h
    refine ⟨sg F m, q, r, P, ex F m, k, 2 - ex F m - q, b, _, _, f0, z0, flag, r4, value_eq m, hsg, ?_, rfl,
      fun _ => ⟨hi0, ?_⟩, rfl, rfl, p1, p2, p3, p4, p5, rfl, p6, b2, ?_⟩
    · rw [hk, if_neg h, if_neg h']
      ring
    · rw [hi]
      exact b1
    · rw [ht, h3, b3, e2, hv, if_neg h', if_neg h', hi]
      unfold vText threeText
      simp only [List.append_assoc, List.append_nil]
      rfl

/-- The significand, the exponent and the shift in `d2d`. -/
theorem d_frame {m : Nat} (h0 : 0 < m) (h1 : m < infPattern .b64) :
    (if m / 2 ^ 52 = 0 then 1 - 1023 - 52 - 2 else ((m / 2 ^ 52 : Nat) : Int) - 1023 - 52 - 2) = ex .b64 m - 2 ∧
    (if m / 2 ^ 52 = 0 then m % 2 ^ 52 else 2 ^ 52 ||| m % 2 ^ 52) = sg .b64 m ∧
    (if m % 2 ^ 52 ≠ 0 ∨ m / 2 ^ 52 ≤ 1 then 1 else 0) = shiftOf .b64 m ∧
    (-1076 ≤ ex .b64 m - 2 ∧ ex .b64 m - 2 ≤ 970) ∧ 0 < sg .b64 m ∧ sg .b64 m < 2 ^ 53 ∧
    (shiftOf .b64 m = 0 → sg .b64 m = 2 ^ 52) := by
  have h1' : m < 0x7ff0000000000000 := h1
  have he2 : (if m / 2 ^ 52 = 0 then 1 - 1023 - 52 - 2 else ((m / 2 ^ 52 : Nat) : Int) - 1023 - 52 - 2) =
      ex .b64 m - 2 := by
    unfold ex ulpExp mantBits
    dsimp only
    split
    · norm_num
    · push_cast [Nat.cast_sub (show 1 ≤ m / 2 ^ 52 by omega)]
      omega
  have hm2 : (if m / 2 ^ 52 = 0 then m % 2 ^ 52 else 2 ^ 52 ||| m % 2 ^ 52) = sg .b64 m := m2_eq
  have hsh : (if m % 2 ^ 52 ≠ 0 ∨ m / 2 ^ 52 ≤ 1 then 1 else 0) = shiftOf .b64 m := by
    unfold shiftOf
    have hc : Closer .b64 m ↔ m % 2 ^ 52 = 0 ∧ 2 ≤ m / 2 ^ 52 := Iff.rfl
    by_cases h : Closer .b64 m
    · rw [if_pos h, if_neg (by rw [hc] at h; omega)]
    · rw [if_neg h, if_pos (by rw [hc] at h; omega)]
  have hb : -1076 ≤ ex .b64 m - 2 ∧ ex .b64 m - 2 ≤ 970 := by
    rw [← he2]
    split <;> omega
  have hsg0 := sg_pos (F := .b64) h0
  have hsg : sg .b64 m < 2 ^ 53 := by
    unfold sg mantBits
    dsimp only
    split <;> omega
  have hedge : shiftOf .b64 m = 0 → sg .b64 m = 2 ^ 52 := by
    intro h
    have hcl : Closer .b64 m := by
      by_contra hc
      unfold shiftOf at h
      rw [if_neg hc] at h
      omega
    unfold Closer mantBits at hcl
    unfold sg mantBits
    dsimp only at hcl ⊢
    rw [if_neg (by omega), hcl.1, Nat.add_zero]
  exact ⟨he2, hm2, hsh, hb, hsg0, hsg, hedge⟩

/-- `d2d` with its third step given. -/
def d_rest (c : Config) (acc : Bool) (m2 : Nat) (e2 : Int) (x : Printed (St × Int)) : Printed FloatingDecimal := do
  debug_value m2 e2
  let (s, e10) ← x
  debug_step3 s e10
  let (output, s) ← d_step4_debug c acc s
  debug_result s output (e10 + s.removed)
  pure ⟨output, e10 + s.removed⟩

theorem d_trace_core (c : Config) {kept m : Nat} (h0 : 0 < m) (h1 : m < infPattern .b64) {s : Nat} {t : Int}
    {x : Printed (St × Int)}
    (hres : x.result = if 0 ≤ ex .b64 m - 2 then
        d_step3_pos c (sg .b64 m) (ex .b64 m - 2) (shiftOf .b64 m) (decide (sg .b64 m % 2 = 0))
      else d_step3_neg c (sg .b64 m) (ex .b64 m - 2) (shiftOf .b64 m) (decide (sg .b64 m % 2 = 0)))
    (hpos : 0 ≤ ex .b64 m - 2 → x.out = natText (4 * sg .b64 m) ++ " * 2^".toList ++ natText (ex .b64 m - 2).natAbs ++ " / 10^".toList ++
      natText (dq (ex .b64 m - 2)) ++ "\n".toList ++ vText ((4 * sg .b64 m + 2) * num (ex .b64 m - 2) (dq (ex .b64 m - 2)) / den (ex .b64 m - 2) (dq (ex .b64 m - 2)))
        (4 * sg .b64 m * num (ex .b64 m - 2) (dq (ex .b64 m - 2)) / den (ex .b64 m - 2) (dq (ex .b64 m - 2)))
        ((4 * sg .b64 m - 1 - shiftOf .b64 m) * num (ex .b64 m - 2) (dq (ex .b64 m - 2)) / den (ex .b64 m - 2) (dq (ex .b64 m - 2))))
    (hneg : ¬ 0 ≤ ex .b64 m - 2 → ∃ (b : Int) (y : Printed (St × Int)),
      b = ((5 ^ (-(ex .b64 m - 2) - dq (ex .b64 m - 2)).toNat).log2 + 1 : Nat) - (kept : Int) ∧ FlagOk y ∧ x.result = y.result ∧
      x.out = natText (4 * sg .b64 m) ++ " * 5^".toList ++ natText (ex .b64 m - 2).natAbs ++ " / 10^".toList ++
      natText (dq (ex .b64 m - 2)) ++ "\n".toList ++ (natText (dq (ex .b64 m - 2)) ++ " ".toList ++ intText (-(ex .b64 m - 2) - dq (ex .b64 m - 2)) ++ " ".toList ++ intText b ++
        " ".toList ++ intText (dq (ex .b64 m - 2) - b) ++ "\n".toList) ++ vText ((4 * sg .b64 m + 2) * num (ex .b64 m - 2) (dq (ex .b64 m - 2)) / den (ex .b64 m - 2) (dq (ex .b64 m - 2)))
        (4 * sg .b64 m * num (ex .b64 m - 2) (dq (ex .b64 m - 2)) / den (ex .b64 m - 2) (dq (ex .b64 m - 2)))
        ((4 * sg .b64 m - 1 - shiftOf .b64 m) * num (ex .b64 m - 2) (dq (ex .b64 m - 2)) / den (ex .b64 m - 2) (dq (ex .b64 m - 2))) ++ y.out)
    (hr : (d_rest c (decide (sg .b64 m % 2 = 0)) (sg .b64 m) (ex .b64 m - 2) x).result = .ok ⟨s, t⟩) :
    IsTrace .b64 kept m s t (d_rest c (decide (sg .b64 m % 2 = 0)) (sg .b64 m) (ex .b64 m - 2) x).out := by
  obtain ⟨-, -, -, hb, hsg0, hsg, hedge⟩ := d_frame h0 h1
  obtain ⟨b, d, -, -, -, -, -, -, -, -, f9, f10⟩ := dFacts hb.1 hb.2
  unfold d_rest at hr ⊢
  rw [bind_result (result_debug_value _ _)] at hr
  rw [out_bind (result_debug_value _ _)]
  have h3 : ∃ R M P f0 z0, x.result = .ok (⟨R, P, M, f0, z0, 0, 0⟩, if 0 ≤ ex .b64 m - 2 then (dq (ex .b64 m - 2) : Int)
        else dq (ex .b64 m - 2) + (ex .b64 m - 2)) ∧
      Init (num (ex .b64 m - 2) (dq (ex .b64 m - 2))) (den (ex .b64 m - 2) (dq (ex .b64 m - 2))) (sg .b64 m)
        (shiftOf .b64 m) R M P (decide (sg .b64 m % 2 = 0)) f0 z0 0 := by
    rw [hres]
    by_cases h : 0 ≤ ex .b64 m - 2
    · rw [if_pos h, if_pos h]
      exact d_step3_pos_spec c hsg0 hsg (shiftOf_le _ _) hedge rfl h hb.2
    · rw [if_neg h, if_neg h]
      exact d_step3_neg_spec c hsg0 hsg (shiftOf_le _ _) hedge hb.1 (by omega)
  obtain ⟨R, M, P, f0, z0, h3, hI⟩ := h3
  obtain ⟨b1, b2, b3⟩ := hI.bounds f9 (show 4 * sg .b64 m + 2 ≤ 2 ^ 55 by omega)
  rw [bind_result h3] at hr
  rw [out_bind h3]
  dsimp only at hr ⊢
  rw [bind_result (result_debug_step3 _ _)] at hr
  rw [out_bind (result_debug_step3 _ _)]
  cases h4 : (d_step4_debug c (decide (sg .b64 m % 2 = 0)) ⟨R, P, M, f0, z0, 0, 0⟩).result with
  | fault f =>
    rw [result_bind, h4] at hr
    exact absurd hr (by simp)
  | ok r =>
    obtain ⟨o, s2⟩ := r
    rw [bind_result h4] at hr
    rw [out_bind h4]
    dsimp only at hr ⊢
    rw [bind_result (result_debug_result _ _ _), result_pure] at hr
    rw [out_bind (result_debug_result _ _ _), pure_eq]
    dsimp only
    obtain ⟨rfl, rfl⟩ : o = s ∧ _ = t :=
      ⟨congrArg FloatingDecimal.mantissa (Exec.ok.inj hr), congrArg FloatingDecimal.exponent (Exec.ok.inj hr)⟩
    obtain ⟨r, hA, hS⟩ := d_step4_debug_says c (by omega) (by omega) (by omega) (fun _ => hI.M_pos) h4
    refine trace_of (v3 := x.out) (s2 := s2) h0 hsg f10 rfl hI hA hS ?_ rfl
    by_cases h : 0 ≤ ex .b64 m - 2
    · refine ⟨_, ?_, fun _ => rfl, fun g => absurd h g⟩
      rw [if_pos (by omega), hpos h]
    · obtain ⟨b, y, b1, b3, b4, b5⟩ := hneg h
      have hy := h3
      rw [b4] at hy
      have hz := b3 _ _ hy
      refine ⟨_, ?_, fun g => absurd g h, fun _ => ⟨b, y.out, b1, hz, rfl⟩⟩
      rw [if_neg (by omega), b5]
      simp only [List.append_assoc]

theorem d2d_debug_trace (c : Config) {m : Nat} (h0 : 0 < m) (h1 : m < infPattern .b64) {s : Nat} {t : Int}
    (hr : d2d c (m % 2 ^ 52) (m / 2 ^ 52) = .ok ⟨s, t⟩) :
    IsTrace .b64 125 m s t (d2d_debug c (m % 2 ^ 52) (m / 2 ^ 52)).out := by
  obtain ⟨he2, hm2, hsh, hb, hsg0, hsg, hedge⟩ := d_frame h0 h1
  have hacc : decide (sg .b64 m &&& 1 = 0) = decide (sg .b64 m % 2 = 0) := by rw [Nat.and_one_is_mod]
  have e : d2d_debug c (m % 2 ^ 52) (m / 2 ^ 52) = d_rest c (decide (sg .b64 m % 2 = 0)) (sg .b64 m) (ex .b64 m - 2)
      (if 0 ≤ ex .b64 m - 2 then d_step3_pos_debug c (sg .b64 m) (ex .b64 m - 2) (shiftOf .b64 m) (decide (sg .b64 m % 2 = 0))
        else d_step3_neg_debug c (sg .b64 m) (ex .b64 m - 2) (shiftOf .b64 m) (decide (sg .b64 m % 2 = 0))) := by
    unfold d2d_debug d_rest
    dsimp only
    rw [he2, hm2, hsh, hacc]
  rw [← d2d_debug_result, e] at hr
  rw [e]
  refine d_trace_core c h0 h1 ?_ (fun h => ?_) (fun h => ?_) hr
  · rw [result_ite, d_step3_pos_debug_result, d_step3_neg_debug_result]
  · rw [if_pos h, d_step3_pos_out c hsg0 hsg (shiftOf_le _ _) hedge h hb.2]
  · rw [if_neg h]
    obtain ⟨b, y, b1, b2, b3, b4, b5⟩ := d_step3_neg_out c hsg0 hsg (shiftOf_le _ _) hedge
      (acc := decide (sg .b64 m % 2 = 0)) hb.1 (show ex .b64 m - 2 < 0 by omega)
    exact ⟨b, y, b1, b3, b4, b5⟩

/-- The significand, the exponent and the shift in `f2d`. -/
theorem f_frame {m : Nat} (h0 : 0 < m) (h1 : m < infPattern .b32) :
    (if m / 2 ^ 23 = 0 then 1 - 127 - 23 - 2 else ((m / 2 ^ 23 : Nat) : Int) - 127 - 23 - 2) = ex .b32 m - 2 ∧
    (if m / 2 ^ 23 = 0 then m % 2 ^ 23 else 2 ^ 23 ||| m % 2 ^ 23) = sg .b32 m ∧
    (if m % 2 ^ 23 ≠ 0 ∨ m / 2 ^ 23 ≤ 1 then 1 else 0) = shiftOf .b32 m ∧
    (-151 ≤ ex .b32 m - 2 ∧ ex .b32 m - 2 ≤ 102) ∧ 0 < sg .b32 m ∧ sg .b32 m < 2 ^ 24 ∧
    (shiftOf .b32 m = 0 → sg .b32 m = 2 ^ 23) ∧
    (ex .b32 m - 2 = -151 → shiftOf .b32 m = 1) := by
  have h1' : m < 0x7f800000 := h1
  have he2 : (if m / 2 ^ 23 = 0 then 1 - 127 - 23 - 2 else ((m / 2 ^ 23 : Nat) : Int) - 127 - 23 - 2) =
      ex .b32 m - 2 := by
    unfold ex ulpExp mantBits
    dsimp only
    split
    · norm_num
    · push_cast [Nat.cast_sub (show 1 ≤ m / 2 ^ 23 by omega)]
      omega
  have hm2 : (if m / 2 ^ 23 = 0 then m % 2 ^ 23 else 2 ^ 23 ||| m % 2 ^ 23) = sg .b32 m := m2_eq
  have hsh : (if m % 2 ^ 23 ≠ 0 ∨ m / 2 ^ 23 ≤ 1 then 1 else 0) = shiftOf .b32 m := by
    unfold shiftOf
    have hc : Closer .b32 m ↔ m % 2 ^ 23 = 0 ∧ 2 ≤ m / 2 ^ 23 := Iff.rfl
    by_cases h : Closer .b32 m
    · rw [if_pos h, if_neg (by rw [hc] at h; omega)]
    · rw [if_neg h, if_pos (by rw [hc] at h; omega)]
  have hb : -151 ≤ ex .b32 m - 2 ∧ ex .b32 m - 2 ≤ 102 := by
    rw [← he2]
    split <;> omega
  have hsg0 := sg_pos (F := .b32) h0
  have hsg : sg .b32 m < 2 ^ 24 := by
    unfold sg mantBits
    dsimp only
    split <;> omega
  have hedge : shiftOf .b32 m = 0 → sg .b32 m = 2 ^ 23 := by
    intro h
    have hcl : Closer .b32 m := by
      by_contra hc
      unfold shiftOf at h
      rw [if_neg hc] at h
      omega
    unfold Closer mantBits at hcl
    unfold sg mantBits
    dsimp only at hcl ⊢
    rw [if_neg (by omega), hcl.1, Nat.add_zero]
  have hcl : shiftOf .b32 m = 0 → m % 2 ^ 23 = 0 ∧ 2 ≤ m / 2 ^ 23 := by
    intro h
    by_contra hc
    unfold shiftOf at h
    rw [if_neg (show ¬ Closer .b32 m from hc)] at h
    omega
  have hmin : ex .b32 m - 2 = -151 → shiftOf .b32 m = 1 := by
    intro h
    by_contra hc
    have h2 := (hcl (by have := shiftOf_le .b32 m; omega)).2
    rw [← he2, if_neg (by omega)] at h
    omega
  exact ⟨he2, hm2, hsh, hb, hsg0, hsg, hedge, hmin⟩

/-- `f2d` with its third step given. -/
def f_rest (acc : Bool) (m2 : Nat) (e2 : Int) (x : Printed (St × Int)) : Printed FloatingDecimal := do
  debug_value m2 e2
  let (s, e10) ← x
  debug_step3 s e10
  let (output, s) ← f_step4_debug acc s
  debug_result s output (e10 + s.removed)
  pure ⟨output, e10 + s.removed⟩

theorem f_trace_core (c : Config) {kept m : Nat} (h0 : 0 < m) (h1 : m < infPattern .b32) {s : Nat} {t : Int}
    {x : Printed (St × Int)}
    (hres : x.result = if 0 ≤ ex .b32 m - 2 then
        f_step3_pos c (sg .b32 m) (ex .b32 m - 2) (shiftOf .b32 m) (decide (sg .b32 m % 2 = 0))
      else f_step3_neg c (sg .b32 m) (ex .b32 m - 2) (shiftOf .b32 m) (decide (sg .b32 m % 2 = 0)))
    (hpos : 0 ≤ ex .b32 m - 2 → x.out = natText (4 * sg .b32 m) ++ " * 2^".toList ++ natText (ex .b32 m - 2).natAbs ++ " / 10^".toList ++
      natText (fq (ex .b32 m - 2)) ++ "\n".toList ++ vText ((4 * sg .b32 m + 2) * num (ex .b32 m - 2) (fq (ex .b32 m - 2)) / den (ex .b32 m - 2) (fq (ex .b32 m - 2)))
        (4 * sg .b32 m * num (ex .b32 m - 2) (fq (ex .b32 m - 2)) / den (ex .b32 m - 2) (fq (ex .b32 m - 2)))
        ((4 * sg .b32 m - 1 - shiftOf .b32 m) * num (ex .b32 m - 2) (fq (ex .b32 m - 2)) / den (ex .b32 m - 2) (fq (ex .b32 m - 2))))
    (hneg : ¬ 0 ≤ ex .b32 m - 2 → ∃ (b : Int) (y : Printed (St × Int)),
      b = ((5 ^ (-(ex .b32 m - 2) - fq (ex .b32 m - 2)).toNat).log2 + 1 : Nat) - (kept : Int) ∧ FlagOk y ∧ x.result = y.result ∧
      x.out = natText (4 * sg .b32 m) ++ " * 5^".toList ++ natText (ex .b32 m - 2).natAbs ++ " / 10^".toList ++
      natText (fq (ex .b32 m - 2)) ++ "\n".toList ++ (natText (fq (ex .b32 m - 2)) ++ " ".toList ++ intText (-(ex .b32 m - 2) - fq (ex .b32 m - 2)) ++ " ".toList ++ intText b ++
        " ".toList ++ intText (fq (ex .b32 m - 2) - b) ++ "\n".toList) ++ vText ((4 * sg .b32 m + 2) * num (ex .b32 m - 2) (fq (ex .b32 m - 2)) / den (ex .b32 m - 2) (fq (ex .b32 m - 2)))
        (4 * sg .b32 m * num (ex .b32 m - 2) (fq (ex .b32 m - 2)) / den (ex .b32 m - 2) (fq (ex .b32 m - 2)))
        ((4 * sg .b32 m - 1 - shiftOf .b32 m) * num (ex .b32 m - 2) (fq (ex .b32 m - 2)) / den (ex .b32 m - 2) (fq (ex .b32 m - 2))) ++ y.out)
    (hr : (f_rest (decide (sg .b32 m % 2 = 0)) (sg .b32 m) (ex .b32 m - 2) x).result = .ok ⟨s, t⟩) :
    IsTrace .b32 kept m s t (f_rest (decide (sg .b32 m % 2 = 0)) (sg .b32 m) (ex .b32 m - 2) x).out := by
  obtain ⟨-, -, -, hb, hsg0, hsg, hedge, hmin⟩ := f_frame h0 h1
  obtain ⟨v, b, d, -, -, -, -, -, -, f9, f10⟩ := fFacts c.floatTable hb.1 hb.2
  unfold f_rest at hr ⊢
  rw [bind_result (result_debug_value _ _)] at hr
  rw [out_bind (result_debug_value _ _)]
  have h3 : ∃ R M P f0 z0 last, x.result = .ok (⟨R, P, M, f0, z0, last, 0⟩, if 0 ≤ ex .b32 m - 2 then (fq (ex .b32 m - 2) : Int)
        else fq (ex .b32 m - 2) + (ex .b32 m - 2)) ∧
      Init (num (ex .b32 m - 2) (fq (ex .b32 m - 2))) (den (ex .b32 m - 2) (fq (ex .b32 m - 2))) (sg .b32 m)
        (shiftOf .b32 m) R M P (decide (sg .b32 m % 2 = 0)) f0 z0 last := by
    rw [hres]
    by_cases h : 0 ≤ ex .b32 m - 2
    · rw [if_pos h, if_pos h]
      exact f_step3_pos_spec c hsg0 hsg (shiftOf_le _ _) hedge h hb.2
    · rw [if_neg h, if_neg h]
      exact f_step3_neg_spec c hsg0 hsg (shiftOf_le _ _) hmin hb.1 (by omega)
  obtain ⟨R, M, P, f0, z0, last, h3, hI⟩ := h3
  obtain ⟨b1, b2, b3⟩ := hI.bounds f9 (show 4 * sg .b32 m + 2 ≤ 2 ^ 26 by omega)
  rw [bind_result h3] at hr
  rw [out_bind h3]
  dsimp only at hr ⊢
  rw [bind_result (result_debug_step3 _ _)] at hr
  rw [out_bind (result_debug_step3 _ _)]
  cases h4 : (f_step4_debug (decide (sg .b32 m % 2 = 0)) ⟨R, P, M, f0, z0, last, 0⟩).result with
  | fault f =>
    rw [result_bind, h4] at hr
    exact absurd hr (by simp)
  | ok r =>
    obtain ⟨o, s2⟩ := r
    rw [bind_result h4] at hr
    rw [out_bind h4]
    dsimp only at hr ⊢
    rw [bind_result (result_debug_result _ _ _), result_pure] at hr
    rw [out_bind (result_debug_result _ _ _), pure_eq]
    dsimp only
    obtain ⟨rfl, rfl⟩ : o = s ∧ _ = t :=
      ⟨congrArg FloatingDecimal.mantissa (Exec.ok.inj hr), congrArg FloatingDecimal.exponent (Exec.ok.inj hr)⟩
    obtain ⟨r, hA, hS⟩ := f_step4_debug_says (by omega) (by omega) (fun _ => hI.M_pos) h4
    refine trace_of (v3 := x.out) (s2 := s2) h0 hsg f10 rfl hI hA hS ?_ rfl
    by_cases h : 0 ≤ ex .b32 m - 2
    · refine ⟨_, ?_, fun _ => rfl, fun g => absurd h g⟩
      rw [if_pos (by omega), hpos h]
    · obtain ⟨b, y, b1, b3, b4, b5⟩ := hneg h
      have hy := h3
      rw [b4] at hy
      have hz := b3 _ _ hy
      refine ⟨_, ?_, fun g => absurd g h, fun _ => ⟨b, y.out, b1, hz, rfl⟩⟩
      rw [if_neg (by omega), b5]
      simp only [List.append_assoc]

theorem f2d_debug_trace (c : Config) {m : Nat} (h0 : 0 < m) (h1 : m < infPattern .b32) {s : Nat} {t : Int}
    (hr : f2d c (m % 2 ^ 23) (m / 2 ^ 23) = .ok ⟨s, t⟩) :
    IsTrace .b32 61 m s t (f2d_debug c (m % 2 ^ 23) (m / 2 ^ 23)).out := by
  obtain ⟨he2, hm2, hsh, hb, hsg0, hsg, -, -⟩ := f_frame h0 h1
  have hacc : decide (sg .b32 m &&& 1 = 0) = decide (sg .b32 m % 2 = 0) := by rw [Nat.and_one_is_mod]
  have e : f2d_debug c (m % 2 ^ 23) (m / 2 ^ 23) = f_rest (decide (sg .b32 m % 2 = 0)) (sg .b32 m) (ex .b32 m - 2)
      (if 0 ≤ ex .b32 m - 2 then f_step3_pos_debug c (sg .b32 m) (ex .b32 m - 2) (shiftOf .b32 m) (decide (sg .b32 m % 2 = 0))
        else f_step3_neg_debug c (sg .b32 m) (ex .b32 m - 2) (shiftOf .b32 m) (decide (sg .b32 m % 2 = 0))) := by
    unfold f2d_debug f_rest
    dsimp only
    rw [he2, hm2, hsh, hacc]
  rw [← f2d_debug_result, e] at hr
  rw [e]
  refine f_trace_core c h0 h1 ?_ (fun h => ?_) (fun h => ?_) hr
  · rw [result_ite, f_step3_pos_debug_result, f_step3_neg_debug_result]
  · rw [if_pos h, f_step3_pos_out c hsg0 hsg (shiftOf_le _ _) h hb.2]
  · rw [if_neg h]
    obtain ⟨b, y, b1, b2, b3, b4, b5⟩ := f_step3_neg_out c hsg0 hsg (shiftOf_le _ _)
      (acc := decide (sg .b32 m % 2 = 0)) hb.1 (show ex .b32 m - 2 < 0 by omega)
    exact ⟨b, y, b1, b3, b4, b5⟩

/-! ## The whole call -/

theorem bits_text (x : Nat) : ∀ w : Nat,
    ((List.range w).reverse.flatMap fun bit => decimal_nat (x / 2 ^ bit &&& 1)).length = w ∧
    (∀ ch ∈ (List.range w).reverse.flatMap fun bit => decimal_nat (x / 2 ^ bit &&& 1), ch = '0' ∨ ch = '1') ∧
    ∀ v, ((List.range w).reverse.flatMap fun bit => decimal_nat (x / 2 ^ bit &&& 1)).foldl
      (fun v ch => 2 * v + if ch = '1' then 1 else 0) v = v * 2 ^ w + x % 2 ^ w
  | 0 => ⟨rfl, fun _ h => absurd h List.not_mem_nil, fun v => by simp [Nat.mod_one]⟩
  | w + 1 => by
    obtain ⟨i1, i2, i3⟩ := bits_text x w
    rw [List.range_succ, List.reverse_append, List.reverse_singleton, List.singleton_append, List.flatMap_cons]
    have hd : x % 2 ^ (w + 1) = x / 2 ^ w % 2 * 2 ^ w + x % 2 ^ w := by
      rw [pow_succ, Nat.mod_mul, mul_comm (2 ^ w)]
      omega
    rw [Nat.and_one_is_mod, hd]
    rcases Nat.mod_two_eq_zero_or_one (x / 2 ^ w) with h | h
    · rw [h, show decimal_nat 0 = ['0'] from rfl]
      refine ⟨by rw [List.length_append, i1]; simp [add_comm], ?_, fun v => ?_⟩
      · intro ch hch
        rcases List.mem_append.mp hch with g | g
        · exact Or.inl (List.mem_singleton.mp g)
        · exact i2 ch g
      · rw [List.foldl_append, i3]
        simp only [List.foldl_cons, List.foldl_nil]
        rw [if_neg (by decide), pow_succ]
        ring
    · rw [h, show decimal_nat 1 = ['1'] from rfl]
      refine ⟨by rw [List.length_append, i1]; simp [add_comm], ?_, fun v => ?_⟩
      · intro ch hch
        rcases List.mem_append.mp hch with g | g
        · exact Or.inr (List.mem_singleton.mp g)
        · exact i2 ch g
      · rw [List.foldl_append, i3]
        simp only [List.foldl_cons, List.foldl_nil]
        rw [if_pos trivial, pow_succ]
        ring

theorem debug_in_out {w x : Nat} (hx : x < 2 ^ w) : ∃ bits, IsBinary w x bits ∧
    (debug_in w x).out = "IN=".toList ++ bits ++ "\n".toList := by
  obtain ⟨h1, h2, h3⟩ := bits_text x w
  refine ⟨_, ⟨h1, h2, ?_⟩, rfl⟩
  rw [h3, zero_mul, zero_add, Nat.mod_eq_of_lt hx]

/-- The short cut for integers is taken by all of them below `2 ^ 53`. -/
theorem small_int_complete {m n : Nat} (h0 : 0 < m) (hv : value .b64 m = n) (hn : n < 2 ^ 53) :
    d2d_small_int (m % 2 ^ 52) (m / 2 ^ 52) ≠ none := by
  have hmono := value_strictMono (F := .b64)
  have one : value .b64 (1023 * 2 ^ 52) = 1 := by
    rw [value_eq, show sg .b64 (1023 * 2 ^ 52) = 2 ^ 52 from by decide +kernel,
      show ex .b64 (1023 * 2 ^ 52) = -52 from by decide +kernel]
    norm_num
  have big : value .b64 (1076 * 2 ^ 52) = 2 ^ 53 := by
    rw [value_eq, show sg .b64 (1076 * 2 ^ 52) = 2 ^ 52 from by decide +kernel,
      show ex .b64 (1076 * 2 ^ 52) = 1 from by decide +kernel]
    norm_num
  have zero : value .b64 0 = 0 := by
    rw [value_eq, show sg .b64 0 = 0 from by decide +kernel]
    norm_num
  have pos : 0 < value .b64 m := by rw [← zero]; exact hmono h0
  have n0 : 0 < n := by rw [hv] at pos; exact_mod_cast pos
  have l1 : 1023 * 2 ^ 52 ≤ m := by
    rw [← hmono.le_iff_le, one, hv]
    exact_mod_cast n0
  have l2 : m < 1076 * 2 ^ 52 := by
    rw [← hmono.lt_iff_lt, big, hv]
    exact_mod_cast hn
  have hor : 2 ^ 52 ||| m % 2 ^ 52 = 2 ^ 52 + m % 2 ^ 52 := by
    have := Nat.two_pow_add_eq_or_of_lt (Nat.mod_lt m (show 0 < 2 ^ 52 by norm_num)) 1
    rw [mul_one] at this
    exact this.symm
  have hd : 1023 ≤ m / 2 ^ 52 ∧ m / 2 ^ 52 ≤ 1075 := by omega
  have hsg : sg .b64 m = 2 ^ 52 + m % 2 ^ 52 := by
    unfold sg mantBits
    dsimp only
    rw [if_neg (by omega)]
  obtain ⟨j, hj⟩ : ∃ j : Nat, m / 2 ^ 52 + j = 1075 := ⟨1075 - m / 2 ^ 52, by omega⟩
  have hex : ex .b64 m = -(j : Int) := by
    unfold ex ulpExp mantBits
    dsimp only
    rw [if_neg (by omega)]
    omega
  have hval : 2 ^ 52 + m % 2 ^ 52 = n * 2 ^ j := by
    rw [value_eq, hsg, hex, zpow_neg, zpow_natCast, ← div_eq_mul_inv, div_eq_iff (by positivity)] at hv
    exact_mod_cast hv
  unfold d2d_small_int
  dsimp only
  have e2 : ((m / 2 ^ 52 : Nat) : Int) - 1023 - 52 = -(j : Int) := by omega
  rw [e2, if_neg (by omega), if_neg (by omega), hor, neg_neg, Int.toNat_natCast, Nat.and_two_pow_sub_one_eq_mod, hval,
    Nat.mul_mod_left, if_neg (by simp)]
  simp

/-- The decimal that both builds compute. -/
theorem to_chars_out {x s : Nat} {t : Int} {F : Fmt} {mem : Buffer} {w : Printed (Buffer × Int)} {l : Exec Nat}
    (hl : l = .ok (numDigits s)) (hm : (sci (isNeg F x) s t).length ≤ mem.length) :
    (run (if isNeg F x then put mem 0 '-' else .ok mem) >>= fun _ => run l >>= fun olength =>
      debug_digits ⟨s, t⟩ olength >>= fun _ => w).out =
      "DIGITS=".toList ++ natText s ++ "\nOLEN=".toList ++ natText (numDigits s) ++ "\nEXP=".toList ++
        natText ((t + numDigits s) % 2 ^ 32).toNat ++ "\n".toList ++ w.out := by
  have hput : ∃ m', (if isNeg F x then put mem 0 '-' else .ok mem : Exec Buffer) = .ok m' := by
    cases hn : isNeg F x
    · exact ⟨mem, rfl⟩
    · rw [hn] at hm
      have hlen : 0 < mem.length := lt_of_lt_of_le (by simp [sci]) hm
      unfold put
      rw [if_pos rfl, if_pos (by simpa using hlen)]
      exact ⟨_, rfl⟩
  obtain ⟨m', hm'⟩ := hput
  rw [hm', run_ok_bind, hl, run_ok_bind, out_bind (result_debug_digits _ _)]
  congr 1
  rw [show "\nOLEN=".toList = "\n".toList ++ "OLEN=".toList from rfl,
    show "\nEXP=".toList = "\n".toList ++ "EXP=".toList from rfl]
  unfold debug_digits
  rw [sayChars_bind]
  dsimp only
  rw [sayChars_bind]
  simp only [List.append_assoc]
  rfl

end Grisu.Ryu
