import Verif.Model.VerifyLog
import Verif.Proofs.BigIntLong

/-! # The self-verification of the logarithms -/

namespace Grisu

theorem verify_log_loop_true {step : Nat → Exec Bool} (count : Nat) : ∀ e m : Nat, 0 < count →
    (∀ i, e ≤ i → i < e + count → step i = .ok true) →
    verify_log_loop step count e true m = .ok (e + count - 1) := by
  induction count with
  | zero => intro e m h; omega
  | succ count ih =>
    intro e m _ h
    simp only [verify_log_loop, h e le_rfl (by omega), Exec.ok_bind, Bool.and_self, if_true]
    rcases Nat.eq_zero_or_pos count with rfl | hc
    · simp [verify_log_loop]
    · rw [ih (e + 1) e hc fun i h1 h2 => h i (by omega) (by omega)]
      congr 1; omega

theorem verify_log_loop_fault {step : Nat → Exec Bool} {f : Fault} (n : Nat) : ∀ e count m : Nat, n < count →
    (∀ i, e ≤ i → i < e + n → step i = .ok true) → step (e + n) = .fault f →
    verify_log_loop step count e true m = .fault f := by
  induction n with
  | zero =>
    intro e count m h _ hf
    obtain ⟨c, rfl⟩ : ∃ c, count = c + 1 := ⟨count - 1, by omega⟩
    rw [Nat.add_zero] at hf
    simp only [verify_log_loop, hf, Exec.fault_bind]
  | succ n ih =>
    intro e count m h h1 hf
    obtain ⟨c, rfl⟩ : ∃ c, count = c + 1 := ⟨count - 1, by omega⟩
    simp only [verify_log_loop, h1 e le_rfl (by omega), Exec.ok_bind, Bool.and_self, if_true]
    exact ih (e + 1) c e (by omega) (fun i h2 h3 => h1 i (by omega) (by omega))
      (by rw [show e + 1 + n = e + (n + 1) by omega]; exact hf)

theorem log2_lower : ∀ e < 617, (e * 0x35269e) % 2 ^ 20 + 0x130 < 0x100000 := by decide +kernel

/-- Evaluate the argument before passing it on. -/
def evaluated (n : Nat) (k : Nat → Bool) : Bool :=
  match n with
  | 0 => k 0
  | m + 1 => k (m + 1)

theorem evaluated_eq (n : Nat) (k : Nat → Bool) : evaluated n k = k n := by cases n <;> rfl

/-- `count` multiples of the factor from `v` on, modulo `2 ^ 32`, leave room for the error. -/
def log5_room : Nat → Nat → Bool
  | 0, _ => true
  | count + 1, v => evaluated (v % 2 ^ 32) fun v =>
    bif Nat.blt (v + 0x143e) 0x100000000 then log5_room count (v + 0x6e40d1a4) else false

theorem log5_room_spec (count : Nat) : ∀ v, log5_room count v = true → ∀ j < count,
    (v + j * 0x6e40d1a4) % 2 ^ 32 + 0x143e < 0x100000000 := by
  induction count with
  | zero => intro v _ j hj; omega
  | succ count ih =>
    intro v h j hj
    simp only [log5_room, evaluated_eq] at h
    cases hb : Nat.blt (v % 2 ^ 32 + 0x143e) 0x100000000 with
    | false => rw [hb] at h; cases h
    | true =>
      rw [hb, cond_true] at h
      have hb : v % 2 ^ 32 + 0x143e < 0x100000000 := by simpa [Nat.blt_eq] using hb
      rcases j with - | j
      · simpa using hb
      · have := ih _ h j (by omega)
        rw [show v + (j + 1) * 0x6e40d1a4 = v + 0x6e40d1a4 + j * 0x6e40d1a4 by omega]
        rw [show (v + 0x6e40d1a4 + j * 0x6e40d1a4) % 2 ^ 32 = (v % 2 ^ 32 + 0x6e40d1a4 + j * 0x6e40d1a4) % 2 ^ 32 by omega]
        exact this

theorem log5_room_0 : log5_room 8193 (0 * 0x6e40d1a4) = true := by decide +kernel

theorem log5_room_1 : log5_room 8193 (8192 * 0x6e40d1a4) = true := by decide +kernel

theorem log5_room_2 : log5_room 8193 (16384 * 0x6e40d1a4) = true := by decide +kernel

theorem log5_room_3 : log5_room 8193 (24576 * 0x6e40d1a4) = true := by decide +kernel

theorem log5_room_4 : log5_room 8193 (32768 * 0x6e40d1a4) = true := by decide +kernel

theorem log5_room_5 : log5_room 8193 (40960 * 0x6e40d1a4) = true := by decide +kernel

theorem log5_room_6 : log5_room 8193 (49152 * 0x6e40d1a4) = true := by decide +kernel

theorem log5_room_7 : log5_room 8193 (57344 * 0x6e40d1a4) = true := by decide +kernel

theorem log5_lower {e : Nat} (h : e ≤ 65536) : (e * 0x6e40d1a4) % 2 ^ 32 + 0x143e < 0x100000000 := by
  have key : ∀ m, log5_room 8193 (m * 0x6e40d1a4) = true → m ≤ e → e < m + 8193 →
      (e * 0x6e40d1a4) % 2 ^ 32 + 0x143e < 0x100000000 := by
    intro m h h3 h4
    have := log5_room_spec _ _ h (e - m) (by omega)
    rwa [← Nat.add_mul, Nat.add_sub_cancel' h3] at this
  by_cases c0 : e < 8192
  · exact key 0 log5_room_0 (by omega) (by omega)
  by_cases c1 : e < 16384
  · exact key 8192 log5_room_1 (by omega) (by omega)
  by_cases c2 : e < 24576
  · exact key 16384 log5_room_2 (by omega) (by omega)
  by_cases c3 : e < 32768
  · exact key 24576 log5_room_3 (by omega) (by omega)
  by_cases c4 : e < 40960
  · exact key 32768 log5_room_4 (by omega) (by omega)
  by_cases c5 : e < 49152
  · exact key 40960 log5_room_5 (by omega) (by omega)
  by_cases c6 : e < 57344
  · exact key 49152 log5_room_6 (by omega) (by omega)
  exact key 57344 log5_room_7 (by omega) (by omega)

theorem log2_pow10_step_true (cfg : Cfg) {e : Nat} (h : e ≤ 616) : log2_pow10_step cfg e = .ok true := by
  have h2 : i32 ((e : Int) * 0x35269e) = .ok ((e : Int) * 0x35269e) := if_pos ⟨by omega, by omega⟩
  have h1 := log2_lower e (by omega)
  have h3 : ¬((e : Int) * 0x35269e % 2 ^ 20 + 0x130 ≥ 0x100000) := by
    rw [show (e : Int) * 0x35269e % 2 ^ 20 = ((e * 0x35269e % 2 ^ 20 : Nat) : Int) by push_cast; norm_num]
    generalize e * 0x35269e % 2 ^ 20 = l at h1
    omega
  unfold log2_pow10_step
  rw [h2, Exec.ok_bind]
  dsimp only
  rw [if_neg h3]

theorem log2_pow10_step_fault (cfg : Cfg) : log2_pow10_step cfg 617 = .fault .signedOverflow := by
  unfold log2_pow10_step i32
  rw [if_neg (by omega)]
  rfl

theorem log5_pow2_step_true (cfg : Cfg) (fuel : Nat) {e : Nat} (h : e ≤ 65536) :
    log5_pow2_step cfg fuel e = .ok true := by
  have h2 : i64 ((e : Int) * 0x6e40d1a4) = .ok ((e : Int) * 0x6e40d1a4) := if_pos ⟨by omega, by omega⟩
  have h1 := log5_lower h
  have h3 : ¬((e : Int) * 0x6e40d1a4 % 2 ^ 32 + 0x143e ≥ 0x100000000) := by
    rw [show (e : Int) * 0x6e40d1a4 % 2 ^ 32 = ((e * 0x6e40d1a4 % 2 ^ 32 : Nat) : Int) by push_cast; norm_num]
    generalize e * 0x6e40d1a4 % 2 ^ 32 = l at h1
    omega
  unfold log5_pow2_step
  rw [h2, Exec.ok_bind]
  dsimp only
  rw [if_neg h3]

/-! ## The first loop -/

open Big

/-- Every digit of `q` from the leading one down has a one among itself and the next 62. -/
def windows_ok (q : Nat) : Bool :=
  evaluated q fun q => evaluated (Nat.lor q (q / 2 ^ 1)) fun a => evaluated (Nat.lor a (a / 2 ^ 2)) fun a =>
  evaluated (Nat.lor a (a / 2 ^ 4)) fun a => evaluated (Nat.lor a (a / 2 ^ 8)) fun a =>
  evaluated (Nat.lor a (a / 2 ^ 16)) fun a => evaluated (Nat.lor a (a / 2 ^ 31)) fun a => Nat.beq (Nat.land a (a + 1)) 0

/-- Every one of `a` has a one of `q` among the `k` digits from it on. -/
def NearOnes (q k a : Nat) : Prop := q ≤ a ∧ ∀ i, a.testBit i = true → ∃ j, j < k ∧ q.testBit (i + j) = true

theorem near_ones_step {q a k : Nat} (s : Nat) (h : NearOnes q k a) : NearOnes q (k + s) (Nat.lor a (a / 2 ^ s)) := by
  refine ⟨h.1.trans Nat.left_le_or, fun i hi => ?_⟩
  change (a ||| a / 2 ^ s).testBit i = true at hi
  rw [Nat.testBit_or, Bool.or_eq_true, Nat.testBit_div_two_pow] at hi
  rcases hi with hi | hi
  · obtain ⟨j, h1, h2⟩ := h.2 i hi
    exact ⟨j, by omega, h2⟩
  · obtain ⟨j, h1, h2⟩ := h.2 (i + s) (by rwa [Nat.add_comm] at hi ⊢)
    exact ⟨s + j, by omega, by rwa [← Nat.add_assoc]⟩

theorem all_ones (a : Nat) : a &&& (a + 1) = 0 → ∃ n, a = 2 ^ n - 1 := by
  induction a using Nat.strongRecOn with
  | _ a ih =>
    intro h
    rcases Nat.eq_zero_or_pos a with rfl | ha
    · exact ⟨0, rfl⟩
    · have hd : a / 2 &&& (a + 1) / 2 = 0 := by rw [← Nat.and_div_two, h]
      rcases Nat.mod_two_eq_zero_or_one a with hm | hm
      · rw [show (a + 1) / 2 = a / 2 by omega, Nat.and_self] at hd
        omega
      · rw [show (a + 1) / 2 = a / 2 + 1 by omega] at hd
        obtain ⟨n, hn⟩ := ih (a / 2) (by omega) hd
        refine ⟨n + 1, ?_⟩
        have := Nat.two_pow_pos n
        rw [pow_succ]
        omega

theorem windows_of_ok {q : Nat} (h : windows_ok q = true) (i : Nat) (hi : 2 ^ i ≤ q) : q / 2 ^ i % 2 ^ 63 ≠ 0 := by
  unfold windows_ok at h
  simp only [evaluated_eq] at h
  have n6 := near_ones_step 31 (near_ones_step 16 (near_ones_step 8 (near_ones_step 4 (near_ones_step 2 (near_ones_step 1
    (⟨le_rfl, fun i h => ⟨0, by omega, h⟩⟩ : NearOnes q 1 q))))))
  revert n6 h
  generalize Nat.lor (Nat.lor _ _) _ = a
  intro h ⟨le, n6⟩
  obtain ⟨n, rfl⟩ := all_ones a (Nat.eq_of_beq_eq_true h)
  have hin : i < n := by
    have := Nat.two_pow_pos n
    exact (Nat.pow_lt_pow_iff_right (a := 2) (by norm_num)).mp (by omega)
  obtain ⟨j, h2, h3⟩ := n6 i (by rw [Nat.testBit_two_pow_sub_one]; simpa using hin)
  intro h0
  have : (q / 2 ^ i % 2 ^ 63).testBit j = true := by
    rw [Nat.testBit_mod_two_pow, Nat.testBit_div_two_pow, Nat.add_comm j i, h3]
    simpa using h2
  rw [h0] at this
  simp at this

/-- All quotients of repeated division by 10 are covered by the theorem on `long_division`. -/
def divisions_ok : Nat → Nat → Bool
  | 0, _ => false
  | n + 1, v => evaluated v fun v => bif Nat.ble v 9 then true else evaluated (v / 10) fun q => windows_ok q && divisions_ok n q

theorem count_divisions_spec (cfg : Cfg) {fuel : Nat} (n : Nat) : ∀ (m v : Nat) (acc : Int), m ≤ n →
    divisions_ok m v = true → v < 2 ^ (64 * 65) → bitLength v < fuel + 4 →
    count_divisions cfg 65 10 fuel n (bigOf 65 v) acc = .ok (acc + Nat.log 10 v) := by
  induction n with
  | zero => intro m v acc h h1; rw [show m = 0 by omega] at h1; exact absurd h1 (by simp [divisions_ok])
  | succ n ih =>
    intro m v acc h h1 hv hf
    have hx := rep_bigOf (size := 65) (by decide) hv
    obtain ⟨m, rfl⟩ : ∃ k, m = k + 1 := ⟨m - 1, by
      rcases m with - | m
      · exact absurd h1 (by simp [divisions_ok])
      · omega⟩
    simp only [divisions_ok, evaluated_eq] at h1
    unfold count_divisions geE
    rw [compare_element_spec hx (r := decide (v ≥ 10)) (n := 10) (by decide) (fun h => by simp; omega) rfl, Exec.ok_bind]
    by_cases h10 : 10 ≤ v
    · rw [if_pos (by simpa using h10), ofElement_spec (by decide) (by decide), Exec.ok_bind]
      have hb : Nat.ble v 9 = false := by
        rw [Bool.eq_false_iff]
        intro hh
        have := Nat.le_of_ble_eq_true hh
        omega
      rw [hb, cond_false, Bool.and_eq_true] at h1
      have b10 : bitLength 10 = 4 := by decide
      rw [long_division_divides cfg hx (rep_bigOf (by decide)
        (lt_of_lt_of_le (show 10 < 2 ^ 4 by decide) (Nat.pow_le_pow_right (by decide) (by decide)))) (by decide) (by decide)
        (divides_of_windows (by decide) (by decide) (windows_of_ok h1.1)) (by omega)]
      simp only [Exec.ok_bind]
      have hle : v / 10 ≤ v := Nat.div_le_self _ _
      rw [ih m (v / 10) (acc + 1) (by omega) h1.2 (by omega) (by have := bitLength_mono hle; omega),
        Nat.log_of_one_lt_of_le (b := 10) (n := v) (by decide) h10]
      push_cast
      congr 1
      omega
    · rw [if_neg (by simpa using h10), Nat.log_of_lt (by omega)]
      simp

/-- The exponents at which the tool divides. -/
def log10_checked : List Nat := [289, 485, 970, 1455, 1651, 2136, 2621, 2817, 3302, 3787, 3983]

theorem log10_room' : ∀ i < 65, ∀ j < 64, i * 64 + j ≤ 4096 →
    ((i * 64 + j) * 0x4d104 % 2 ^ 20 + 0xd28 ≥ 0x100000 ↔ i * 64 + j ∈ log10_checked) := by
  decide +kernel

theorem log10_room {e : Nat} (h : e ≤ 4096) : e * 0x4d104 % 2 ^ 20 + 0xd28 ≥ 0x100000 ↔ e ∈ log10_checked := by
  have := log10_room' (e / 64) (by omega) (e % 64) (by omega) (by omega)
  rwa [show e / 64 * 64 + e % 64 = e by omega] at this

theorem divisions_ok_289 : divisions_ok 1200 (2 ^ 289) = true := by decide +kernel

theorem divisions_ok_485 : divisions_ok 1200 (2 ^ 485) = true := by decide +kernel

theorem divisions_ok_970 : divisions_ok 1200 (2 ^ 970) = true := by decide +kernel

theorem divisions_ok_1455 : divisions_ok 1200 (2 ^ 1455) = true := by decide +kernel

theorem divisions_ok_1651 : divisions_ok 1200 (2 ^ 1651) = true := by decide +kernel

theorem divisions_ok_2136 : divisions_ok 1200 (2 ^ 2136) = true := by decide +kernel

theorem divisions_ok_2621 : divisions_ok 1200 (2 ^ 2621) = true := by decide +kernel

theorem divisions_ok_2817 : divisions_ok 1200 (2 ^ 2817) = true := by decide +kernel

theorem divisions_ok_3302 : divisions_ok 1200 (2 ^ 3302) = true := by decide +kernel

theorem divisions_ok_3787 : divisions_ok 1200 (2 ^ 3787) = true := by decide +kernel

theorem divisions_ok_3983 : divisions_ok 1200 (2 ^ 3983) = true := by decide +kernel

theorem log10_checked_ok {e : Nat} (h : e ∈ log10_checked) : divisions_ok 1200 (2 ^ e) = true := by
  simp only [log10_checked, List.mem_cons, List.not_mem_nil, or_false] at h
  rcases h with rfl | rfl | rfl | rfl | rfl | rfl | rfl | rfl | rfl | rfl | rfl
  · exact divisions_ok_289
  · exact divisions_ok_485
  · exact divisions_ok_970
  · exact divisions_ok_1455
  · exact divisions_ok_1651
  · exact divisions_ok_2136
  · exact divisions_ok_2621
  · exact divisions_ok_2817
  · exact divisions_ok_3302
  · exact divisions_ok_3787
  · exact divisions_ok_3983

theorem log10_true_value {e : Nat} (h : e ∈ log10_checked) :
    ((Nat.log 10 (2 ^ e) : Nat) : Int) =
      (e : Int) * 0x4d104 / 2 ^ 20 + (if e < 1651 ∨ e = 2621 then 0 else 1) := by
  simp only [log10_checked, List.mem_cons, List.not_mem_nil, or_false] at h
  rcases h with rfl | rfl | rfl | rfl | rfl | rfl | rfl | rfl | rfl | rfl | rfl
  · rw [show Nat.log 10 (2 ^ 289) = 86 from (Nat.log_eq_iff (by decide)).mpr (by decide +kernel)]; decide
  · rw [show Nat.log 10 (2 ^ 485) = 145 from (Nat.log_eq_iff (by decide)).mpr (by decide +kernel)]; decide
  · rw [show Nat.log 10 (2 ^ 970) = 291 from (Nat.log_eq_iff (by decide)).mpr (by decide +kernel)]; decide
  · rw [show Nat.log 10 (2 ^ 1455) = 437 from (Nat.log_eq_iff (by decide)).mpr (by decide +kernel)]; decide
  · rw [show Nat.log 10 (2 ^ 1651) = 497 from (Nat.log_eq_iff (by decide)).mpr (by decide +kernel)]; decide
  · rw [show Nat.log 10 (2 ^ 2136) = 643 from (Nat.log_eq_iff (by decide)).mpr (by decide +kernel)]; decide
  · rw [show Nat.log 10 (2 ^ 2621) = 788 from (Nat.log_eq_iff (by decide)).mpr (by decide +kernel)]; decide
  · rw [show Nat.log 10 (2 ^ 2817) = 848 from (Nat.log_eq_iff (by decide)).mpr (by decide +kernel)]; decide
  · rw [show Nat.log 10 (2 ^ 3302) = 994 from (Nat.log_eq_iff (by decide)).mpr (by decide +kernel)]; decide
  · rw [show Nat.log 10 (2 ^ 3787) = 1140 from (Nat.log_eq_iff (by decide)).mpr (by decide +kernel)]; decide
  · rw [show Nat.log 10 (2 ^ 3983) = 1199 from (Nat.log_eq_iff (by decide)).mpr (by decide +kernel)]; decide


/-- Does the tool find no mismatch at `e`? -/
def log10_ok (e : Nat) : Bool := !(decide (e ∈ log10_checked) && !decide (e < 1651 ∨ e = 2621))

theorem log10_pow2_step_eq (cfg : Cfg) {fuel e : Nat} (hf : 4096 ≤ fuel) (h : e ≤ 4096) :
    log10_pow2_step cfg fuel e = .ok (log10_ok e) := by
  have h2 : i32 ((e : Int) * 0x4d104) = .ok ((e : Int) * 0x4d104) := if_pos ⟨by omega, by omega⟩
  have hm : i32 (-(e : Int) * 0x4d104) = .ok (-(e : Int) * 0x4d104) := if_pos ⟨by omega, by omega⟩
  have hl := log10_room h
  have hcast : (e : Int) * 0x4d104 % 2 ^ 20 = ((e * 0x4d104 % 2 ^ 20 : Nat) : Int) := by push_cast; norm_num
  unfold log10_pow2_step
  rw [h2, Exec.ok_bind]
  dsimp only
  rw [hcast]
  generalize hlow : e * 0x4d104 % 2 ^ 20 = low at hl hcast
  by_cases hc : e ∈ log10_checked
  · have hr := hl.mpr hc
    rw [if_pos (by omega), power_of_2_spec cfg (by omega), Exec.ok_bind,
      count_divisions_spec cfg fuel 1200 (2 ^ e) 0 (by omega) (log10_checked_ok hc)
        (Nat.pow_lt_pow_right (by decide) (by omega)) (by
          rw [← Nat.one_mul (2 ^ e), bitLength_mul_pow one_ne_zero, show bitLength 1 = 1 by decide]; omega), Exec.ok_bind]
    have ht := log10_true_value hc
    generalize ((Nat.log 10 (2 ^ e) : Nat) : Int) = v at ht
    unfold log_matches floor_log10_pow2_raw
    rw [h2, hm]
    simp only [Exec.ok_bind]
    have hok : log10_ok e = decide (e < 1651 ∨ e = 2621) := by
      unfold log10_ok
      rw [decide_eq_true hc, Bool.true_and, Bool.not_not]
    rw [hok]
    refine congrArg Exec.ok (decide_eq_decide.mpr ?_)
    by_cases hs : e < 1651 ∨ e = 2621
    · rw [if_pos hs] at ht
      exact ⟨fun _ => hs, fun _ => by omega⟩
    · rw [if_neg hs] at ht
      exact ⟨fun ⟨h, _⟩ => by omega, fun h => absurd h hs⟩
  · rw [if_neg (by have := mt hl.mp hc; omega)]
    simp [log10_ok, hc]

/-- The loop reports the exponent before the first mismatch. -/
theorem verify_log_loop_first {step : Nat → Exec Bool} {ok : Nat → Bool} (count : Nat) : ∀ e m n : Nat, 
    (∀ i, e ≤ i → i < e + count → step i = .ok (ok i)) → n < count → (∀ i, e ≤ i → i < e + n → ok i = true) →
    ok (e + n) = false → verify_log_loop step count e true m = .ok (if n = 0 then m else e + n - 1) := by
  have stop : ∀ count e m, (∀ i, e ≤ i → i < e + count → step i = .ok (ok i)) →
      verify_log_loop step count e false m = .ok m := by
    intro count
    induction count with
    | zero => intro e m _; rfl
    | succ count ih =>
      intro e m h
      simp only [verify_log_loop, h e le_rfl (by omega), Exec.ok_bind, Bool.false_and, Bool.false_eq_true, if_false]
      exact ih (e + 1) m fun i h1 h2 => h i (by omega) (by omega)
  induction count with
  | zero => intro e m n _ hn; omega
  | succ count ih =>
    intro e m n h hn hok hbad
    rcases n with - | n
    · simp only [verify_log_loop, h e le_rfl (by omega), Exec.ok_bind, Bool.true_and]
      rw [Nat.add_zero] at hbad
      rw [hbad, stop count (e + 1) _ fun i h1 h2 => h i (by omega) (by omega)]
      simp
    · simp only [verify_log_loop, h e le_rfl (by omega), hok e le_rfl (by omega), Exec.ok_bind, Bool.true_and,
        if_true]
      rw [ih (e + 1) e n (fun i h1 h2 => h i (by omega) (by omega)) (by omega)
        (fun i h1 h2 => hok i (by omega) (by omega)) (by rw [show e + 1 + n = e + (n + 1) by omega]; exact hbad)]
      rw [if_neg (Nat.succ_ne_zero n)]
      congr 1
      split <;> omega

end Grisu
