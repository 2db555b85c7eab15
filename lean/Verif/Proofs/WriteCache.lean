import Verif.Proofs.GenerateCache
import Verif.Model.WriteCache
import Verif.Model.GeneratedFiles
import Verif.SpecHex

/-! # The text written by the generator of the cache tables -/

namespace Grisu
namespace Gen
open Big ResultFiles

/-- The line of an entry, with the newline before it and without the comma. -/
def entryLine (F : Fmt) (value : Nat) : List Char := "\n\t".toList ++ element_printer F value

theorem write_negative_spec (F : Fmt) (cache : List Nat) (count : Nat) : ∀ idx, idx + count ≤ cache.length →
    write_negative F cache count idx = .ok
      ((((cache.drop idx).take count).map fun v => entryLine F (increment F v) ++ [',']).flatten,
        (((cache.drop idx).take count).map fun v => if detect_overflow F v then overflow_message F else []).flatten) := by
  induction count with
  | zero => intro idx _; rw [List.take_zero]; rfl
  | succ count ih =>
    intro idx h
    have hi : idx < cache.length := by omega
    rw [List.drop_eq_getElem_cons hi, List.take_succ_cons]
    simp only [write_negative]
    rw [rd_eq hi]
    simp only [Exec.ok_bind]
    rw [ih (idx + 1) (by omega)]
    simp only [Exec.ok_bind, List.map_cons, List.flatten_cons]
    have e : el cache idx = cache[idx] := by simp [el, List.getElem?_eq_getElem hi]
    rw [e]
    simp only [entryLine, List.append_assoc]
    rfl

theorem write_positive_spec (F : Fmt) (cache : List Nat) (count : Nat) : ∀ idx, idx + count ≤ cache.length →
    write_positive F cache count idx = .ok
      (((cache.drop idx).take count).map fun v => entryLine F v ++ [',']).flatten := by
  induction count with
  | zero => intro idx _; rw [List.take_zero]; rfl
  | succ count ih =>
    intro idx h
    have hi : idx < cache.length := by omega
    rw [List.drop_eq_getElem_cons hi, List.take_succ_cons]
    simp only [write_positive]
    rw [rd_eq hi]
    simp only [Exec.ok_bind]
    rw [ih (idx + 1) (by omega)]
    simp only [Exec.ok_bind, List.map_cons, List.flatten_cons]
    have e : el cache idx = cache[idx] := by simp [el, List.getElem?_eq_getElem hi]
    rw [e]
    simp only [entryLine, List.append_assoc]
    rfl

theorem text_cons (l : Nat × Nat) (ls : List (Nat × Nat)) :
    text (l :: ls) = bytes l.2 l.1 ++ (ls.map fun l => '\n' :: bytes l.2 l.1).flatten := by
  induction ls generalizing l with
  | nil => simp [text]
  | cons a ls ih => simp [text, ih]

/-- The lines of the file after the first, as the tool writes them. -/
def lines (F : Fmt) (m M : Nat) (cache : List Nat) : List (List Char) :=
  ((cache.take m).map fun v => entryLine F (increment F v) ++ [',']) ++
    (((cache.drop m).take M).map fun v => entryLine F v ++ [',']) ++
    [entryLine F (el cache (cache.length - 1)), "\n};".toList]

theorem write_file_spec (F : Fmt) {cache : List Nat} {m M : Nat} (hm : (-F.min_k).toNat = m) (hM : F.max_k.toNat = M)
    (hl : cache.length = m + M + 1) (ho : ∀ v ∈ cache.take m, detect_overflow F v = false) :
    write_file F cache = .ok ("static constexpr ".toList ++ cache_type_name F ++ " cache[] = {".toList ++
      (lines F m M cache).flatten, []) := by
  unfold write_file
  rw [hm, hM]
  simp only
  rw [write_negative_spec F cache m 0 (by omega)]
  simp only [Exec.ok_bind]
  rw [write_positive_spec F cache M m (by omega)]
  simp only [Exec.ok_bind]
  rw [rd_eq (by omega)]
  simp only [Exec.ok_bind, List.drop_zero]
  have e : ((cache.take m).map fun v => if detect_overflow F v then overflow_message F else []).flatten = [] := by
    rw [List.flatten_eq_nil_iff]
    intro l hl
    obtain ⟨v, hv, rfl⟩ := List.mem_map.mp hl
    rw [ho v hv]
    rfl
  rw [e]
  simp only [lines, entryLine, List.flatten_append, List.flatten_cons, List.flatten_nil, List.append_assoc, List.append_nil]

/-- The table of the header as a list of numbers. -/
def table : Fmt → List Nat
  | .b32 => cache32
  | .b64 => cache64.map fun e => e.high * 2 ^ 64 + e.low

/-- What the tool has before incrementing, from the table of the header. -/
def raw (F : Fmt) (m : Nat) : List Nat := ((table F).take m).map (· - 1) ++ (table F).drop m

theorem raw32 : (List.range 77).map (entry 64 30) = raw .b32 30 := by decide +kernel

theorem raw64 : (List.range 616).map (entry 128 290) = raw .b64 290 := by decide +kernel

theorem quiet32 : ∀ v ∈ (raw .b32 30).take 30, detect_overflow .b32 v = false := by decide +kernel

theorem quiet64 : ∀ v ∈ (raw .b64 290).take 290, detect_overflow .b64 v = false := by decide +kernel

/-! ## Lines as numbers

The kernel compares numbers, not characters. -/

/-- Exactly `k` hexadecimal digits. -/
def hexText (v : Nat) : Nat → List Char
  | 0 => []
  | k + 1 => hexText (v / 16) k ++ [Nat.digitChar (v % 16)]

theorem length_hexText (v k : Nat) : (hexText v k).length = k := by
  induction k generalizing v with
  | zero => rfl
  | succ k ih => simp [hexText, ih]

theorem hexText_zero (k : Nat) : hexText 0 k = List.replicate k '0' := by
  induction k with
  | zero => rfl
  | succ k ih =>
    rw [hexText, Nat.zero_div, ih, List.replicate_succ']
    rfl

theorem hexText_eq {v k : Nat} (h : v < 16 ^ k) (hk : 0 < k) :
    List.replicate (k - (Nat.toDigits 16 v).length) '0' ++ Nat.toDigits 16 v = hexText v k ∧
      (Nat.toDigits 16 v).length ≤ k := by
  induction k generalizing v with
  | zero => omega
  | succ k ih =>
    rcases Nat.lt_or_ge v 16 with hv | hv
    · rw [Nat.toDigits_of_lt_base hv, hexText, Nat.div_eq_of_lt hv, hexText_zero, Nat.mod_eq_of_lt hv]
      exact ⟨rfl, by simp⟩
    · rw [Nat.toDigits_of_base_le (by norm_num) hv, hexText]
      have hk0 : 0 < k := by
        rcases Nat.eq_zero_or_pos k with rfl | h'
        · omega
        · exact h'
      obtain ⟨i1, i2⟩ := ih (v := v / 16) (by rw [pow_succ] at h; omega) hk0
      rw [← i1]
      simp [i2]

theorem hex16_eq {v : Nat} (h : v < 2 ^ 64) : hex16 v = hexText v 16 :=
  (hexText_eq (by norm_num at *; exact h) (by norm_num)).1

theorem bytes_append {a b m : Nat} (k : Nat) (h : b < 256 ^ k) :
    bytes (a * 256 ^ k + b) (m + k) = bytes a m ++ bytes b k := by
  have low : ∀ (n k a : Nat), k ≤ n → bytes (a * 256 ^ n + b) k = bytes b k := by
    intro n k
    induction k with
    | zero => intros; rfl
    | succ k ih =>
      intro a hk
      simp only [bytes]
      rw [ih a (by omega)]
      congr 2
      have e : a * 256 ^ n = 256 ^ k * (256 * (a * 256 ^ (n - k - 1))) := by
        rw [show n = k + 1 + (n - k - 1) by omega, pow_add, pow_succ]
        rw [show k + 1 + (n - k - 1) - k - 1 = n - k - 1 by omega]
        ring
      rw [e, Nat.mul_add_div (Nat.pow_pos (by norm_num)), Nat.mul_add_mod]
  induction m with
  | zero => rw [Nat.zero_add, low k k a (le_refl _)]; rfl
  | succ m ih =>
    rw [show m + 1 + k = (m + k) + 1 by omega]
    simp only [bytes, List.cons_append]
    rw [ih]
    congr 2
    rw [show m + k = k + m by omega, pow_add, ← Nat.div_div_eq_div_mul, Nat.mul_comm a,
      Nat.mul_add_div (Nat.pow_pos (by norm_num)), Nat.div_eq_of_lt h, Nat.add_zero]

/-- The code of a hexadecimal digit. -/
def digitCode (d : Nat) : Nat := if d < 10 then d + 48 else d + 87

theorem digitChar_code : ∀ d < 16, Nat.digitChar d = Char.ofNat (digitCode d) ∧ digitCode d < 256 := by decide

/-- The number of `hexText`. -/
def hexCode (v : Nat) : Nat → Nat
  | 0 => 0
  | k + 1 => hexCode (v / 16) k * 256 + digitCode (v % 16)

theorem hexCode_spec (v k : Nat) : hexCode v k < 256 ^ k ∧ bytes (hexCode v k) k = hexText v k := by
  induction k generalizing v with
  | zero => exact ⟨by simp [hexCode], rfl⟩
  | succ k ih =>
    obtain ⟨i1, i2⟩ := ih (v / 16)
    obtain ⟨d1, d2⟩ := digitChar_code (v % 16) (Nat.mod_lt _ (by norm_num))
    refine ⟨?_, ?_⟩
    · rw [hexCode, pow_succ]; omega
    · rw [hexCode, hexText]
      have := bytes_append (a := hexCode (v / 16) k) (b := digitCode (v % 16)) (m := k) 1 (by simpa using d2)
      rw [pow_one] at this
      rw [this, i2, d1]
      simp [bytes, Nat.mod_eq_of_lt d2]

/-- The number of a line of the file, without the newline and without the comma. -/
def lineCode (F : Fmt) (v : Nat) : Nat :=
  match F with
  | .b32 => 0x093078 * 256 ^ 16 + hexCode v 16
  | .b64 => (((0x097b203078 * 256 ^ 16 + hexCode (v / 2 ^ 64) 16) * 256 ^ 4 + 0x2c203078) * 256 ^ 16 +
      hexCode (v % 2 ^ 64) 16) * 256 ^ 2 + 0x207d

/-- Its length. -/
def lineLength : Fmt → Nat
  | .b32 => 19
  | .b64 => 43

theorem lineCode_spec {F : Fmt} {v : Nat} (h : v < 2 ^ (2 * F.q)) :
    entryLine F v = '\n' :: bytes (lineCode F v) (lineLength F) := by
  cases F
  · show "\n\t".toList ++ ("0x".toList ++ hex16 v) = '\n' :: bytes (0x093078 * 256 ^ 16 + hexCode v 16) 19
    rw [hex16_eq h, show (19 : Nat) = 3 + 16 from rfl, bytes_append 16 (hexCode_spec v 16).1, (hexCode_spec v 16).2]
    rfl
  · show "\n\t".toList ++ ("{ 0x".toList ++ hex16 (v / 2 ^ 64) ++ ", 0x".toList ++ hex16 (v % 2 ^ 64) ++ " }".toList) =
      '\n' :: bytes ((((0x097b203078 * 256 ^ 16 + hexCode (v / 2 ^ 64) 16) * 256 ^ 4 + 0x2c203078) * 256 ^ 16 +
        hexCode (v % 2 ^ 64) 16) * 256 ^ 2 + 0x207d) 43
    simp only [Fmt.q] at h
    rw [hex16_eq (by omega), hex16_eq (by omega), show (43 : Nat) = 41 + 2 from rfl, bytes_append 2 (by norm_num),
      show (41 : Nat) = 25 + 16 from rfl, bytes_append 16 (hexCode_spec _ 16).1, (hexCode_spec _ 16).2,
      show (25 : Nat) = 21 + 4 from rfl, bytes_append 4 (by norm_num), show (21 : Nat) = 5 + 16 from rfl,
      bytes_append 16 (hexCode_spec _ 16).1, (hexCode_spec _ 16).2]
    rfl

theorem lineCode_comma {F : Fmt} {v : Nat} (h : v < 2 ^ (2 * F.q)) :
    entryLine F v ++ [','] = '\n' :: bytes (lineCode F v * 256 + 0x2c) (lineLength F + 1) := by
  have := bytes_append (a := lineCode F v) (b := 0x2c) (m := lineLength F) 1 (by norm_num)
  rw [pow_one] at this
  rw [lineCode_spec h, this]
  rfl

/-- The lines as numbers. -/
def codes (F : Fmt) (m M : Nat) (cache : List Nat) : List (Nat × Nat) :=
  ((cache.take m).map fun v => (lineLength F + 1, lineCode F (increment F v) * 256 + 0x2c)) ++
    (((cache.drop m).take M).map fun v => (lineLength F + 1, lineCode F v * 256 + 0x2c)) ++
    [(lineLength F, lineCode F (el cache (cache.length - 1))), (2, 0x7d3b)]

theorem increment_lt {F : Fmt} {v : Nat} (h : v < 2 ^ (2 * F.q)) : increment F v < 2 ^ (2 * F.q) := by
  cases F <;> simp only [increment, wrap, Fmt.q] at * <;> omega

theorem lines_codes {F : Fmt} {m M : Nat} {cache : List Nat} (h : ∀ v ∈ cache, v < 2 ^ (2 * F.q)) :
    lines F m M cache = (codes F m M cache).map fun l => '\n' :: bytes l.2 l.1 := by
  have hl : el cache (cache.length - 1) < 2 ^ (2 * F.q) := by
    rcases Nat.lt_or_ge (cache.length - 1) cache.length with hc | hc
    · simp only [el, List.getD_eq_getElem _ _ hc]
      exact h _ (List.getElem_mem hc)
    · simp only [el, List.getD_eq_default _ _ hc]
      positivity
  unfold lines codes
  simp only [List.map_append, List.map_map, List.map_cons, List.map_nil]
  rw [lineCode_spec hl]
  congr 1
  congr 1
  · refine List.map_congr_left fun v hv => ?_
    exact lineCode_comma (increment_lt (h v (List.mem_of_mem_take hv)))
  · refine List.map_congr_left fun v hv => ?_
    exact lineCode_comma (h v (List.mem_of_mem_drop (List.mem_of_mem_take hv)))

theorem small32 : ∀ v ∈ raw .b32 30, v < 2 ^ (2 * Fmt.b32.q) := by decide +kernel

theorem small64 : ∀ v ∈ raw .b64 290, v < 2 ^ (2 * Fmt.b64.q) := by decide +kernel

theorem codes32 : codes .b32 30 46 (raw .b32 30) = binary32_generated_cache.tail := by
  decide +kernel

theorem codes64 : codes .b64 290 325 (raw .b64 290) = binary64_generated_cache.tail := by
  decide +kernel

theorem lines32 : lines .b32 30 46 (raw .b32 30) =
    binary32_generated_cache.tail.map fun l => '\n' :: bytes l.2 l.1 := by
  rw [← codes32]
  exact lines_codes small32

theorem lines64 : lines .b64 290 325 (raw .b64 290) =
    binary64_generated_cache.tail.map fun l => '\n' :: bytes l.2 l.1 := by
  rw [← codes64]
  exact lines_codes small64

theorem first32 : "static constexpr ".toList ++ cache_type_name .b32 ++ " cache[] = {".toList =
    bytes (binary32_generated_cache.head (by decide)).2 (binary32_generated_cache.head (by decide)).1 := by
  decide +kernel

theorem first64 : "static constexpr ".toList ++ cache_type_name .b64 ++ " cache[] = {".toList =
    bytes (binary64_generated_cache.head (by decide)).2 (binary64_generated_cache.head (by decide)).1 := by
  decide +kernel

theorem write32 : write_file .b32 (raw .b32 30) = .ok (text binary32_generated_cache, []) := by
  rw [write_file_spec .b32 (m := 30) (M := 46) rfl rfl (by rw [← raw32]; simp) quiet32, first32, lines32, ← text_cons,
    List.cons_head_tail]

theorem write64 : write_file .b64 (raw .b64 290) = .ok (text binary64_generated_cache, []) := by
  rw [write_file_spec .b64 (m := 290) (M := 325) rfl rfl (by rw [← raw64]; simp) quiet64, first64, lines64, ← text_cons,
    List.cons_head_tail]

theorem bitset32 (cfg : Cfg) (shl64 : Exec Nat) : generate_cache_bitset cfg shl64 64 2 30 46 = .ok (raw .b32 30) := by
  rw [← raw32]
  exact generate_cache_bitset_spec cfg (by norm_num) (by norm_num) (by norm_num) (by norm_num) (by norm_num)
    (by norm_num) (by norm_num) (fun k hk => Or.inl (fine32 k (by omega)))

theorem bitset64 (cfg : Cfg) (v : Nat) : generate_cache_bitset cfg (.ok v) 128 12 290 325 = .ok (raw .b64 290) := by
  rw [← raw64]
  exact generate_cache_bitset_spec cfg (by norm_num) (by norm_num) (by norm_num) (by norm_num) (by norm_num)
    (by decide +kernel) (by decide +kernel) (fun k hk => Or.inr ⟨v, rfl⟩)

theorem file32 (cfg : Cfg) (shl64 : Exec Nat) :
    generate_cache_file cfg shl64 .b32 = .ok (text binary32_generated_cache, []) := by
  obtain ⟨L, hL, hw⟩ : ∃ L, generate_cache_bitset cfg shl64 64 2 30 46 = .ok L ∧
    write_file .b32 L = .ok (text binary32_generated_cache, []) := ⟨_, bitset32 cfg shl64, write32⟩
  unfold generate_cache_file
  rw [floor_log2_pow10_ok cfg (by decide) (by decide)]
  simp only [Exec.ok_bind]
  rw [show ((log2_pow10_value Fmt.b32.max_k - Fmt.b32.max_k + 1).toNat + 63) / 64 = 2 by decide,
    show (-Fmt.b32.min_k).toNat = 30 by decide, show Fmt.b32.max_k.toNat = 46 by decide,
    show 2 * Fmt.b32.q = 64 by decide, hL, Exec.ok_bind, hw]

theorem file64 (cfg : Cfg) (v : Nat) :
    generate_cache_file cfg (.ok v) .b64 = .ok (text binary64_generated_cache, []) := by
  obtain ⟨L, hL, hw⟩ : ∃ L, generate_cache_bitset cfg (.ok v) 128 12 290 325 = .ok L ∧
    write_file .b64 L = .ok (text binary64_generated_cache, []) := ⟨_, bitset64 cfg v, write64⟩
  unfold generate_cache_file
  rw [floor_log2_pow10_ok cfg (by decide) (by decide)]
  simp only [Exec.ok_bind]
  rw [show ((log2_pow10_value Fmt.b64.max_k - Fmt.b64.max_k + 1).toNat + 63) / 64 = 12 by decide,
    show (-Fmt.b64.min_k).toNat = 290 by decide, show Fmt.b64.max_k.toNat = 325 by decide,
    show 2 * Fmt.b64.q = 128 by decide, hL, Exec.ok_bind, hw]

/-! ## Reading the file -/

/-- The constants of an entry. -/
def halves (F : Fmt) (v : Nat) : List Nat :=
  match F with
  | .b32 => [v]
  | .b64 => [v / 2 ^ 64, v % 2 ^ 64]

theorem hexValue_digit : ∀ d < 16, hexValue (Nat.digitChar d) = some d := by decide

theorem read_hex {a k : Nat} (h : a < 16 ^ k) (v : Nat) (rest : List Char) :
    hexConstants (some v) (hexText a k ++ rest) = hexConstants (some (v * 16 ^ k + a)) rest := by
  induction k generalizing a rest with
  | zero => simp [hexText, show a = 0 by simpa using h]
  | succ k ih =>
    rw [hexText, List.append_assoc, ih (by rw [pow_succ] at h; omega)]
    show (match hexValue (Nat.digitChar (a % 16)) with
      | some d => hexConstants (some (16 * (v * 16 ^ k + a / 16) + d)) rest
      | none => _) = _
    rw [hexValue_digit _ (Nat.mod_lt _ (by norm_num))]
    show hexConstants (some (16 * (v * 16 ^ k + a / 16) + a % 16)) rest = _
    rw [pow_succ, ← Nat.mul_assoc]
    congr 2
    omega

theorem read_0x (r : List Char) : hexConstants none ('0' :: 'x' :: r) = hexConstants (some 0) r := by rw [hexConstants]

theorem read_skip {c : Char} (h : c ≠ '0') (r : List Char) : hexConstants none (c :: r) = hexConstants none r := by
  rw [hexConstants]
  intro _ h1 _
  exact h h1

theorem read_stop {c : Char} (h : hexValue c = none) (v : Nat) (r : List Char) :
    hexConstants (some v) (c :: r) = v :: hexConstants none r := by
  rw [hexConstants, h]

theorem read_entry {F : Fmt} {v : Nat} (h : v < 2 ^ (2 * F.q)) (c : Char) (hc : c = ',' ∨ c = '\n') (rest : List Char) :
    hexConstants none (entryLine F v ++ c :: rest) = halves F v ++ hexConstants none rest := by
  have hc1 : c ≠ '0' := by rcases hc with rfl | rfl <;> decide
  have hc2 : hexValue c = none := by rcases hc with rfl | rfl <;> decide
  cases F
  · have e : entryLine .b32 v ++ c :: rest = '\n' :: '\t' :: '0' :: 'x' :: (hexText v 16 ++ c :: rest) := by
      rw [← hex16_eq h]
      rfl
    rw [e, read_skip (by decide), read_skip (by decide), read_0x, read_hex (by simpa [Fmt.q] using h), Nat.zero_mul,
      Nat.zero_add, read_stop hc2]
    rfl
  · simp only [Fmt.q] at h
    have e : entryLine .b64 v ++ c :: rest = '\n' :: '\t' :: '{' :: ' ' :: '0' :: 'x' :: (hexText (v / 2 ^ 64) 16 ++
        ',' :: ' ' :: '0' :: 'x' :: (hexText (v % 2 ^ 64) 16 ++ ' ' :: '}' :: c :: rest)) := by
      rw [← hex16_eq (by omega), ← hex16_eq (by omega)]
      simp only [entryLine, element_printer, List.append_assoc]
      rfl
    rw [e, read_skip (by decide), read_skip (by decide), read_skip (by decide), read_skip (by decide), read_0x,
      read_hex (by norm_num; omega), Nat.zero_mul, Nat.zero_add, read_stop (by decide), read_skip (by decide), read_0x,
      read_hex (by norm_num; omega), Nat.zero_mul, Nat.zero_add, read_stop (by decide), read_skip (by decide),
      read_skip hc1]
    rfl

theorem read_lines {F : Fmt} {L : List Nat} (h : ∀ v ∈ L, v < 2 ^ (2 * F.q)) (rest : List Char) :
    hexConstants none ((L.map fun v => entryLine F v ++ [',']).flatten ++ rest) =
      (L.map (halves F)).flatten ++ hexConstants none rest := by
  induction L with
  | nil => rfl
  | cons v L ih =>
    rw [List.map_cons, List.flatten_cons, List.map_cons, List.flatten_cons, List.append_assoc, List.append_assoc,
      List.append_assoc, ← ih fun w hw => h w (List.mem_cons_of_mem _ hw)]
    exact read_entry (h v (List.mem_cons_self ..)) ',' (Or.inl rfl) _

theorem read_all {F : Fmt} {m M : Nat} {cache : List Nat} (h : ∀ v ∈ cache, v < 2 ^ (2 * F.q)) :
    hexConstants none (lines F m M cache).flatten =
      (((cache.take m).map (increment F) ++ (cache.drop m).take M ++ [el cache (cache.length - 1)]).map
        (halves F)).flatten := by
  have hl : el cache (cache.length - 1) < 2 ^ (2 * F.q) := by
    rcases Nat.lt_or_ge (cache.length - 1) cache.length with hc | hc
    · simp only [el, List.getD_eq_getElem _ _ hc]
      exact h _ (List.getElem_mem hc)
    · simp only [el, List.getD_eq_default _ _ hc]
      positivity
  have e : ((cache.take m).map fun v => entryLine F (increment F v) ++ [',']) =
      ((cache.take m).map (increment F)).map fun v => entryLine F v ++ [','] := by
    rw [List.map_map]
    rfl
  unfold lines
  rw [e]
  simp only [List.flatten_append, List.flatten_cons, List.flatten_nil, List.append_assoc, List.append_nil,
    List.map_append, List.map_cons, List.map_nil]
  rw [read_lines, read_lines]
  · have := read_entry hl '\n' (Or.inr rfl) ['}', ';']
    rw [show "\n};".toList = '\n' :: ['}', ';'] from rfl, this, read_skip (by decide), read_skip (by decide), hexConstants,
      List.append_nil]
  · intro v hv
    exact h v (List.mem_of_mem_drop (List.mem_of_mem_take hv))
  · intro v hv
    obtain ⟨w, hw, rfl⟩ := List.mem_map.mp hv
    exact increment_lt (h w (List.mem_of_mem_take hw))

theorem skip_header (F : Fmt) (rest : List Char) :
    hexConstants none ("static constexpr ".toList ++ cache_type_name F ++ " cache[] = {".toList ++ rest) =
      hexConstants none rest := by
  cases F <;> rfl

theorem table32_flat : (((raw .b32 30).take 30).map (increment .b32) ++ ((raw .b32 30).drop 30).take 46 ++
    [el (raw .b32 30) ((raw .b32 30).length - 1)]).map (halves .b32) = cache32.map fun e => [e] := by decide +kernel

theorem table64_flat : (((raw .b64 290).take 290).map (increment .b64) ++ ((raw .b64 290).drop 290).take 325 ++
    [el (raw .b64 290) ((raw .b64 290).length - 1)]).map (halves .b64) = cache64.map fun e => [e.high, e.low] := by
  decide +kernel

theorem text32 : text binary32_generated_cache = "static constexpr ".toList ++ cache_type_name .b32 ++
    " cache[] = {".toList ++ (lines .b32 30 46 (raw .b32 30)).flatten := by
  have h := write32
  rw [write_file_spec .b32 (m := 30) (M := 46) rfl rfl (by rw [← raw32]; simp) quiet32] at h
  exact (Prod.mk.inj (Exec.ok.inj h)).1.symm

theorem text64 : text binary64_generated_cache = "static constexpr ".toList ++ cache_type_name .b64 ++
    " cache[] = {".toList ++ (lines .b64 290 325 (raw .b64 290)).flatten := by
  have h := write64
  rw [write_file_spec .b64 (m := 290) (M := 325) rfl rfl (by rw [← raw64]; simp) quiet64] at h
  exact (Prod.mk.inj (Exec.ok.inj h)).1.symm

theorem constants32 : hexConstants none (text binary32_generated_cache) = cache32 := by
  rw [text32, skip_header, read_all small32, table32_flat]
  induction cache32 with
  | nil => rfl
  | cons a l ih => rw [List.map_cons, List.flatten_cons, ih]; rfl

theorem constants64 : hexConstants none (text binary64_generated_cache) =
    (cache64.map fun e => [e.high, e.low]).flatten := by
  rw [text64, skip_header, read_all small64, table64_flat]

end Gen
end Grisu
