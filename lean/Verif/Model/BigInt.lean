import Verif.Model.Arith

/-! # `bigint_impl`, tests/bigint.h 25-829

The class of multi-word integers used by the offline tools in `tests/`.  A number is the array
`elements` of `std::uint64_t` together with `leading_one_pos`.  The array size is the length of the
list.  Arrays without initialiser hold `none` until written; reading `none` is a fault. -/

namespace Grisu

/-- `log2p1`, tests/bigint.h 31-51; the lambda `inspect` is `step`. -/
def log2p1 (x : Nat) : Nat :=
  let step := fun (s : Nat × Nat) (shft : Nat) =>
    if s.1 / 2 ^ shft ≠ 0 then (s.1 / 2 ^ shft, s.2 + shft) else s
  let s := step (step (step (step (step (step (x, 0) 32) 16) 8) 4) 2) 1
  s.2 + s.1

/-- `bigint_impl`, tests/bigint.h 71-76, with `leading_one_pos_t`, 58-61. -/
structure Big where
  elements : List Nat
  element_pos : Nat
  bit_pos : Nat
  deriving DecidableEq, Repr

/-- Reading `elements[i]`, the array of tests/bigint.h 75. -/
def rd (l : List Nat) (i : Nat) : Exec Nat :=
  match l[i]? with
  | some v => .ok v
  | none => .fault .outOfBounds

/-- Writing `elements[i] = v`, the array of tests/bigint.h 75. -/
def wr (l : List Nat) (i v : Nat) : Exec (List Nat) :=
  if i < l.length then .ok (l.set i v) else .fault .outOfBounds

/-- Reading an array without initialiser, such as tests/bigint.h 193, 541, 542 and 579. -/
def rdu (l : List (Option Nat)) (i : Nat) : Exec Nat :=
  match l[i]? with
  | some (some v) => .ok v
  | some none => .fault .uninitialised
  | none => .fault .outOfBounds

/-- Writing to an array without initialiser, such as tests/bigint.h 193, 541, 542 and 579. -/
def wru (l : List (Option Nat)) (i v : Nat) : Exec (List (Option Nat)) :=
  if i < l.length then .ok (l.set i (some v)) else .fault .outOfBounds

namespace Big

/-- `bigint_impl(element_type x)`, tests/bigint.h 80-85. -/
def ofElement (size x : Nat) : Exec Big := do
  let els ← wr (List.replicate size 0) 0 x
  .ok ⟨els, 0, log2p1 x⟩

/-- `power_of_2`, tests/bigint.h 87-99. -/
def power_of_2 (cfg : Cfg) (size exp : Nat) : Exec Big := do
  cassert cfg (decide (exp < size * 64))
  let els ← wr (List.replicate size 0) (exp / 64) (2 ^ (exp % 64))
  .ok ⟨els, exp / 64, exp % 64 + 1⟩

/-! ## Multiplication by powers of two, tests/bigint.h 101-187 -/

/-- Shift amounts of a `std::uint64_t` must be below 64; the code of tests/bigint.h shifts by `shft` and
by `64 - shft`. -/
def shift_ok (shft : Nat) : Exec Unit :=
  if 0 < shft ∧ shft < 64 then .ok () else .fault .badShift

/-- The loop of tests/bigint.h 133-138 (and 179-182 with `shft = 1`): left shift of the elements `idx, ..., 1`,
each time taking the top bits of the element below. -/
def shl_loop (shft : Nat) : Nat → List Nat → Exec (List Nat)
  | 0, els => .ok els
  | idx + 1, els => do
    let below ← rd els idx
    let cur ← rd els (idx + 1)
    let els ← wr els (idx + 1) (wrap 64 (cur * 2 ^ shft) ||| below / 2 ^ (64 - shft))
    shl_loop shft idx els

/-- tests/bigint.h 133-139: left shift of the elements up to `element_pos`. -/
def shift_left (shft element_pos : Nat) (els : List Nat) : Exec (List Nat) := do
  shift_ok shft
  let els ← shl_loop shft element_pos els
  let e0 ← rd els 0
  wr els 0 (wrap 64 (e0 * 2 ^ shft))

/-- The loop of tests/bigint.h 146-151: right shift, from element `idx` on, `count` times. -/
def shr_loop (shft : Nat) : Nat → Nat → List Nat → Exec (List Nat)
  | 0, _, els => .ok els
  | count + 1, idx, els => do
    let cur ← rd els idx
    let below ← rd els (idx - 1)
    let els ← wr els (idx - 1) (below ||| wrap 64 (cur * 2 ^ (64 - shft)))
    let els ← wr els idx (cur / 2 ^ shft)
    shr_loop shft count (idx + 1) els

/-- tests/bigint.h 145-151: right shift of the elements up to `element_pos`. -/
def shift_right (shft element_pos : Nat) (els : List Nat) : Exec (List Nat) := do
  shift_ok shft
  let e0 ← rd els 0
  let els ← wr els 0 (e0 / 2 ^ shft)
  shr_loop shft element_pos 1 els

/-- The comparison of tests/bigint.h 156-164: is the first number at least the second, looking at the
elements below `count`, from the top. -/
def geq_loop (a b : List Nat) : Nat → Exec Bool
  | 0 => .ok true
  | idx + 1 => do
    let x ← rd a idx
    let y ← rd b idx
    if x > y then .ok true
    else if x < y then .ok false
    else geq_loop a b idx

/-- `move_backward` and `fill_n` of tests/bigint.h 117-121: element-wise shift by `offset`.  Elements above the
target range keep their contents. -/
def move_elements (els : List Nat) (element_pos offset : Nat) : Exec (List Nat) :=
  if element_pos + offset < els.length then
    .ok (List.replicate offset 0 ++ els.take (element_pos + 1) ++ els.drop (element_pos + offset + 1))
  else .fault .outOfBounds

/-- `multiply_2_until`, tests/bigint.h 105-187: the number of multiplications and the new number. -/
def multiply_2_until (cfg : Cfg) (x n : Big) : Exec (Nat × Big) := do
  cassert cfg (decide (x.bit_pos ≠ 0))
  cassert cfg (decide (x.element_pos ≤ n.element_pos))
  let offset := subw 64 n.element_pos x.element_pos
  let (count, els, element_pos) ←
    (if offset > 0 then do
      let els ← move_elements x.elements x.element_pos offset
      .ok (wrap 64 (offset * 64), els, x.element_pos + offset)
    else .ok (0, x.elements, x.element_pos) : Exec (Nat × List Nat × Nat))
  let count := subw 64 (wrap 64 (count + n.bit_pos)) x.bit_pos
  let els ←
    (if n.bit_pos > x.bit_pos then shift_left (n.bit_pos - x.bit_pos) element_pos els
    else if n.bit_pos < x.bit_pos then shift_right (x.bit_pos - n.bit_pos) element_pos els
    else .ok els : Exec (List Nat))
  let geq ← geq_loop els n.elements (element_pos + 1)
  if geq then .ok (count, ⟨els, element_pos, n.bit_pos⟩)
  else
    let (element_pos, bit_pos) ←
      (if n.bit_pos = 64 then do
        cassert cfg (decide (element_pos + 1 ≠ els.length))
        .ok (element_pos + 1, 1)
      else .ok (element_pos, n.bit_pos + 1) : Exec (Nat × Nat))
    let els ← shift_left 1 element_pos els
    .ok (wrap 64 (count + 1), ⟨els, element_pos, bit_pos⟩)

/-! ## Multiplication by five, tests/bigint.h 189-248 -/

/-- The loop of tests/bigint.h 208-211: `times_4` from element `idx` down to 1. -/
def times_4_loop (els : List Nat) : Nat → List (Option Nat) → Exec (List (Option Nat))
  | 0, t => .ok t
  | idx + 1, t => do
    let cur ← rd els (idx + 1)
    let below ← rd els idx
    let t ← wru t (idx + 1) (wrap 64 (cur * 4) ||| below / 2 ^ 62)
    times_4_loop els idx t

/-- The loop of tests/bigint.h 218-224: adds `times_4`, `count` elements from `idx` on. -/
def add_times_4 (t : List (Option Nat)) : Nat → Nat → List Nat → (carry : Nat) → Exec (List Nat × Nat)
  | 0, _, els, carry => .ok (els, carry)
  | count + 1, idx, els, carry => do
    let cur ← rd els idx
    let copied_with_carry := wrap 64 (cur + carry)
    let first_carry := if copied_with_carry < cur then 1 else 0
    let ti ← rdu t idx
    let new := wrap 64 (copied_with_carry + ti)
    let els ← wr els idx new
    let ti ← rdu t idx
    add_times_4 t count (idx + 1) els (first_carry ||| (if new < ti then 1 else 0))

/-- `multiply_5`, tests/bigint.h 190-248. -/
def multiply_5 (cfg : Cfg) (x : Big) : Exec Big := do
  cassert cfg (decide (x.bit_pos ≠ 0))
  let (pos4, bit4) ←
    (if x.bit_pos + 2 > 64 then do
      cassert cfg (decide (x.element_pos + 1 ≠ x.elements.length))
      .ok (x.element_pos + 1, x.bit_pos + 2 - 64)
    else .ok (x.element_pos, x.bit_pos + 2) : Exec (Nat × Nat))
  let t ← times_4_loop x.elements pos4 (List.replicate x.elements.length none)
  let e0 ← rd x.elements 0
  let t ← wru t 0 (wrap 64 (e0 * 4))
  let t0 ← rdu t 0
  let new0 := wrap 64 (e0 + t0)
  let els ← wr x.elements 0 new0
  let (els, carry) ← add_times_4 t pos4 1 els (if new0 < t0 then 1 else 0)
  let y ←
    (if carry ≠ 0 then do
      let els ← wr els (pos4 + 1) 1
      .ok ⟨els, pos4 + 1, 1⟩
    else do
      let top ← rd els pos4
      .ok ⟨els, pos4, if top > (2 ^ 64 - 1) / 2 ^ (64 - bit4) then bit4 + 1 else bit4⟩ : Exec Big)
  cassert cfg (decide (y.element_pos ≠ y.elements.length))
  cassert cfg (decide (y.bit_pos ≤ 64))
  .ok y

/-! ## Comparison, tests/bigint.h 250-360 -/

/-- The loop of `compare_common`, tests/bigint.h 257-262: elements `idx, ..., 1`. -/
def compare_loop (a b : List Nat) : Nat → Exec Int
  | 0 => .ok 0
  | idx + 1 => do
    let x ← rd a (idx + 1)
    let y ← rd b (idx + 1)
    if x < y then .ok 1
    else if x > y then .ok (-1)
    else compare_loop a b idx

/-- `compare_common`, tests/bigint.h 251-265. -/
def compare_common (a b : Big) : Exec Int :=
  if a.element_pos < b.element_pos then .ok 1
  else if a.element_pos > b.element_pos then .ok (-1)
  else compare_loop a.elements b.elements a.element_pos

/-- The six comparison operators between two numbers, tests/bigint.h 268-329: `on_less` and
`on_greater` are the results for a decided comparison, `last` compares `elements[0]`. -/
def compare_with (on_less on_greater : Bool) (last : Nat → Nat → Bool) (a b : Big) : Exec Bool := do
  let c ← compare_common a b
  if c > 0 then .ok on_less
  else if c < 0 then .ok on_greater
  else
    let x ← rd a.elements 0
    let y ← rd b.elements 0
    .ok (last x y)

/-- `operator<`, tests/bigint.h 268-279 -/
def lt (a b : Big) : Exec Bool := compare_with true false (fun x y => decide (x < y)) a b
/-- `operator<=`, tests/bigint.h 280-291 -/
def le (a b : Big) : Exec Bool := compare_with true false (fun x y => decide (x ≤ y)) a b
/-- `operator>`, tests/bigint.h 292-303 -/
def gt (a b : Big) : Exec Bool := compare_with false true (fun x y => decide (x > y)) a b
/-- `operator>=`, tests/bigint.h 304-315 -/
def ge (a b : Big) : Exec Bool := compare_with false true (fun x y => decide (x ≥ y)) a b
/-- `operator==`, tests/bigint.h 316-322 -/
def eq (a b : Big) : Exec Bool := compare_with false false (fun x y => decide (x = y)) a b
/-- `operator!=`, tests/bigint.h 323-329 -/
def ne (a b : Big) : Exec Bool := compare_with true true (fun x y => decide (x ≠ y)) a b

/-- The six comparison operators with a single element, tests/bigint.h 331-360: `wide` is the result
when the number has more than one element. -/
def compare_element (wide : Bool) (last : Nat → Nat → Bool) (a : Big) (n : Nat) : Exec Bool :=
  if a.element_pos ≠ 0 then .ok wide
  else do
    let x ← rd a.elements 0
    .ok (last x n)

/-- `operator<(element_type)`, tests/bigint.h 331-335 -/
def ltE (a : Big) (n : Nat) : Exec Bool := compare_element false (fun x y => decide (x < y)) a n
/-- `operator<=(element_type)`, tests/bigint.h 336-340 -/
def leE (a : Big) (n : Nat) : Exec Bool := compare_element false (fun x y => decide (x ≤ y)) a n
/-- `operator>(element_type)`, tests/bigint.h 341-345 -/
def gtE (a : Big) (n : Nat) : Exec Bool := compare_element true (fun x y => decide (x > y)) a n
/-- `operator>=(element_type)`, tests/bigint.h 346-350 -/
def geE (a : Big) (n : Nat) : Exec Bool := compare_element true (fun x y => decide (x ≥ y)) a n
/-- `operator==(element_type)`, tests/bigint.h 351-355 -/
def eqE (a : Big) (n : Nat) : Exec Bool := compare_element false (fun x y => decide (x = y)) a n
/-- `operator!=(element_type)`, tests/bigint.h 356-360 -/
def neE (a : Big) (n : Nat) : Exec Bool := compare_element true (fun x y => decide (x ≠ y)) a n

/-! ## Addition and subtraction, tests/bigint.h 362-498 -/

/-- `add_common`, tests/bigint.h 371-380: `count` elements from `idx` on. -/
def add_common (n : List Nat) : Nat → Nat → List Nat → (carry : Nat) → Exec (List Nat × Nat)
  | 0, _, els, carry => .ok (els, carry)
  | count + 1, idx, els, carry => do
    let cur ← rd els idx
    let with_carry := wrap 64 (cur + carry)
    let first_carry := if with_carry < cur then 1 else 0
    let ni ← rd n idx
    let new := wrap 64 (with_carry + ni)
    let els ← wr els idx new
    add_common n count (idx + 1) els (first_carry ||| (if new < ni then 1 else 0))

/-- The carry loop of tests/bigint.h 397-400 (source `n`), 407-410 and 422-425 (source is the array itself):
`elements[idx] = source[idx] + carry`. -/
def carry_loop (source : Option (List Nat)) : Nat → Nat → List Nat → (carry : Nat) → Exec (List Nat × Nat)
  | 0, _, els, carry => .ok (els, carry)
  | count + 1, idx, els, carry => do
    let cur ← rd (source.getD els) idx
    let new := wrap 64 (cur + carry)
    let els ← wr els idx new
    carry_loop source count (idx + 1) els (if new < carry then 1 else 0)

/-- `set_leading_one_pos`, tests/bigint.h 381-392. -/
def set_leading_one_pos (cfg : Cfg) (els : List Nat) (max_idx carry : Nat) : Exec Big := do
  if carry ≠ 0 then
    cassert cfg (decide (max_idx + 1 < els.length))
    let els ← wr els (max_idx + 1) 1
    .ok ⟨els, max_idx + 1, 1⟩
  else
    let top ← rd els max_idx
    .ok ⟨els, max_idx, log2p1 top⟩

/-- `operator+=(bigint_impl const&)`, tests/bigint.h 363-416.  If `n` is `*this` the code
still reads every element of `n` before it overwrites it, so the two may be equal here. -/
def add (cfg : Cfg) (x n : Big) : Exec Big := do
  let n0 ← rd n.elements 0
  let x0 ← rd x.elements 0
  let new0 := wrap 64 (x0 + n0)
  let els ← wr x.elements 0 new0
  let carry := if new0 < n0 then 1 else 0
  if x.element_pos < n.element_pos then
    let (els, carry) ← add_common n.elements x.element_pos 1 els carry
    let (els, carry) ←
      carry_loop (some n.elements) (n.element_pos - x.element_pos) (x.element_pos + 1) els carry
    set_leading_one_pos cfg els n.element_pos carry
  else
    let (els, carry) ← add_common n.elements n.element_pos 1 els carry
    let (els, carry) ← carry_loop none (x.element_pos - n.element_pos) (n.element_pos + 1) els carry
    set_leading_one_pos cfg els x.element_pos carry

/-- `operator+=(element_type)`, tests/bigint.h 418-435. -/
def addE (cfg : Cfg) (x : Big) (n : Nat) : Exec Big := do
  let x0 ← rd x.elements 0
  let new0 := wrap 64 (x0 + n)
  let els ← wr x.elements 0 new0
  let carry := if new0 < n then 1 else 0
  let (els, carry) ← carry_loop none x.element_pos 1 els carry
  if carry ≠ 0 then
    cassert cfg (decide (x.element_pos + 1 < els.length))
    let els ← wr els (x.element_pos + 1) 1
    .ok ⟨els, x.element_pos + 1, 1⟩
  else .ok ⟨els, x.element_pos, x.bit_pos⟩

/-- The subtraction loop of tests/bigint.h 444-450 (and 593-599): `count` elements from `idx` on. -/
def sub_loop (n : Nat → Exec Nat) : Nat → Nat → List Nat → (carry : Nat) → Exec (List Nat × Nat)
  | 0, _, els, carry => .ok (els, carry)
  | count + 1, idx, els, carry => do
    let ni ← n idx
    let with_carry := wrap 64 (ni + carry)
    let first_carry := if with_carry < carry then 1 else 0
    let cur ← rd els idx
    let carry := first_carry ||| (if cur < with_carry then 1 else 0)
    let els ← wr els idx (subw 64 cur with_carry)
    sub_loop n count (idx + 1) els carry

/-- The borrow loop of tests/bigint.h 453-456 and the decrement of line 457.  `fuel` is the array size. -/
def borrow_loop (cfg : Cfg) : Nat → Nat → List Nat → Exec (List Nat)
  | 0, _, _ => .fault .outOfBounds
  | fuel + 1, idx, els => do
    let cur ← rd els idx
    if cur = 0 then
      let els ← wr els idx (2 ^ 64 - 1)
      cassert cfg (decide (idx + 1 < els.length))
      borrow_loop cfg fuel (idx + 1) els
    else wr els idx (cur - 1)

/-- The search of tests/bigint.h 461-464 (and 604-609): the largest index below `idx + 1` with a nonzero element, or 0. -/
def find_leading (els : List Nat) : Nat → Exec Nat
  | 0 => .ok 0
  | idx + 1 => do
    let cur ← rd els (idx + 1)
    if cur ≠ 0 then .ok (idx + 1) else find_leading els idx

/-- `operator-=`, tests/bigint.h 439-470. -/
def sub (cfg : Cfg) (x n : Big) : Exec Big := do
  let x0 ← rd x.elements 0
  let n0 ← rd n.elements 0
  let carry := if x0 < n0 then 1 else 0
  let els ← wr x.elements 0 (subw 64 x0 n0)
  let (els, carry) ← sub_loop (rd n.elements) n.element_pos 1 els carry
  let els ← (if carry ≠ 0 then borrow_loop cfg (els.length + 1) (n.element_pos + 1) els
    else .ok els : Exec (List Nat))
  let idx ← find_leading els x.element_pos
  let top ← rd els idx
  .ok ⟨els, idx, log2p1 top⟩

/-- The loop of tests/bigint.h 476-480: replaces zero elements by all ones; the index of the first nonzero
element.  `fuel` is the array size. -/
def decrement_loop (cfg : Cfg) (element_pos : Nat) : Nat → Nat → List Nat → Exec (List Nat × Nat)
  | 0, _, _ => .fault .outOfBounds
  | fuel + 1, idx, els => do
    let cur ← rd els idx
    if cur = 0 then
      let els ← wr els idx (2 ^ 64 - 1)
      cassert cfg (decide (idx + 1 ≤ element_pos))
      decrement_loop cfg element_pos fuel (idx + 1) els
    else .ok (els, idx)

/-- `operator--`, tests/bigint.h 474-498. -/
def decrement (cfg : Cfg) (x : Big) : Exec Big := do
  let (els, idx) ← decrement_loop cfg x.element_pos (x.elements.length + 1) 0 x.elements
  let cur ← rd els idx
  let els ← wr els idx (cur - 1)
  if cur - 1 = 0 then
    if idx = 0 then .ok ⟨els, x.element_pos, 0⟩
    else .ok ⟨els, subw 64 x.element_pos 1, 64⟩
  else .ok ⟨els, x.element_pos, log2p1 (cur - 1)⟩

/-! ## Multiplication, tests/bigint.h 500-573 -/

/-- The loop of `operator*=`, tests/bigint.h 502-507: `count` elements from `idx` on. -/
def mul_loop (cfg : Cfg) (n : Nat) : Nat → Nat → List Nat → (carry : Nat) → Exec (List Nat × Nat)
  | 0, _, els, carry => .ok (els, carry)
  | count + 1, idx, els, carry => do
    let cur ← rd els idx
    let mul := umul128 cfg cur n
    let new := wrap 64 (mul.low + carry)
    let els ← wr els idx new
    mul_loop cfg n count (idx + 1) els (wrap 64 (mul.high + (if new < mul.low then 1 else 0)))

/-- `operator*=(element_type)`, tests/bigint.h 501-517. -/
def mulE (cfg : Cfg) (x : Big) (n : Nat) : Exec Big := do
  let (els, carry) ← mul_loop cfg n (x.element_pos + 1) 0 x.elements 0
  if carry ≠ 0 then
    cassert cfg (decide (x.element_pos < els.length - 1))
    let els ← wr els (x.element_pos + 1) carry
    .ok ⟨els, x.element_pos + 1, log2p1 carry⟩
  else
    let top ← rd els x.element_pos
    .ok ⟨els, x.element_pos, log2p1 top⟩

/-- The loop of `calculate_single`, tests/bigint.h 526-531. -/
def single_loop (cfg : Cfg) (x : List Nat) (n : Nat) :
    Nat → Nat → List (Option Nat) → (carry : Nat) → Exec (List (Option Nat) × Nat)
  | 0, _, result, carry => .ok (result, carry)
  | count + 1, idx, result, carry => do
    let xi ← rd x idx
    let mul := umul128 cfg xi n
    let new := wrap 64 (mul.low + carry)
    let result ← wru result idx new
    single_loop cfg x n count (idx + 1) result (wrap 64 (mul.high + (if new < mul.low then 1 else 0)))

/-- `calculate_single`, tests/bigint.h 525-539: the new `result` and `single_result_leading_one_pos`. -/
def calculate_single (cfg : Cfg) (x : Big) (n : Nat) (result : List (Option Nat)) :
    Exec (List (Option Nat) × Nat) := do
  let (result, mul_carry) ← single_loop cfg x.elements n (x.element_pos + 1) 0 result 0
  if mul_carry ≠ 0 then
    let result ← wru result (x.element_pos + 1) mul_carry
    .ok (result, x.element_pos + 1)
  else .ok (result, x.element_pos)

/-- The inner loop of tests/bigint.h 556-562: `count` elements from `j` on. -/
def accumulate_loop (temp : List (Option Nat)) (i : Nat) :
    Nat → Nat → List (Option Nat) → (carry : Nat) → Exec (List (Option Nat) × Nat)
  | 0, _, result, carry => .ok (result, carry)
  | count + 1, j, result, carry => do
    let tj ← rdu temp j
    let with_carry := wrap 64 (tj + carry)
    let first_carry := if with_carry < tj then 1 else 0
    let cur ← rdu result (i + j)
    let new := wrap 64 (cur + with_carry)
    let result ← wru result (i + j) new
    accumulate_loop temp i count (j + 1) result (first_carry ||| (if new < with_carry then 1 else 0))

/-- The outer loop of tests/bigint.h 550-565: `count` elements of `y` from `i` on.  The last two values
returned are `single_result_leading_one_pos` and `result.elements`. -/
def product_loop (cfg : Cfg) (x y : Big) :
    Nat → Nat → List (Option Nat) → List (Option Nat) → (pos : Nat) → Exec (List (Option Nat) × Nat)
  | 0, _, _, result, pos => .ok (result, pos)
  | count + 1, i, temp, result, _ => do
    let yi ← rd y.elements i
    let (temp, pos) ← calculate_single cfg x yi temp
    let t0 ← rdu temp 0
    let cur ← rdu result i
    let new := wrap 64 (cur + t0)
    let result ← wru result i new
    let (result, add_carry) ← accumulate_loop temp i pos 1 result (if new < t0 then 1 else 0)
    cassert cfg (decide (add_carry = 0))
    product_loop cfg x y count (i + 1) temp result pos

/-- `std::fill` of tests/bigint.h 546-547: zeros from index `k` on. -/
def fill_from (l : List (Option Nat)) (k : Nat) : List (Option Nat) :=
  l.take k ++ List.replicate (l.length - k) (some 0)

/-- `operator*`, tests/bigint.h 520-573.  The array size is that of `x`. -/
def mul (cfg : Cfg) (x y : Big) : Exec Big := do
  let size := x.elements.length
  cassert cfg (decide (x.element_pos + y.element_pos < size))
  let y0 ← rd y.elements 0
  let (result, pos) ← calculate_single cfg x y0 (List.replicate size none)
  let result := fill_from result (pos + 1)
  let (result, pos) ← product_loop cfg x y y.element_pos 1 (List.replicate size none) result pos
  let element_pos := y.element_pos + pos
  let top ← rdu result element_pos
  .ok ⟨result.map (·.getD 0), element_pos, log2p1 top⟩

/-! ## Long division, tests/bigint.h 575-829 -/

/-- The local variables of `long_division` that change: the number itself, `n_shifted`, `quotient`,
`base_idx`, `base_trailing_zeros`, `total_shft_amount`, tests/bigint.h 579-587. -/
structure Div where
  this : Big
  shifted : List (Option Nat)
  shifted_element_pos : Nat
  shifted_bit_pos : Nat
  quotient : Big
  base_idx : Nat
  base_trailing_zeros : Nat
  total : Nat
  deriving DecidableEq, Repr

/-- The loop of tests/bigint.h 601-602: zeros at `count` elements from `idx` on. -/
def zero_loop : Nat → Nat → List Nat → Exec (List Nat)
  | 0, _, els => .ok els
  | count + 1, idx, els => do
    let els ← wr els idx 0
    zero_loop count (idx + 1) els

/-- `perform_subtraction`, tests/bigint.h 589-612. -/
def perform_subtraction (cfg : Cfg) (this : Big) (x : Nat → Exec Nat) (base_idx comparison_idx : Nat) :
    Exec Big := do
  let cur ← rd this.elements base_idx
  let x0 ← x base_idx
  let els ← wr this.elements base_idx (subw 64 cur x0)
  let (els, carry) ← sub_loop x (comparison_idx - base_idx) (base_idx + 1) els (if cur < x0 then 1 else 0)
  cassert cfg (decide (carry = 0))
  let operation_idx := max (base_idx + 1) (comparison_idx + 1)
  let els ← zero_loop (this.element_pos + 1 - operation_idx) operation_idx els
  let idx ← find_leading els comparison_idx
  let top ← rd els idx
  .ok ⟨els, idx, log2p1 top⟩

/-- The number one as a quotient, tests/bigint.h 635-636. -/
def one (size : Nat) : Exec Big := do
  let els ← wr (List.replicate size 0) 0 1
  .ok ⟨els, 0, 1⟩

/-- The loop of tests/bigint.h 623-639, elements `idx, ..., 1`: `none` if `n` is larger, otherwise the index at
which the numbers differ, 0 if there is none. -/
def equal_length_loop (this n : List Nat) : Nat → Exec (Option Nat)
  | 0 => .ok (some 0)
  | idx + 1 => do
    let ni ← rd n (idx + 1)
    let ti ← rd this (idx + 1)
    if ni > ti then .ok none
    else if ni < ti then .ok (some (idx + 1))
    else equal_length_loop this n idx

/-- `std::fill_n(begin(elements) + 1, element_pos, 0)`, tests/bigint.h 646. -/
def clear_above_0 (els : List Nat) (element_pos : Nat) : Exec (List Nat) := zero_loop element_pos 1 els

/-- tests/bigint.h 622-654: division of numbers with the same leading bit position. -/
def divide_equal_length (cfg : Cfg) (this n quotient : Big) : Exec (Big × Big) := do
  let r ← equal_length_loop this.elements n.elements this.element_pos
  match r with
  | none => .ok (quotient, this)
  | some (idx + 1) => do
    let this ← perform_subtraction cfg this (rd n.elements) 0 (idx + 1)
    let q ← one this.elements.length
    .ok (q, this)
  | some 0 => do
    let n0 ← rd n.elements 0
    let t0 ← rd this.elements 0
    if n0 > t0 then .ok (quotient, this)
    else
      let els ← wr this.elements 0 (t0 - n0)
      let els ← clear_above_0 els this.element_pos
      let q ← one this.elements.length
      .ok (q, ⟨els, 0, log2p1 (t0 - n0)⟩)

/-- The loop of tests/bigint.h 662-666: bit-wise left shift of `n` into `n_shifted`, elements `idx, ..., 1`. -/
def shift_into (n : List Nat) (shft : Nat) : Nat → List (Option Nat) → Exec (List (Option Nat))
  | 0, s => .ok s
  | idx + 1, s => do
    let cur ← rd n (idx + 1)
    let below ← rd n idx
    let s ← wru s (idx + 1) (wrap 64 (cur * 2 ^ shft) ||| below / 2 ^ (64 - shft))
    shift_into n shft idx s

/-- `std::fill_n` of tests/bigint.h 689: zeros in the elements below `count`. -/
def fill_zeros : Nat → List (Option Nat) → Exec (List (Option Nat))
  | 0, s => .ok s
  | count + 1, s => do
    let s ← wru s count 0
    fill_zeros count s

/-- `std::copy` of tests/bigint.h 690-692: `count` elements of `n` from `idx` on, to position `base_idx`. -/
def copy_into (n : List Nat) (base_idx : Nat) : Nat → Nat → List (Option Nat) → Exec (List (Option Nat))
  | 0, _, s => .ok s
  | count + 1, idx, s => do
    let cur ← rd n idx
    let s ← wru s (base_idx + idx) cur
    copy_into n base_idx count (idx + 1) s

/-- The loop of tests/bigint.h 696-700: elements `base_idx + count, ..., base_idx + 1`. -/
def shift_up_loop (base_idx shft : Nat) : Nat → List (Option Nat) → Exec (List (Option Nat))
  | 0, s => .ok s
  | count + 1, s => do
    let cur ← rdu s (base_idx + count + 1)
    let below ← rdu s (base_idx + count)
    let s ← wru s (base_idx + count + 1) (wrap 64 (cur * 2 ^ shft) ||| below / 2 ^ (64 - shft))
    shift_up_loop base_idx shft count s

/-- tests/bigint.h 656-706: `n_shifted` aligned with `*this`. -/
def align (this n quotient : Big) : Exec Div := do
  let blank : List (Option Nat) := List.replicate this.elements.length none
  if this.element_pos = n.element_pos then
    let shft := this.bit_pos - n.bit_pos
    shift_ok shft
    let s ← shift_into n.elements shft this.element_pos blank
    let n0 ← rd n.elements 0
    let s ← wru s 0 (wrap 64 (n0 * 2 ^ shft))
    .ok ⟨this, s, this.element_pos, this.bit_pos, quotient, 0, shft, shft⟩
  else
    let base_idx := this.element_pos - n.element_pos
    let (base_idx, shft, s) ←
      (if this.bit_pos > n.bit_pos then .ok (base_idx, this.bit_pos - n.bit_pos, blank)
      else if this.bit_pos < n.bit_pos then do
        let s ← wru blank this.element_pos 0
        .ok (base_idx - 1, 64 + this.bit_pos - n.bit_pos, s)
      else .ok (base_idx, 0, blank) : Exec (Nat × Nat × List (Option Nat)))
    let s ← fill_zeros base_idx s
    let s ← copy_into n.elements base_idx (n.element_pos + 1) 0 s
    let s ←
      (if shft ≠ 0 then do
        shift_ok shft
        let s ← shift_up_loop base_idx shft (this.element_pos - base_idx) s
        let b ← rdu s base_idx
        wru s base_idx (wrap 64 (b * 2 ^ shft))
      else .ok s : Exec (List (Option Nat)))
    .ok ⟨this, s, this.element_pos, this.bit_pos, quotient, base_idx, shft, base_idx * 64 + shft⟩

/-- The comparison of tests/bigint.h 710-755 without the shift: `none` if `n_shifted` is larger, otherwise
`some` of one plus the index at which the numbers differ, or `some 0` if they are equal.  Looks at the
elements below `count`. -/
def compare_shifted (shifted : List (Option Nat)) (this : List Nat) : Nat → Exec (Option Nat)
  | 0 => .ok (some 0)
  | idx + 1 => do
    let si ← rdu shifted idx
    let ti ← rd this idx
    if si > ti then .ok none
    else if si < ti then .ok (some (idx + 1))
    else compare_shifted shifted this idx

/-- The loop of tests/bigint.h 740-746 (`shft = 1`) and 816-820: `count` elements from `idx` on. -/
def shift_down_loop (shft : Nat) : Nat → Nat → List (Option Nat) → Exec (List (Option Nat))
  | 0, _, s => .ok s
  | count + 1, idx, s => do
    let cur ← rdu s idx
    let above ← rdu s (idx + 1)
    let s ← wru s idx (cur / 2 ^ shft ||| wrap 64 (above * 2 ^ (64 - shft)))
    shift_down_loop shft count (idx + 1) s

/-- tests/bigint.h 715-749: right shift of `n_shifted` by one bit; `none` if the code returns `false` at line
719.  `first` is `is_before_iteration`. -/
def shift_once (first : Bool) (d : Div) : Exec (Option Div) := do
  let r ←
    (if d.base_trailing_zeros = 0 then
      if first = false ∧ d.base_idx = 0 then .ok none
      else if d.base_idx = 0 then .fault .outOfBounds
      else do
        let b ← rdu d.shifted d.base_idx
        let s ← wru d.shifted (d.base_idx - 1) (wrap 64 (b * 2 ^ 63))
        .ok (some (s, d.base_idx - 1, 63))
    else .ok (some (d.shifted, d.base_idx, d.base_trailing_zeros - 1)) :
      Exec (Option (List (Option Nat) × Nat × Nat)))
  match r with
  | none => .ok none
  | some (s, base_idx, base_trailing_zeros) => do
    let (pos, bit) :=
      if d.this.bit_pos = 1 then (subw 64 d.shifted_element_pos 1, 64)
      else (d.shifted_element_pos, subw 64 d.shifted_bit_pos 1)
    let s ← shift_down_loop 1 (d.this.element_pos - base_idx) base_idx s
    let top ← rdu s d.this.element_pos
    let s ← wru s d.this.element_pos (top / 2)
    .ok (some { d with
      shifted := s, shifted_element_pos := pos, shifted_bit_pos := bit
      base_idx, base_trailing_zeros, total := d.total - 1 })

/-- `compare_and_subtract`, tests/bigint.h 708-778.  The flag is the value returned. -/
def compare_and_subtract (cfg : Cfg) (first : Bool) (d : Div) : Exec (Bool × Div) := do
  let c ← compare_shifted d.shifted d.this.elements (d.this.element_pos + 1)
  let r ←
    (match c with
    | none => do
      let r ← shift_once first d
      .ok (r.map fun d' => (d', some d.this.element_pos))
    | some 0 => .ok (some (d, none))
    | some (idx + 1) => .ok (some (d, some idx)) : Exec (Option (Div × Option Nat)))
  match r with
  | none => .ok (false, d)
  | some (d, comparison_idx) => do
    let q := d.quotient
    let (pos, bit) :=
      if first then (d.base_idx, d.base_trailing_zeros + 1) else (q.element_pos, q.bit_pos)
    let cur ← rd q.elements d.base_idx
    let els ← wr q.elements d.base_idx (cur ||| 2 ^ d.base_trailing_zeros)
    let d := { d with quotient := ⟨els, pos, bit⟩ }
    match comparison_idx with
    | none => do
      let els ← zero_loop (d.this.element_pos + 1) 0 d.this.elements
      .ok (false, { d with this := ⟨els, 0, 0⟩ })
    | some idx => do
      let this ← perform_subtraction cfg d.this (rdu d.shifted) d.base_idx idx
      .ok (true, { d with this })

/-- The loop of tests/bigint.h 810-811: `count` elements from `idx` on, each from `offset` above. -/
def shift_elements (offset : Nat) : Nat → Nat → List (Option Nat) → Exec (List (Option Nat))
  | 0, _, s => .ok s
  | count + 1, idx, s => do
    let v ← rdu s (idx + offset)
    let s ← wru s idx v
    shift_elements offset count (idx + 1) s

/-- tests/bigint.h 784-825: re-alignment of `n_shifted`; `none` at the `break` of line 801. -/
def realign (d : Div) : Exec (Option Div) := do
  let element_shft := subw 64 d.shifted_element_pos d.this.element_pos
  let (element_shft, bit_shft) :=
    if d.this.bit_pos < d.shifted_bit_pos then (element_shft, d.shifted_bit_pos - d.this.bit_pos)
    else if d.this.bit_pos > d.shifted_bit_pos then
      (subw 64 element_shft 1, 64 + d.shifted_bit_pos - d.this.bit_pos)
    else (element_shft, 0)
  let necessary := wrap 64 (wrap 64 (element_shft * 64) + bit_shft)
  if d.total < necessary then .ok none
  else
    let total := d.total - necessary
    let base_idx := total / 64
    let s ←
      (if element_shft ≠ 0 then
        shift_elements element_shft (d.this.element_pos + 1 - base_idx) base_idx d.shifted
      else .ok d.shifted : Exec (List (Option Nat)))
    let s ←
      (if bit_shft ≠ 0 then do
        shift_ok bit_shft
        let s ← shift_down_loop bit_shft (d.shifted_element_pos - base_idx) base_idx s
        let top ← rdu s d.shifted_element_pos
        wru s d.shifted_element_pos (top / 2 ^ bit_shft)
      else .ok s : Exec (List (Option Nat)))
    .ok (some { d with
      shifted := s, shifted_element_pos := d.this.element_pos, shifted_bit_pos := d.this.bit_pos
      base_idx, base_trailing_zeros := total % 64, total })

/-- The loop of tests/bigint.h 783-826. -/
def division_loop (cfg : Cfg) : Nat → Div → Exec Div
  | 0, _ => .fault .loopFuel
  | fuel + 1, d => do
    let r ← realign d
    match r with
    | none => .ok d
    | some d => do
      let (continue_, d) ← compare_and_subtract cfg false d
      if continue_ then division_loop cfg fuel d else .ok d

/-- `long_division`, tests/bigint.h 578-829: quotient and remainder.  `fuel` bounds the iterations of
the loop. -/
def long_division (cfg : Cfg) (fuel : Nat) (this n : Big) : Exec (Big × Big) := do
  let quotient ← ofElement this.elements.length 0
  if this.element_pos < n.element_pos then .ok (quotient, this)
  else if this.element_pos = n.element_pos ∧ this.bit_pos < n.bit_pos then .ok (quotient, this)
  else if this.element_pos = n.element_pos ∧ this.bit_pos = n.bit_pos then
    divide_equal_length cfg this n quotient
  else
    let d ← align this n quotient
    let (continue_, d) ← compare_and_subtract cfg true d
    if continue_ then
      let d ← division_loop cfg fuel d
      .ok (d.quotient, d.this)
    else .ok (d.quotient, d.this)

end Big
end Grisu
