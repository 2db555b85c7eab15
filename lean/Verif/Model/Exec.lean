/-!
# Outcomes of a call

C++ code can stop with a failed `assert` or run into undefined behaviour.  The
model keeps these outcomes distinct from normal return.
-/

namespace Grisu

/-- Ways in which a modelled call can fail to return normally.  Assertions: grisu_exact.h 197, 198, 283, 297, 314, 334,
1176, 1829, 2150, 2458, 2500, 2655 and those of the test programs; the others are undefined behaviour of C++. -/
inductive Fault
  /-- an `assert` of the source fails (only with asserts enabled) -/
  | assertion
  /-- read or write outside an array -/
  | outOfBounds
  /-- shift amount negative or not smaller than the width of the operand -/
  | badShift
  /-- overflow of a signed 32-bit product -/
  | signedOverflow
  /-- `__builtin_ctz(0)` / `_BitScanForward(0)` -/
  | ctzZero
  /-- a helper of the offline tools is called outside its documented precondition -/
  | precondition
  /-- read of a variable that has no value yet -/
  | uninitialised
  /-- the fuel given to a loop of the model ran out (the proofs show that it never does) -/
  | loopFuel
  deriving DecidableEq, Repr

/-- Outcome of a call: a value, or a fault.  Used for every function modelled, such as `compute`, grisu_exact.h 1782. -/
inductive Exec (α : Type) where
  | ok (a : α)
  | fault (f : Fault)
  deriving DecidableEq, Repr

namespace Exec

/-- One statement after the other, as in every function body, such as grisu_exact.h 1782-1983. -/
@[inline] def bind {α β : Type} : Exec α → (α → Exec β) → Exec β
  | .ok a, f => f a
  | .fault e, _ => .fault e

instance : Monad Exec where
  pure := Exec.ok
  bind := Exec.bind

@[simp] theorem ok_bind {α β : Type} (a : α) (f : α → Exec β) : (Exec.ok a >>= f) = f a := rfl
@[simp] theorem fault_bind {α β : Type} (e : Fault) (f : α → Exec β) :
    ((Exec.fault e : Exec α) >>= f) = .fault e := rfl
@[simp] theorem pure_eq {α : Type} (a : α) : (pure a : Exec α) = .ok a := rfl

end Exec

/-- Build configuration: which preprocessor branch of `grisu_exact.h` is compiled, and whether
`NDEBUG` is defined (asserts compiled out).  `x64 = true` is the branch for `__x86_64__` with
GCC/Clang builtins (lines 56, 96, 122, 150, 165, 199); the MSVC x64 intrinsics have the same
meaning and are identified with it.  `x64 = false` is the portable branch. -/
structure Cfg where
  x64 : Bool
  ndebug : Bool
  deriving DecidableEq, Repr

/-- `assert(b)` (from `<cassert>`), as in grisu_exact.h 197. -/
def cassert (cfg : Cfg) (b : Bool) : Exec Unit :=
  if cfg.ndebug || b then .ok () else .fault .assertion

/-- Conversion to, or arithmetic in, an unsigned type of `w` bits, as in grisu_exact.h 184-191. -/
def wrap (w n : Nat) : Nat := n % 2 ^ w

/-- Unsigned subtraction in `w` bits, as in tests/bigint.h 591. -/
def subw (w a b : Nat) : Nat := (a + (2 ^ w - b % 2 ^ w)) % 2 ^ w

/-- `x >> n` for an unsigned `x` of `w` bits, as in tests/bigint.h 665; undefined unless `0 ≤ n < w`. -/
def shr (w x : Nat) (n : Int) : Exec Nat :=
  if 0 ≤ n ∧ n < (w : Int) then .ok (x / 2 ^ n.toNat) else .fault .badShift

/-- A product computed in `std::int32_t`, as in grisu_exact.h 305. -/
def i32 (n : Int) : Exec Int :=
  if -2 ^ 31 ≤ n ∧ n < 2 ^ 31 then .ok n else .fault .signedOverflow

end Grisu
