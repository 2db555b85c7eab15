import Verif.Model.ToChars
import Verif.Model.Ryu

/-! # The uniform random test, tests/uniform_random_test.cpp 24-56, and the performance test,
tests/uniform_random_perf_test.cpp 22-31

The random engine is not modelled: the bit patterns drawn are an argument, an arbitrary list of as many patterns as
there are tests.  What is printed is reduced to whether an error is reported. -/

namespace Grisu

/-- `std::string_view view(buffer)`, tests/uniform_random_test.cpp 43-44: the characters before the first NUL.  Reading
a byte never written is a fault, and so is running off the array. -/
def string_view : Buffer → Exec (List Char)
  | [] => .fault .outOfBounds
  | none :: _ => .fault .uninitialised
  | some ch :: rest =>
    if ch = Char.ofNat 0 then .ok []
    else do
      let view ← string_view rest
      .ok (ch :: view)

/-- The call of Ryu, tests/uniform_random_test.cpp 36-41. -/
def ryu_buffered (c : Ryu.Config) (F : Fmt) (x : Nat) (mem : Buffer) : Exec Buffer :=
  match F with
  | .b32 => Ryu.f2s_buffered c x mem
  | .b64 => Ryu.d2s_buffered c x mem

/-- The loop, tests/uniform_random_test.cpp 31-50: returns `succeeded`.  The two arrays keep their contents from one
round to the next. -/
def uniform_random_loop (cfg : Cfg) (c : Ryu.Config) (F : Fmt) :
    List Nat → (buffer1 buffer2 : Buffer) → (succeeded : Bool) → Exec Bool
  | [], _, _, succeeded => .ok succeeded
  | x :: xs, buffer1, buffer2, succeeded => do
    let (buffer1, _) ← fp_to_chars cfg F x buffer1 .nearest_to_even .tie_to_even
    let buffer2 ← ryu_buffered c F x buffer2
    let view1 ← string_view buffer1
    let view2 ← string_view buffer2
    let succeeded := if view1 ≠ view2 then false else succeeded
    uniform_random_loop cfg c F xs buffer1 buffer2 succeeded

/-- `uniform_random_test`, tests/uniform_random_test.cpp 24-56: whether success is reported. -/
def uniform_random_test (cfg : Cfg) (c : Ryu.Config) (F : Fmt) (xs : List Nat) : Exec Bool :=
  uniform_random_loop cfg c F xs (List.replicate 41 none) (List.replicate 41 none) true

/-- The loop of tests/uniform_random_perf_test.cpp 27-30. -/
def perf_loop (cfg : Cfg) (F : Fmt) : List Nat → Buffer → Exec Unit
  | [], _ => .ok ()
  | x :: xs, buffer => do
    let (buffer, _) ← fp_to_chars cfg F x buffer .nearest_to_even .tie_to_even
    perf_loop cfg F xs buffer

/-- `uniform_random_perf_test`, tests/uniform_random_perf_test.cpp 22-31. -/
def uniform_random_perf_test (cfg : Cfg) (F : Fmt) (xs : List Nat) : Exec Unit :=
  perf_loop cfg F xs (List.replicate 41 none)

end Grisu
