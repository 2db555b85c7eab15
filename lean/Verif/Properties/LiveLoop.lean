import Verif.Proofs.LiveLoop

/-! # The dialogue of the interactive test -/

namespace Grisu
open Spec

/-- **C79**: whatever the lines typed and whatever the conversion functions accept, the interactive test goes on
without undefined behaviour, its array of 41 characters being enough for every number.  It replies to each line in turn,
and the reply to a number depends on that number alone.  After the end of the input it does not stop: each further
request for a line fails and is answered like a line without a number, however many are made. -/
theorem C79_dialogue (cfg : Cfg) (F : Fmt) (parse : List Char → Option Nat) (n : Nat) (lines : List (List Char))
    (terminated : Bool) (hp : ∀ l x, parse l = some x → x < 2 ^ width F) (h0 : parse [] = none) :
    ∃ replies : List (List Char), live_test cfg F parse n ⟨lines, terminated, true⟩ =
        .ok ((match (generalizing := false) F with
          | .b32 => "[Start live test for float's]\n"
          | .b64 => "[Start live test for double's]\n").toList ++ replies.flatten) ∧
      List.Forall₂ (Reply F) (requests parse lines n) replies := by
  obtain ⟨replies, h1, h2⟩ := Live.loop_spec cfg hp h0 n ⟨lines, terminated, true⟩ [] (List.replicate 41 none) h0
    (by rw [List.length_replicate]; cases F <;> decide)
  refine ⟨replies, ?_, h2⟩
  unfold live_test
  rw [h1]
  cases F <;> rfl

-- two lines, the first without a number, and a request after the end
example : requests (fun l => if l = "-1.5".toList then some 0xBFC00000 else none) ["abc".toList, "-1.5".toList] 3 =
    [none, some 0xBFC00000, none] := by decide
example : live_test ⟨true, false⟩ .b32 (fun l => if l = "-1.5".toList then some 0xBFC00000 else none) 3
    ⟨["abc".toList, "-1.5".toList], false, true⟩ = .ok ("[Start live test for float's]\n" ++
      "Not a valid input; input again.\n" ++ "               sign: -\n" ++ "           exponent: -31\n" ++
      "        significand: 0xc0000000\n" ++ " Grisu-Exact output: -1.5E0\n" ++
      "Not a valid input; input again.\n").toList := by decide +kernel

end Grisu
