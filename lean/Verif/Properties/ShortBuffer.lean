import Verif.Proofs.ShortBuffer

/-! # C33, C34: exactly how many bytes the printers need -/

namespace Grisu
open Spec (FiniteNonzero maxText Prints PrintsTerminated width)

/-- **C33**: a buffer shorter than the text is overrun, whatever the input, mode and policy: exactly the length of the
text is needed. -/
theorem C33_exact (cfg : Cfg) (F : Fmt) (x : Nat) (mode : RoundingMode) (crs : Crs) (text : List Char)
    (hp : Prints cfg F x mode crs text) (mem : Buffer) :
    fp_to_chars_n cfg F x mem mode crs = .fault .outOfBounds ↔ mem.length < text.length := by
  refine ⟨fun h => ?_, fun h => (Local.fp_to_chars_n cfg F x mode crs).short hp mem h⟩
  by_contra hc
  rw [hp mem (by omega)] at h
  cases h

/-- **C34**: `fp_to_chars` needs exactly one byte more. -/
theorem C34_exact (cfg : Cfg) (F : Fmt) (x : Nat) (mode : RoundingMode) (crs : Crs) (text : List Char)
    (hp : Prints cfg F x mode crs text) (mem : Buffer) :
    fp_to_chars cfg F x mem mode crs = .fault .outOfBounds ↔ mem.length < text.length + 1 := by
  have ht := C34_terminated cfg F x mode crs text hp
  refine ⟨fun h => ?_, fun h => ?_⟩
  · by_contra hc
    rw [ht mem (by omega)] at h
    cases h
  · refine (Local.fp_to_chars cfg F x mode crs).short (text := text ++ ['\x00']) (a := (text.length : Int)) ?_ mem
      (by simp; omega)
    intro mem hm
    have := ht mem (by simpa using hm)
    simpa using this

/-- **C33**: 24 bytes (15 for `float`) are needed: for some input every shorter buffer is overrun. -/
theorem C33_least (F : Fmt) : ∃ x, x < 2 ^ width F ∧ ∀ cfg (mem : Buffer), mem.length < maxText F →
    fp_to_chars_n cfg F x mem .nearest_to_even .tie_to_even = .fault .outOfBounds := by
  have key : ∀ (x : Nat) (s : Nat) (t : Int), FiniteNonzero F x →
      grisu_exact ⟨true, false⟩ F false x .nearest_to_even .tie_to_even .assert_finite = .ok ⟨s, t, none⟩ →
      (Spec.sci (Spec.isNeg F x) s t).length = maxText F → ∃ x, x < 2 ^ width F ∧ ∀ cfg (mem : Buffer),
        mem.length < maxText F → fp_to_chars_n cfg F x mem .nearest_to_even .tie_to_even = .fault .outOfBounds := by
    intro x s t h hr hl
    refine ⟨x, h.inRange, fun cfg mem hm => ?_⟩
    obtain ⟨r, h1, h2⟩ := C17_portable ⟨true, false⟩ cfg F false x .nearest_to_even .tie_to_even .assert_finite h rfl
    rw [hr] at h1
    cases h1
    exact (C33_exact cfg F x _ _ _ (prints_finite h h2) mem).mpr (by rw [hl]; exact hm)
  cases F
  · exact key 2210398104 112846525 (-44) ⟨by decide, by decide, by decide⟩ (by decide +kernel) (by decide +kernel)
  · exact key 9227875636482146304 22250738585072014 (-324) ⟨by decide, by decide, by decide⟩ (by decide +kernel) (by decide +kernel)

-- -1.234E5 needs 8 bytes, 9 with the NUL
example (cfg : Cfg) : ∃ text, Prints cfg .b64 0xC0FE208000000000 .nearest_to_even .tie_to_even text := by
  obtain ⟨r, -, h⟩ := C30_prints cfg .b64 0xC0FE208000000000 .nearest_to_even .tie_to_even
    ⟨by decide, by decide, by decide⟩ rfl
  exact ⟨_, h⟩
example : fp_to_chars_n ⟨true, false⟩ .b64 0xC0FE208000000000 (List.replicate 7 none) .nearest_to_even .tie_to_even =
    .fault .outOfBounds := by decide +kernel

end Grisu
