import Verif.Proofs.Benchmark
import Verif.Properties.LiveTest
import Verif.SpecLive

/-! # The dialogue of the interactive test -/

namespace Grisu
namespace Live
open Spec

theorem hex_significand_eq {F : Fmt} {s : Nat} (hs : s < 2 ^ width F) :
    hexConstants none ('0' :: 'x' :: hex_significand F s) = [s] ∧
    ('0' :: 'x' :: hex_significand F s).length = width F / 4 + 2 := by
  have he : hex_significand F s = hex_bits F s := rfl
  rw [he, Bench.hex_bits_eq hs]
  constructor
  · rw [Gen.read_0x]
    have := Gen.read_hex (a := s) (k := width F / 4) (by cases F <;> norm_num [width] at * <;> exact hs) 0 []
    rw [List.append_nil] at this
    rw [this, hexConstants]
    simp
  · simp [Gen.length_hexText]

theorem decompose (cfg : Cfg) {F : Fmt} {x : Nat} (hx : x < 2 ^ width F) :
    ∃ r, decompose_float cfg F x = .ok r ∧ r.is_negative = some (isNeg F x) ∧ r.significand < 2 ^ width F ∧
      (r.significand : ℚ) * 2 ^ r.exponent = value F (mag F x) / (if mag F x < 2 ^ mantBits F then 2 else 1) := by
  have hr := decompose_float_eq cfg F x hx
  refine ⟨_, hr, rfl, ?_, ?_⟩
  · have h1 := Nat.mod_lt (mag F x) (Nat.two_pow_pos (mantBits F))
    have h2 : mag F x % 2 ^ mantBits F * 2 ^ (width F - mantBits F - 1) < 2 ^ (width F - 1) := by
      have : 2 ^ (width F - 1) = 2 ^ mantBits F * 2 ^ (width F - mantBits F - 1) := by cases F <;> decide
      rw [this]
      exact Nat.mul_lt_mul_of_pos_right h1 (Nat.two_pow_pos _)
    have h3 : 2 ^ width F = 2 ^ (width F - 1) + 2 ^ (width F - 1) := by cases F <;> decide
    show (if mag F x / 2 ^ mantBits F = 0 then 0 else 2 ^ (width F - 1)) + _ < _
    rw [h3]
    split
    · rw [zero_add]; exact lt_of_lt_of_le h2 (Nat.le_add_left _ _)
    · exact Nat.add_lt_add_left h2 _
  · by_cases hm : mag F x < 2 ^ mantBits F
    · obtain ⟨r', h1, _, h3⟩ := C66_subnormal cfg F x hx hm
      rw [hr] at h1
      cases h1
      rw [if_pos hm]
      exact h3
    · rw [if_neg hm, div_one]
      exact decompose_value (by rw [Nat.div_ne_zero_iff]; exact ⟨by positivity, by omega⟩)

theorem reply_spec (cfg : Cfg) {F : Fmt} {x : Nat} (hx : x < 2 ^ width F) {b : Buffer} (hb : maxText F + 1 ≤ b.length) :
    ∃ reply b', live_reply cfg F x b = .ok (reply, b') ∧ b'.length = b.length ∧ NumberReply F x reply := by
  obtain ⟨r, h1, h2, h3, h4⟩ := decompose cfg hx
  obtain ⟨text, b1, p, hp, h5, h6, h7⟩ := Bench.print_step cfg hx hb
  obtain ⟨g1, g2⟩ := hex_significand_eq h3
  unfold live_reply
  simp only [h1, Exec.ok_bind, h5, h7, h2]
  refine ⟨_, b1, rfl, h6, r.exponent, r.significand, _, text, ?_, g1, g2, h4, Bench.denotes hx hp⟩
  have e : "0x".toList = ['0', 'x'] := rfl
  simp only [decimal_int, e, Option.some.injEq, List.append_assoc, List.cons_append, List.nil_append]

theorem loop_spec (cfg : Cfg) {F : Fmt} {parse : List Char → Option Nat} (hp : ∀ l x, parse l = some x → x < 2 ^ width F)
    (h0 : parse [] = none) (n : Nat) :
    ∀ (input : Stdin) (x_str : List Char) (b : Buffer), parse x_str = none → maxText F + 1 ≤ b.length →
    ∃ replies, live_loop cfg F parse n input x_str b = .ok replies.flatten ∧
      List.Forall₂ (Reply F) (requests parse (if input.good then input.lines else []) n) replies := by
  induction n with
  | zero =>
    intro input x_str b _ _
    exact ⟨[], rfl, by simp [requests]⟩
  | succ n ih =>
    intro input x_str b hx hb
    have key : ∃ input' l, getline input x_str = (input', l) ∧
        requests parse (if input.good then input.lines else []) (n + 1) =
          parse l :: requests parse (if input'.good then input'.lines else []) n := by
      obtain ⟨lines, terminated, good⟩ := input
      cases good with
      | false => exact ⟨_, x_str, rfl, by simp [requests, hx, List.replicate_succ]⟩
      | true =>
        match lines with
        | [] => exact ⟨_, [], rfl, by simp [requests, h0, List.replicate_succ]⟩
        | [l] => exact ⟨_, l, rfl, by cases terminated <;> simp [requests]⟩
        | l :: l' :: rest => exact ⟨_, l, rfl, by simp [requests]⟩
    obtain ⟨input', l, k1, k2⟩ := key
    rw [k2, live_loop]
    simp only [k1]
    cases hl : parse l with
    | none =>
      obtain ⟨replies, e1, e2⟩ := ih input' l b hl hb
      refine ⟨"Not a valid input; input again.\n".toList :: replies, ?_, .cons rfl e2⟩
      simp only [e1, Exec.ok_bind, List.flatten_cons]
    | some x =>
      obtain ⟨reply, b', f1, f2, f3⟩ := reply_spec cfg (hp l x hl) hb
      obtain ⟨replies, e1, e2⟩ := ih input' [] b' h0 (by omega)
      refine ⟨reply :: replies, ?_, .cons f3 e2⟩
      simp only [f1, e1, Exec.ok_bind, List.flatten_cons]

end Live
end Grisu
