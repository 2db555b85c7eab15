import Verif.Properties.Text

/-! # Calls with too short a buffer -/

namespace Grisu

/-- Bytes behind the buffer do not matter: what the function does on a longer buffer it does on a shorter one, unless it
leaves the shorter one.  `ap` appends to the result. -/
def Local {β : Type} (ap : β → Buffer → β) (P : Buffer → Exec β) : Prop :=
  ∀ mem extra, (∀ r, P mem = .ok r → P (mem ++ extra) = .ok (ap r extra)) ∧
    (∀ f, P mem = .fault f → f = .outOfBounds ∨ P (mem ++ extra) = .fault f)

/-- Appending to a buffer and to a buffer with other values. -/
abbrev ap0 : Buffer → Buffer → Buffer := fun m e => m ++ e
abbrev ap1 {α : Type} : Buffer × α → Buffer → Buffer × α := fun r e => (r.1 ++ e, r.2)

theorem Local.put (i : Int) (ch : Char) : Local ap0 (fun mem => put mem i ch) := by
  intro mem extra
  unfold Grisu.put
  beta_reduce
  constructor
  · intro r h
    split at h
    · rename_i hc
      cases h
      rw [if_pos ⟨hc.1, by simp; omega⟩, List.set_append_left _ _ (by omega)]
    · cases h
  · intro f h
    split at h
    · cases h
    · cases h
      exact Or.inl rfl

theorem Local.bind {β γ : Type} {ap : β → Buffer → β} {ap' : γ → Buffer → γ} {P : Buffer → Exec β}
    {Q : β → Exec γ} (hP : Local ap P)
    (hQ : ∀ r extra, (∀ s, Q r = .ok s → Q (ap r extra) = .ok (ap' s extra)) ∧
      (∀ f, Q r = .fault f → f = .outOfBounds ∨ Q (ap r extra) = .fault f)) :
    Local ap' (fun mem => P mem >>= Q) := by
  intro mem extra
  obtain ⟨p1, p2⟩ := hP mem extra
  cases h : P mem with
  | ok r =>
    beta_reduce
    rw [p1 r h, h]
    exact hQ r extra
  | fault f =>
    beta_reduce
    rw [h]
    refine ⟨fun s hs => (by cases hs), fun f' hf' => ?_⟩
    have : f' = f := by cases hf'; rfl
    subst this
    rcases p2 _ h with hb | hb
    · exact Or.inl hb
    · right
      simp only [hb]
      rfl

/-- Continuation on a buffer alone. -/
theorem Local.bind0 {γ : Type} {ap' : γ → Buffer → γ} {P : Buffer → Exec Buffer} {Q : Buffer → Exec γ} (hP : Local ap0 P)
    (hQ : Local ap' Q) : Local ap' (fun mem => P mem >>= Q) := hP.bind fun r extra => hQ r extra

/-- Continuation on a buffer and another value. -/
theorem Local.bind1 {α γ : Type} {ap' : γ → Buffer → γ} {P : Buffer → Exec (Buffer × α)} {Q : Buffer × α → Exec γ}
    (hP : Local ap1 P) (hQ : ∀ a, Local ap' (fun mem => Q (mem, a))) : Local ap' (fun mem => P mem >>= Q) :=
  hP.bind fun r extra => hQ r.2 r.1 extra

/-- A computation without the buffer first. -/
theorem Local.const {α γ : Type} {ap' : γ → Buffer → γ} {e : Exec α} {Q : Buffer → α → Exec γ}
    (hQ : ∀ a, Local ap' (fun mem => Q mem a)) : Local ap' (fun mem => e >>= fun a => Q mem a) := by
  intro mem extra
  cases e with
  | ok a => exact hQ a mem extra
  | fault f => exact ⟨fun r h => (by cases h), fun f' h => Or.inr (by cases h; rfl)⟩

theorem Local.ok0 : Local ap0 (fun mem => .ok mem) := fun mem extra =>
  ⟨fun r h => (by cases h; rfl), fun f h => (by cases h)⟩

theorem Local.ok1 {α : Type} (a : α) : Local ap1 (fun mem => .ok (mem, a)) := fun mem extra =>
  ⟨fun r h => (by cases h; rfl), fun f h => (by cases h)⟩

theorem Local.fault {γ : Type} {ap' : γ → Buffer → γ} (f : Fault) : Local ap' (fun _ => .fault f) := fun mem extra =>
  ⟨fun r h => (by cases h), fun f' h => (by cases h; exact Or.inr rfl)⟩

theorem Local.ite {γ : Type} {ap' : γ → Buffer → γ} {p : Prop} [Decidable p] {P Q : Buffer → Exec γ} (hP : Local ap' P)
    (hQ : Local ap' Q) : Local ap' (fun mem => if p then P mem else Q mem) := by
  by_cases h : p <;> simp only [h, if_true, if_false] <;> assumption

theorem Local.putList (s : List Char) : ∀ i, Local ap0 (fun mem => putList mem i s) := by
  induction s with
  | nil => exact fun i => Local.ok0
  | cons ch s ih => exact fun i => (Local.put i ch).bind0 (ih (i + 1))

theorem Local.copy2 (i : Int) (t : Nat) : Local ap0 (fun mem => copy2 mem i t) :=
  Local.const fun _ => Local.const fun _ => Local.putList _ i

theorem Local.print_high (F : Fmt) (buf : Int) (output olength : Nat) :
    Local ap1 (fun mem => print_high F mem buf output olength) := by
  cases F with
  | b32 => exact Local.ok1 _
  | b64 =>
    exact Local.ite ((Local.copy2 _ _).bind0 <| (Local.copy2 _ _).bind0 <| (Local.copy2 _ _).bind0 <|
      (Local.copy2 _ _).bind0 <| Local.ok1 _) (Local.ok1 _)

theorem Local.print_loop (buf : Int) (olength : Nat) : ∀ fuel output2 i,
    Local ap1 (fun mem => print_loop buf olength fuel mem output2 i)
  | 0, _, _ => Local.fault _
  | fuel + 1, _, _ => Local.ite ((Local.copy2 _ _).bind0 <| (Local.copy2 _ _).bind0 <|
      Local.print_loop buf olength fuel _ _) (Local.ok1 _)

theorem Local.print_rest (buf : Int) (olength output2 i : Nat) :
    Local ap0 (fun mem => print_rest mem buf olength output2 i) := by
  refine Local.bind1 (Local.ite ((Local.copy2 _ _).bind0 <| Local.ok1 _) (Local.ok1 _)) fun a => ?_
  exact Local.ite (Local.const fun _ => (Local.put _ _).bind0 <| Local.const fun _ => Local.put _ _) (Local.put _ _)

theorem Local.print_exponent (F : Fmt) (buf : Int) (exp : Nat) :
    Local ap1 (fun mem => print_exponent F mem buf exp) := by
  cases F with
  | b32 => exact Local.ite ((Local.copy2 _ _).bind0 <| Local.ok1 _) ((Local.put _ _).bind0 <| Local.ok1 _)
  | b64 =>
    exact Local.ite ((Local.copy2 _ _).bind0 <| (Local.put _ _).bind0 <| Local.ok1 _)
      (Local.ite ((Local.copy2 _ _).bind0 <| Local.ok1 _) ((Local.put _ _).bind0 <| Local.ok1 _))

theorem Local.fp_to_chars_impl (cfg : Cfg) (F : Fmt) (significand : Nat) (exponent buf : Int) :
    Local ap1 (fun mem => fp_to_chars_impl cfg F significand exponent mem buf) := by
  refine Local.const fun olength => ?_
  refine (Local.print_high F buf significand olength).bind1 fun a => ?_
  refine (Local.print_loop buf olength 4 _ a.2).bind1 fun b => ?_
  refine (Local.print_rest buf olength b.1 b.2).bind0 ?_
  refine Local.bind1 (Local.ite ((Local.put _ _).bind0 <| Local.ok1 _) (Local.ok1 _)) fun c => ?_
  refine (Local.put c 'E').bind0 ?_
  exact Local.ite ((Local.put _ _).bind0 <| Local.print_exponent F _ _) (Local.print_exponent F _ _)

theorem Local.put_sign (negative : Bool) : Local ap1 (fun mem => put_sign mem negative) :=
  Local.ite ((Local.put _ _).bind0 <| Local.ok1 _) (Local.ok1 _)

theorem Local.fp_to_chars_n (cfg : Cfg) (F : Fmt) (x : Nat) (mode : RoundingMode) (crs : Crs) :
    Local ap1 (fun mem => fp_to_chars_n cfg F x mem mode crs) := by
  refine Local.ite ((Local.put_sign _).bind1 fun a => ?_) (Local.ite ((Local.putList _ _).bind0 <| Local.ok1 _)
    ((Local.put_sign _).bind1 fun a => (Local.putList _ _).bind0 <| Local.ok1 _))
  exact Local.ite (Local.const fun v => Local.fp_to_chars_impl cfg F _ _ a) ((Local.putList _ _).bind0 <| Local.ok1 _)

theorem Local.fp_to_chars (cfg : Cfg) (F : Fmt) (x : Nat) (mode : RoundingMode) (crs : Crs) :
    Local ap1 (fun mem => fp_to_chars cfg F x mem mode crs) :=
  (Local.fp_to_chars_n cfg F x mode crs).bind1 fun a => (Local.put a _).bind0 <| Local.ok1 _

/-- A function that writes `text` to the start of every buffer long enough leaves a shorter one. -/
theorem Local.short {α : Type} {P : Buffer → Exec (Buffer × α)} (hP : Local ap1 P) {text : List Char} {a : α}
    (h : ∀ mem : Buffer, text.length ≤ mem.length → P mem = .ok (text.map some ++ mem.drop text.length, a)) (mem : Buffer)
    (hm : mem.length < text.length) : P mem = .fault .outOfBounds := by
  have hx := h (mem ++ List.replicate (text.length - mem.length) none) (by simp; omega)
  rw [List.drop_eq_nil_of_le (by simp; omega), List.append_nil] at hx
  obtain ⟨p1, p2⟩ := hP mem (List.replicate (text.length - mem.length) none)
  cases hr : P mem with
  | ok r =>
    have h1 := p1 r hr
    rw [hx] at h1
    simp only [Exec.ok.injEq, Prod.mk.injEq] at h1
    have h2 : (none : Option Char) ∈ r.1 ++ List.replicate (text.length - mem.length) none := by
      simp
      omega
    rw [← h1.1] at h2
    simp at h2
  | fault f =>
    rcases p2 f hr with h1 | h1
    · rw [h1]
    · rw [hx] at h1
      cases h1

end Grisu
