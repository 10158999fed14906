import Verif.Lemmas.PacketParse
import Verif.Lemmas.NameRead
import Verif.Lemmas.Bounded
import Verif.Lemmas.SvcbRead

/-! Where parsers panic and where they do not return. -/

namespace Dns
open Spec Buf

variable {α β σ τ : Type}

/-- The outcomes of a call that does not return: a panic, or (`none`) an endless loop. -/
def bad : Option PanicKind → Res α
  | some k => .panic k
  | none => .hang

/-- The parser does not return. -/
def Fails (p : Parser α) (d : Bytes) (i : Nat) (x : Option PanicKind) : Prop := (p d i).1 = bad x

theorem bad_ne_ok {x : Option PanicKind} {a : α} : (Res.ok a : Res α) ≠ bad x := by cases x <;> simp [bad]
theorem bad_ne_err {x : Option PanicKind} {e : DnsError} : (Res.err e : Res α) ≠ bad x := by
  cases x <;> simp [bad]

theorem Fails.bind_iff {p : Parser α} {f : α → Parser β} {d : Bytes} {i : Nat} {x : Option PanicKind} :
    Fails (p >>= f) d i x ↔ Fails p d i x ∨ ∃ a j, p d i = (.ok a, j) ∧ Fails (f a) d j x := by
  unfold Fails
  rw [Parser.bind_apply]
  rcases hp : p d i with ⟨r, j⟩
  cases r with
  | ok a =>
    dsimp only
    constructor
    · intro h; exact Or.inr ⟨a, j, rfl, h⟩
    · rintro (h | ⟨a', j', h1, h2⟩)
      · exact absurd h bad_ne_ok
      · cases h1; exact h2
  | err e => simp [bad_ne_err]
  | panic k => cases x <;> simp [bad]
  | hang => cases x <;> simp [bad]

theorem Fails.lift_iff {r : Res α} {d : Bytes} {i : Nat} {x : Option PanicKind} :
    Fails (Parser.lift r) d i x ↔ r = bad x := Iff.rfl

theorem Fails.pure_iff {a : α} {d : Bytes} {i : Nat} {x : Option PanicKind} :
    Fails (pure a) d i x ↔ False := by simp [Fails, Parser.pure_apply, bad_ne_ok]

theorem Fails.extractBytes_iff {n : Nat} {d : Bytes} {i : Nat} {x : Option PanicKind} :
    Fails (extractBytes n) d i x ↔ False := by
  unfold Fails extractBytes; split <;> simp [bad_ne_ok, bad_ne_err]

theorem Fails.advance_iff {n : Nat} {d : Bytes} {i : Nat} {x : Option PanicKind} :
    Fails (advance n) d i x ↔ False := by
  unfold Fails advance; split <;> simp [bad_ne_ok, bad_ne_err]

theorem Fails.extractU8_iff {d : Bytes} {i : Nat} {x : Option PanicKind} :
    Fails extractU8 d i x ↔ False := by
  simp only [extractU8, bind_iff, pure_iff, extractBytes_iff, and_false, exists_false, or_false]
theorem Fails.extractU16_iff {d : Bytes} {i : Nat} {x : Option PanicKind} :
    Fails extractU16 d i x ↔ False := by
  simp only [extractU16, bind_iff, pure_iff, extractBytes_iff, and_false, exists_false, or_false]
theorem Fails.extractU32_iff {d : Bytes} {i : Nat} {x : Option PanicKind} :
    Fails extractU32 d i x ↔ False := by
  simp only [extractU32, bind_iff, pure_iff, extractBytes_iff, and_false, exists_false, or_false]
theorem Fails.extractCharacterString_iff {d : Bytes} {i : Nat} {x : Option PanicKind} :
    Fails extractCharacterString d i x ↔ False := by
  simp [extractCharacterString, bind_iff, extractU8_iff, extractBytes_iff]
theorem Fails.extractString_iff {d : Bytes} {i : Nat} {x : Option PanicKind} :
    Fails extractString d i x ↔ False := by
  simp only [extractString, bind_iff, extractCharacterString_iff, false_or, iff_false]
  rintro ⟨a, j, -, h⟩
  unfold Fails at h
  split at h
  · exact bad_ne_ok h
  · exact bad_ne_err h

theorem Fails.withSubBuffer_iff {n : Nat} {p : Parser α} {d : Bytes} {i : Nat} {x : Option PanicKind} :
    Fails (withSubBuffer n p) d i x ↔ n + i ≤ d.length ∧ Fails p (d.take (n + i)) i x := by
  unfold Fails withSubBuffer
  split
  · simp [bad_ne_err]; omega
  · rcases p (List.take (n + i) d) i with ⟨r, j⟩
    cases r with
    | ok a => simp [bad_ne_ok]
    | err e => simp [bad_ne_err]
    | panic k => cases x <;> simp [bad]; omega
    | hang => cases x <;> simp [bad]; omega

/-- `p` fails at one of its first `n` runs. -/
theorem Fails.times_iff {p : Parser α} {n : Nat} {d : Bytes} {i : Nat} {x : Option PanicKind} :
    Fails (Parser.times n p) d i x ↔ ∃ xs k, xs.length < n ∧ Seq p d i xs k ∧ Fails p d k x := by
  induction n generalizing i with
  | zero =>
    simp only [Nat.not_lt_zero, false_and, exists_false, iff_false]
    exact bad_ne_ok
  | succ n ih =>
    simp only [Parser.times, bind_iff, ih, pure_iff, and_false, exists_false, or_false]
    constructor
    · rintro (h | ⟨a, j, h1, xs, k, h2, h3, h4⟩)
      · exact ⟨[], i, by simp, rfl, h⟩
      · exact ⟨a :: xs, k, by simpa using h2, ⟨j, h1, h3⟩, h4⟩
    · rintro ⟨xs, k, h2, h3, h4⟩
      cases xs with
      | nil => cases h3; exact Or.inl h4
      | cons a xs =>
        obtain ⟨j, h1, h3⟩ := h3
        exact Or.inr ⟨a, j, h1, xs, k, by simpa using h2, h3, h4⟩

theorem seq_append {p : Parser α} {d : Bytes} {xs ys : List α} {i j : Nat} :
    Seq p d i (xs ++ ys) j ↔ ∃ k, Seq p d i xs k ∧ Seq p d k ys j := by
  induction xs generalizing i with
  | nil => simp [Seq]
  | cons x xs ih =>
    simp only [List.cons_append, Seq, ih]
    constructor
    · rintro ⟨k, h1, m, h2, h3⟩; exact ⟨m, ⟨k, h1, h2⟩, h3⟩
    · rintro ⟨m, ⟨k, h1, h2⟩, h3⟩; exact ⟨k, h1, m, h2, h3⟩

/-! ### Parsers that return, but for the failures in `P` -/

/-- Started inside the data, the parser stays inside the data and can only fail in the ways `P`. -/
def Calm (P : Option PanicKind → Prop) (p : Parser α) : Prop :=
  ∀ d i, i ≤ d.length → (p d i).2 ≤ d.length ∧ ∀ x, Fails p d i x → P x

/-- The function returns `Ok` or `Err`. -/
def Calmly (P : Option PanicKind → Prop) (r : Res α) : Prop := ∀ x, r = bad x → P x

/-- The parser does not move backwards. -/
def Forward (p : Parser α) : Prop := ∀ d i a j, p d i = (.ok a, j) → i ≤ j

namespace Calm
variable {P : Option PanicKind → Prop}

theorem pure (a : α) : Calm P (pure a : Parser α) := fun _ _ h => ⟨h, fun _ h => absurd h bad_ne_ok⟩
theorem lift {r : Res α} (hr : Calmly P r) : Calm P (Parser.lift r) := fun _ _ h => ⟨h, hr⟩
theorem fail (e : DnsError) : Calm P (Parser.fail e : Parser α) :=
  fun _ _ h => ⟨h, fun _ h => absurd h bad_ne_err⟩

theorem bind {p : Parser α} {f : α → Parser β} (hp : Calm P p) (hf : ∀ a, Calm P (f a)) :
    Calm P (p >>= f) := by
  intro d i hi
  constructor
  · exact Bounded.bind (fun d i h => (hp d i h).1) (fun a d i h => (hf a d i h).1) d i hi
  · intro x h
    rcases Fails.bind_iff.mp h with h | ⟨a, j, h1, h2⟩
    · exact (hp d i hi).2 x h
    · have := (hp d i hi).1
      rw [h1] at this
      exact (hf a d j this).2 x h2

theorem ite {c : Prop} [Decidable c] {p q : Parser α} (hp : Calm P p) (hq : Calm P q) :
    Calm P (if c then p else q) := by
  split <;> assumption

theorem remaining : Calm P remaining := by
  intro d i h
  refine ⟨Bounded.remaining d i h, ?_⟩
  intro x hx
  unfold Fails Buf.remaining at hx
  rw [if_pos h] at hx
  exact absurd hx bad_ne_ok

theorem extractBytes (n : Nat) : Calm P (extractBytes n) :=
  fun d i h => ⟨Bounded.extractBytes n d i h, fun _ h => (Fails.extractBytes_iff.mp h).elim⟩

theorem setPosition (n : Nat) : Calm P (setPosition n) := by
  intro d i h
  refine ⟨Bounded.setPosition n d i h, ?_⟩
  intro x hx
  unfold Fails Buf.setPosition at hx
  split at hx
  · exact absurd hx bad_ne_err
  · exact absurd hx bad_ne_ok

theorem withSubBuffer {n : Nat} {p : Parser α} (hp : Calm P p) : Calm P (withSubBuffer n p) := by
  intro d i h
  refine ⟨Bounded.withSubBuffer n p d i h, ?_⟩
  intro x hx
  obtain ⟨h1, h2⟩ := Fails.withSubBuffer_iff.mp hx
  refine (hp _ _ ?_).2 x h2
  simp; omega

theorem dataLen : Calm P Param.dataLen := fun _ _ h => ⟨h, fun _ h => absurd h bad_ne_ok⟩

theorem extractU8 : Calm P extractU8 := bind (extractBytes _) fun _ => pure _
theorem extractU16 : Calm P extractU16 := bind (extractBytes _) fun _ => pure _
theorem extractU32 : Calm P extractU32 := bind (extractBytes _) fun _ => pure _
theorem extractU128 : Calm P extractU128 := bind (extractBytes _) fun _ => pure _
theorem extractRest : Calm P extractRest := bind remaining fun _ => extractBytes _
theorem extractCharacterString : Calm P extractCharacterString :=
  bind extractU8 fun _ => extractBytes _
theorem extractString : Calm P extractString :=
  bind extractCharacterString fun _ => ite (pure _) (fail _)

end Calm

/-- A successful beginning of the loop. -/
inductive Steps (body : σ → Parser σ) (d : Bytes) : σ → Nat → σ → Nat → Prop
  | done {s i} : Steps body d s i s i
  | step {s i s' k s'' j} : i < d.length → body s d i = (.ok s', k) → Steps body d s' k s'' j →
      Steps body d s i s'' j

theorem Fails.whileFuel {body : σ → Parser σ} {d : Bytes}
    (hadv : ∀ s i s' k, i ≤ d.length → body s d i = (.ok s', k) → i < k ∧ k ≤ d.length)
    {x : Option PanicKind} : ∀ (fuel : Nat) (s : σ) (i : Nat), i ≤ d.length → d.length < fuel + i →
      (Fails (whileRemainingFuel body fuel s) d i x ↔
        ∃ s' k, Steps body d s i s' k ∧ k < d.length ∧ Fails (body s') d k x) := by
  intro fuel
  induction fuel with
  | zero => intro s i h1 h2; omega
  | succ fuel ih =>
    intro s i h1 h2
    have e : Fails (whileRemainingFuel body (fuel + 1) s) d i x ↔
        i < d.length ∧ Fails (body s >>= fun s' => whileRemainingFuel body fuel s') d i x := by
      unfold Fails
      rw [whileRemainingFuel_succ, if_pos h1]
      split
      · simp [*]
      · simp [bad_ne_ok, *]
    rw [e, bind_iff]
    constructor
    · rintro ⟨h3, h | ⟨s1, j, h4, h5⟩⟩
      · exact ⟨s, i, .done, h3, h⟩
      · have := hadv _ _ _ _ h1 h4
        obtain ⟨s', k, h6, h7, h8⟩ := (ih s1 j this.2 (by omega)).mp h5
        exact ⟨s', k, .step h3 h4 h6, h7, h8⟩
    · rintro ⟨s', k, h3, h4, h5⟩
      cases h3 with
      | done => exact ⟨h4, Or.inl h5⟩
      | step h6 h7 h8 =>
        have := hadv _ _ _ _ h1 h7
        exact ⟨h6, Or.inr ⟨_, _, h7, (ih _ _ this.2 (by omega)).mpr ⟨s', k, h8, h4, h5⟩⟩⟩

theorem Fails.while_iff {body : σ → Parser σ} {d : Bytes}
    (hadv : ∀ s i s' k, i ≤ d.length → body s d i = (.ok s', k) → i < k ∧ k ≤ d.length)
    {x : Option PanicKind} {s : σ} {i : Nat} (hi : i ≤ d.length) :
      (Fails (whileRemaining s body) d i x ↔
        ∃ s' k, Steps body d s i s' k ∧ k < d.length ∧ Fails (body s') d k x) :=
  Fails.whileFuel hadv _ _ _ hi (by omega)

theorem Calm.whileRemaining {P : Option PanicKind → Prop} {s : σ} {body : σ → Parser σ}
    (h : ∀ s, Calm P (body s)) (hadv : ∀ s d i s' k, body s d i = (.ok s', k) → i < k) :
    Calm P (whileRemaining s body) := by
  intro d i hi
  refine ⟨Bounded.whileRemaining (fun s d i hi => (h s d i hi).1) d i hi, ?_⟩
  intro x hx
  have hadv' : ∀ s i s' k, i ≤ d.length → body s d i = (.ok s', k) → i < k ∧ k ≤ d.length := by
    intro s i s' k h1 h2
    refine ⟨hadv _ _ _ _ _ h2, ?_⟩
    have := (h s d i h1).1
    rwa [h2] at this
  obtain ⟨s', k, h1, h2, h3⟩ := (Fails.while_iff hadv' hi).mp hx
  exact (h s' d k (by omega)).2 x h3

/-- Closes `Calm` goals of parsers composed from the primitives without names. -/
macro "calm" : tactic => `(tactic|
  repeat' first
    | assumption
    | with_reducible exact Calm.pure _ | with_reducible exact Calm.fail _
    | with_reducible exact Calm.extractU8 | with_reducible exact Calm.extractU16 | with_reducible exact Calm.extractU32
    | with_reducible exact Calm.extractU128 | with_reducible exact Calm.extractRest | with_reducible exact Calm.extractBytes _
    | with_reducible exact Calm.extractCharacterString | with_reducible exact Calm.extractString
    | with_reducible exact Calm.remaining | with_reducible exact Calm.setPosition _ | with_reducible exact Calm.dataLen
    | with_reducible refine Calm.withSubBuffer ?_
    | with_reducible refine Calm.lift ?_
    | with_reducible refine Calm.ite ?_ ?_
    | with_reducible refine Calm.bind ?_ (fun _ => ?_)
    | split)

end Dns
