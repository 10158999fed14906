import Verif.Lemmas.Items

/-! Loops `while buffer.remaining() > 0 { .. }`. -/

namespace Dns
open Spec Buf

variable {σ τ : Type}

/-- A terminating successful run of the loop. -/
inductive Loop (body : σ → Parser σ) (d : Bytes) : σ → Nat → σ → Nat → Prop
  | done {s} : Loop body d s d.length s d.length
  | step {s i s' k s'' j} : i < d.length → body s d i = (.ok s', k) → Loop body d s' k s'' j →
      Loop body d s i s'' j

theorem whileRemainingFuel_succ (body : σ → Parser σ) (fuel : Nat) (s : σ) (d : Bytes) (i : Nat) :
    whileRemainingFuel body (fuel + 1) s d i =
      if i ≤ d.length then
        if i < d.length then
          (body s >>= fun s' => whileRemainingFuel body fuel s') d i
        else (.ok s, i)
      else (.panic .overflow, i) := by
  rw [whileRemainingFuel, Parser.bind_apply]
  unfold remaining
  by_cases h : i ≤ d.length
  · rw [if_pos h, if_pos h]
    dsimp only
    by_cases h2 : i < d.length
    · rw [if_pos h2, if_pos (by omega)]
    · rw [if_neg h2, if_neg (by omega), Parser.pure_apply]
  · rw [if_neg h, if_neg h]

theorem loop_of_fuel {body : σ → Parser σ} {d : Bytes} : ∀ (fuel : Nat) (s s' : σ) (i j : Nat),
    whileRemainingFuel body fuel s d i = (.ok s', j) → Loop body d s i s' j := by
  intro fuel
  induction fuel with
  | zero => intro s s' i j h; simp [whileRemainingFuel, Parser.lift] at h
  | succ fuel ih =>
    intro s s' i j h
    rw [whileRemainingFuel_succ] at h
    split at h
    · split at h
      · rename_i h2
        obtain ⟨s1, k, h3, h4⟩ := Parser.bind_ok.mp h
        exact .step h2 h3 (ih _ _ _ _ h4)
      · simp only [Prod.mk.injEq, Res.ok.injEq] at h
        obtain ⟨rfl, rfl⟩ := h
        obtain rfl : i = d.length := by omega
        exact .done
    · simp at h

theorem fuel_of_loop {body : σ → Parser σ} {d : Bytes}
    (hadv : ∀ s i s' k, body s d i = (.ok s', k) → i < k) {s s' : σ} {i j : Nat}
    (h : Loop body d s i s' j) : ∀ fuel, d.length < fuel + i →
      whileRemainingFuel body fuel s d i = (.ok s', j) := by
  induction h with
  | done =>
    intro fuel hf
    obtain ⟨fuel, rfl⟩ : ∃ f, fuel = f + 1 := ⟨fuel - 1, by omega⟩
    rw [whileRemainingFuel_succ]
    simp
  | step h1 h2 _ ih =>
    intro fuel hf
    obtain ⟨fuel, rfl⟩ : ∃ f, fuel = f + 1 := ⟨fuel - 1, by omega⟩
    rw [whileRemainingFuel_succ, if_pos (by omega), if_pos h1, Parser.bind_ok]
    have := hadv _ _ _ _ h2
    exact ⟨_, _, h2, ih fuel (by omega)⟩

theorem whileRemaining_ok {body : σ → Parser σ} {d : Bytes}
    (hadv : ∀ s i s' k, body s d i = (.ok s', k) → i < k) {s s' : σ} {i j : Nat} :
    whileRemaining s body d i = (.ok s', j) ↔ Loop body d s i s' j := by
  unfold whileRemaining
  constructor
  · exact loop_of_fuel _ _ _ _ _
  · intro h; exact fuel_of_loop hadv h _ (by omega)

/-- `p` succeeds again and again, from `i` up to `j`, with the results `xs`. -/
def Seq (p : Parser τ) (d : Bytes) : Nat → List τ → Nat → Prop
  | i, [], j => i = j
  | i, x :: xs, j => ∃ k, p d i = (.ok x, k) ∧ Seq p d k xs j

/-- Fold with a partial function. -/
def foldRes (g : σ → τ → Res σ) : σ → List τ → Res σ
  | s, [] => .ok s
  | s, x :: xs => g s x >>= fun s' => foldRes g s' xs

theorem foldRes_ok {g : σ → τ → Res σ} {f : σ → τ → σ} (h : ∀ s x, g s x = .ok (f s x)) (s : σ)
    (xs : List τ) : foldRes g s xs = .ok (xs.foldl f s) := by
  induction xs generalizing s with
  | nil => rfl
  | cons x xs ih => simp [foldRes, h, ih]

theorem loop_seq {p : Parser τ} {g : σ → τ → Res σ} {d : Bytes}
    (hadv : ∀ i x k, p d i = (.ok x, k) → i < k ∧ k ≤ d.length) {s s' : σ} {i j : Nat} :
    Loop (fun acc => p >>= fun x => Parser.lift (g acc x)) d s i s' j ↔
      ∃ xs, Seq p d i xs j ∧ j = d.length ∧ foldRes g s xs = .ok s' := by
  constructor
  · intro h
    induction h with
    | done => exact ⟨[], rfl, rfl, rfl⟩
    | step h1 h2 _ ih =>
      obtain ⟨xs, h4, h5, h6⟩ := ih
      obtain ⟨x, k, h7, h8⟩ := Parser.bind_ok.mp h2
      obtain ⟨h9, rfl⟩ := Parser.lift_ok.mp h8
      exact ⟨x :: xs, ⟨_, h7, h4⟩, h5, by simp [foldRes, h9, h6]⟩
  · rintro ⟨xs, h1, rfl, h2⟩
    induction xs generalizing s i with
    | nil =>
      cases h1
      simp only [foldRes, Res.ok.injEq] at h2
      subst h2
      exact .done
    | cons x xs ih =>
      obtain ⟨k, h3, h4⟩ := h1
      simp only [foldRes, Res.bind_eq_ok] at h2
      obtain ⟨s1, h5, h6⟩ := h2
      have := hadv _ _ _ h3
      exact .step (by omega) (Parser.bind_ok.mpr ⟨x, k, h3, Parser.lift_ok.mpr ⟨h5, rfl⟩⟩) (ih h6 h4)

/-- A loop that reads elements with `p` and folds them with `g`. -/
theorem whileRemaining_seq {p : Parser τ} {g : σ → τ → Res σ} {body : σ → Parser σ} {d : Bytes}
    (hb : ∀ acc, body acc = p >>= fun x => Parser.lift (g acc x))
    (hadv : ∀ i x k, p d i = (.ok x, k) → i < k ∧ k ≤ d.length) {s s' : σ} {i j : Nat} :
    whileRemaining s body d i = (.ok s', j) ↔
      ∃ xs, Seq p d i xs j ∧ j = d.length ∧ foldRes g s xs = .ok s' := by
  obtain rfl : body = fun acc => p >>= fun x => Parser.lift (g acc x) := funext hb
  rw [whileRemaining_ok, loop_seq hadv]
  intro s i s' k h
  obtain ⟨x, m, h1, h2⟩ := Parser.bind_ok.mp h
  obtain ⟨-, rfl⟩ := Parser.lift_ok.mp h2
  exact (hadv _ _ _ h1).1

theorem seq_items {p : Parser τ} {d : Bytes} {N : NameRel} {its : τ → List Item}
    (h : ∀ i x k, p d i = (.ok x, k) ↔ Items.At N d i (its x) k) {xs : List τ} {i j : Nat} :
    Seq p d i xs j ↔ Items.At N d i (xs.flatMap its) j := by
  induction xs generalizing i with
  | nil => rfl
  | cons x xs ih =>
    rw [List.flatMap_cons, itemsAt_append]
    simp only [Seq, h, ih]

theorem seq_times {p : Parser τ} {d : Bytes} {n i j : Nat} {xs : List τ} :
    Parser.times n p d i = (.ok xs, j) ↔ xs.length = n ∧ Seq p d i xs j := by
  induction n generalizing i j xs with
  | zero =>
    show (pure [] : Parser (List τ)) d i = _ ↔ _
    rw [Parser.pure_ok]
    constructor
    · rintro ⟨rfl, rfl⟩; exact ⟨rfl, rfl⟩
    · rintro ⟨h1, h2⟩
      obtain rfl := List.length_eq_zero_iff.mp h1
      exact ⟨rfl, h2⟩
  | succ n ih =>
    simp only [Parser.times, Parser.bind_ok, Parser.pure_ok, ih]
    constructor
    · rintro ⟨a, k, h1, as, m, ⟨h2, h3⟩, rfl, rfl⟩
      exact ⟨by simp [h2], k, h1, h3⟩
    · rintro ⟨h1, h2⟩
      cases xs with
      | nil => simp at h1
      | cons x xs =>
        obtain ⟨k, h3, h4⟩ := h2
        exact ⟨x, k, h3, xs, j, ⟨by simpa using h1, h4⟩, rfl, rfl⟩

end Dns
