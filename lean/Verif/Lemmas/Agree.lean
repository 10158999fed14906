import Verif.Model.Packet
import Verif.Model.Dnssec

/-
Two runs of the code in different builds: the second run has the outcome of the first one (with the
value mapped by `f`), unless the first run fails in a way that is excused.
-/

namespace Dns

/-- The value of an outcome mapped by `f`. -/
def Res.mapValue {α β : Type} (f : α → β) : Res α → Res β
  | .ok a => .ok (f a)
  | .err e => .err e
  | .panic k => .panic k
  | .hang => .hang

@[simp] theorem Res.mapValue_id {α : Type} (r : Res α) : r.mapValue id = r := by cases r <;> rfl

/-- The excused failures: errors with `e` and panics with `p`. -/
def Res.Excused {α : Type} (e : DnsError → Prop) (p : PanicKind → Prop) : Res α → Prop
  | .ok _ => False
  | .err x => e x
  | .panic k => p k
  | .hang => False

/-- Agreement of outcomes. -/
def Res.Agree {α β : Type} (e : DnsError → Prop) (p : PanicKind → Prop) (f : α → β) (r : Res α) (r' : Res β) : Prop :=
  r.Excused e p ∨ r' = r.mapValue f

/-- Agreement of parsers. -/
def Parser.Agree {α β : Type} (e : DnsError → Prop) (p : PanicKind → Prop) (f : α → β) (x : Parser α)
    (y : Parser β) : Prop :=
  ∀ d i, (x d i).1.Excused e p ∨ y d i = ((x d i).1.mapValue f, (x d i).2)

section
variable {α β γ δ : Type} {e : DnsError → Prop} {p : PanicKind → Prop}

theorem Res.Agree.refl (r : Res α) : Res.Agree e p id r r := .inr (by simp)

theorem Res.Agree.bind {f : α → β} {g : γ → δ} {r : Res α} {r' : Res β} {k : α → Res γ} {k' : β → Res δ}
    (h : Res.Agree e p f r r') (hk : ∀ a, r = .ok a → Res.Agree e p g (k a) (k' (f a))) :
    Res.Agree e p g (r >>= k) (r' >>= k') := by
  rcases h with h | h
  · left
    cases r with
    | ok a => exact h.elim
    | err x => exact h
    | panic x => exact h
    | hang => exact h
  · subst h
    cases r with
    | ok a => exact hk a rfl
    | err x => exact .inr rfl
    | panic x => exact .inr rfl
    | hang => exact .inr rfl

theorem Res.Agree.pure {f : α → β} (a : α) : Res.Agree e p f (Pure.pure a) (Pure.pure (f a)) := .inr rfl

theorem Parser.Agree.refl (x : Parser α) : Parser.Agree e p id x x := fun d i => .inr (by simp)

theorem Parser.Agree.bind {f : α → β} {g : γ → δ} {x : Parser α} {y : Parser β} {k : α → Parser γ}
    {k' : β → Parser δ} (h : Parser.Agree e p f x y) (hk : ∀ a, Parser.Agree e p g (k a) (k' (f a))) :
    Parser.Agree e p g (x >>= k) (y >>= k') := by
  intro d i
  show (Parser.bind x k d i).1.Excused e p ∨
    Parser.bind y k' d i = ((Parser.bind x k d i).1.mapValue g, (Parser.bind x k d i).2)
  have h := h d i
  rcases hx : x d i with ⟨r, j⟩
  rw [hx] at h
  rcases h with h | h
  · left
    cases r with
    | ok a => exact h.elim
    | err _ => simpa [Parser.bind, hx, Res.Excused] using h
    | panic _ => simpa [Parser.bind, hx, Res.Excused] using h
    | hang => exact h.elim
  · cases r with
    | ok a => simpa [Parser.bind, hx, h, Res.mapValue] using hk a d j
    | err _ => right; simp [Parser.bind, hx, h, Res.mapValue]
    | panic _ => right; simp [Parser.bind, hx, h, Res.mapValue]
    | hang => right; simp [Parser.bind, hx, h, Res.mapValue]

theorem Parser.Agree.bind_same {g : γ → δ} {x : Parser α} {k : α → Parser γ} {k' : α → Parser δ}
    (hk : ∀ a, Parser.Agree e p g (k a) (k' a)) : Parser.Agree e p g (x >>= k) (x >>= k') :=
  (Parser.Agree.refl x).bind hk

theorem Parser.Agree.pure {f : α → β} (a : α) :
    Parser.Agree e p f (Pure.pure a : Parser α) (Pure.pure (f a) : Parser β) := fun _ _ => .inr rfl

theorem Parser.Agree.lift {f : α → β} {r : Res α} {r' : Res β} (h : Res.Agree e p f r r') :
    Parser.Agree e p f (Parser.lift r) (Parser.lift r') := by
  intro d i
  rcases h with h | h
  · exact .inl h
  · exact .inr (by simp [Parser.lift, h])

theorem Parser.Agree.times {f : α → β} {x : Parser α} {y : Parser β} (h : Parser.Agree e p f x y) :
    ∀ n, Parser.Agree e p (List.map f) (Parser.times n x) (Parser.times n y)
  | 0 => fun _ _ => .inr rfl
  | n + 1 => h.bind fun a => (Parser.Agree.times h n).bind fun as => Parser.Agree.pure (a :: as)

theorem Parser.Agree.whileFuel {σ : Type} {b b' : σ → Parser σ} (h : ∀ s, Parser.Agree e p id (b s) (b' s)) :
    ∀ fuel s, Parser.Agree e p id (Buf.whileRemainingFuel b fuel s) (Buf.whileRemainingFuel b' fuel s)
  | 0, s => Parser.Agree.refl _
  | fuel + 1, s => by
    rw [Buf.whileRemainingFuel, Buf.whileRemainingFuel]
    refine Parser.Agree.bind_same fun r => ?_
    split
    · exact (h s).bind fun s' => Parser.Agree.whileFuel h fuel s'
    · exact Parser.Agree.refl _

theorem Parser.Agree.while {σ : Type} {b b' : σ → Parser σ} (s : σ)
    (h : ∀ s, Parser.Agree e p id (b s) (b' s)) :
    Parser.Agree e p id (Buf.whileRemaining s b) (Buf.whileRemaining s b') :=
  fun d i => Parser.Agree.whileFuel h (d.length + 1) s d i

theorem Parser.Agree.sub {f : α → β} {x : Parser α} {y : Parser β} (n : Nat) (h : Parser.Agree e p f x y) :
    Parser.Agree e p (fun a : α × Nat => (f a.1, a.2)) (Buf.withSubBuffer n x) (Buf.withSubBuffer n y) := by
  intro d i
  unfold Buf.withSubBuffer
  split
  · exact .inr rfl
  · have h := h (d.take (n + i)) i
    rcases hx : x (d.take (n + i)) i with ⟨r, j⟩
    rw [hx] at h
    rcases h with h | h
    · left
      cases r with
      | ok a => exact h.elim
      | err _ => exact h
      | panic _ => exact h
      | hang => exact h
    · right
      rw [h]
      cases r <;> rfl

end
end Dns
