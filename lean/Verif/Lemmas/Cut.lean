import Verif.Lemmas.Bounded

/-! What the readers do when the data are cut off. -/

namespace Dns
open Spec Buf

variable {α β : Type}

/-- What is read from the whole data is read from the data up to `k`, or it is an error of length, or an index out of
bounds. -/
def CutWell (p : Parser α) : Prop := ∀ d i a j, p d i = (.ok a, j) → ∀ k, i ≤ k → k ≤ d.length →
  (p (d.take k) i = (.ok a, j) ∧ j ≤ k) ∨ (p (d.take k) i).1 = .err .lengthViolation ∨
    (p (d.take k) i).1 = .panic .index

namespace CutWell

theorem pure (a : α) : CutWell (pure a : Parser α) := by
  intro d i b j h k hk _
  obtain ⟨rfl, rfl⟩ := Parser.pure_ok.mp h
  exact .inl ⟨rfl, hk⟩

theorem lift (r : Res α) : CutWell (Parser.lift r) := by
  intro d i b j h k hk _
  obtain ⟨rfl, rfl⟩ := Parser.lift_ok.mp h
  exact .inl ⟨rfl, hk⟩

theorem bind {p : Parser α} {f : α → Parser β} (hp : CutWell p) (hf : ∀ a, CutWell (f a)) : CutWell (p >>= f) := by
  intro d i b j h k hi hk
  obtain ⟨a, m, h1, h2⟩ := Parser.bind_ok.mp h
  rcases hp d i a m h1 k hi hk with ⟨h3, h4⟩ | h3
  · rw [Parser.bind_apply, h3]
    exact hf a d m b j h2 k h4 hk
  · right
    rw [Parser.bind_apply]
    rcases hq : p (d.take k) i with ⟨r, l⟩
    rw [hq] at h3
    rcases h3 with h3 | h3 <;> simp only at h3 <;> subst h3
    · exact .inl rfl
    · exact .inr rfl

theorem ite {c : Prop} [Decidable c] {p q : Parser α} (hp : CutWell p) (hq : CutWell q) :
    CutWell (if c then p else q) := by
  split <;> assumption

theorem extractBytes (n : Nat) : CutWell (extractBytes n) := by
  intro d i b j h k hi hk
  unfold Buf.extractBytes at h ⊢
  split at h
  · cases h
  · cases h
    by_cases hc : i + n ≤ k
    · left
      rw [if_neg (by simp; omega)]
      refine ⟨?_, by omega⟩
      rw [List.drop_take, List.take_take, Nat.min_eq_left (by omega)]
    · right; left
      rw [if_pos (by simp; omega)]

theorem advance (n : Nat) : CutWell (advance n) := by
  intro d i b j h k hi hk
  unfold Buf.advance at h ⊢
  split at h
  · cases h
  · cases h
    by_cases hc : n + i ≤ k
    · left
      rw [if_neg (by simp; omega)]
      exact ⟨rfl, hc⟩
    · right; left
      rw [if_pos (by simp; omega)]

theorem withSubBuffer (n : Nat) (p : Parser α) : CutWell (withSubBuffer n p) := by
  intro d i b j h k hi hk
  unfold Buf.withSubBuffer at h ⊢
  split at h
  · cases h
  · by_cases hc : n + i ≤ k
    · left
      rw [if_neg (by simp; omega), List.take_take, Nat.min_eq_left hc]
      refine ⟨h, ?_⟩
      split at h <;> cases h
      exact hi
    · right; left
      rw [if_pos (by simp; omega)]

theorem extractU16 : CutWell extractU16 := bind (extractBytes _) fun _ => pure _
theorem extractU32 : CutWell extractU32 := bind (extractBytes _) fun _ => pure _

theorem times (n : Nat) {p : Parser α} (hp : CutWell p) : CutWell (Parser.times n p) := by
  induction n with
  | zero => exact pure _
  | succ n ih => exact bind hp fun _ => bind ih fun _ => pure _

theorem fqdnStep (d : Bytes) (s : FqdnState) (k : Nat) (hk : k ≤ d.length) :
    Buf.fqdnStep (d.take k) s = Buf.fqdnStep d s ∨
    (∃ j, Buf.fqdnStep (d.take k) s = .inr (.err .lengthViolation, j)) ∨
    ∃ j, Buf.fqdnStep (d.take k) s = .inr (.panic .index, j) := by
  have hl : (d.take k).length = k := by simp [hk]
  unfold Buf.fqdnStep
  by_cases hp : s.pos < k
  · rw [List.getElem?_take_of_lt hp, hl]
    cases d[s.pos]? with
    | none => exact .inl rfl
    | some len =>
      simp only
      split
      · by_cases h2 : s.pos + 2 > k
        · rw [if_pos h2]; exact .inr (.inl ⟨_, rfl⟩)
        · left
          rw [if_neg h2, if_neg (show ¬ s.pos + 2 > d.length by omega), List.drop_take, List.take_take,
            Nat.min_eq_left (by omega)]
      · by_cases h2 : s.pos + len.toNat > k
        · rw [if_pos h2]; exact .inr (.inl ⟨_, rfl⟩)
        · rw [if_neg h2, if_neg (show ¬ s.pos + len.toNat > d.length by omega)]
          split
          · exact .inl rfl
          · by_cases h3 : s.pos + 1 + len.toNat > k
            · rw [if_pos h3]; exact .inr (.inr ⟨_, rfl⟩)
            · left
              rw [if_neg h3, if_neg (show ¬ s.pos + 1 + len.toNat > d.length by omega), List.drop_take, List.take_take, Nat.min_eq_left (by omega)]
  · rw [List.getElem?_eq_none (by omega)]
    exact .inr (.inr ⟨_, rfl⟩)

theorem fqdnLoop (d : Bytes) (k : Nat) (hk : k ≤ d.length) : ∀ (fuel : Nat) (s : FqdnState) (r : Res Fqdn × Nat),
    Buf.fqdnLoop d fuel s = some r → ∃ r', Buf.fqdnLoop (d.take k) fuel s = some r' ∧
      (r' = r ∨ r'.1 = .err .lengthViolation ∨ r'.1 = .panic .index)
  | 0, _, _, h => by cases h
  | fuel + 1, s, r, h => by
    rw [fqdnLoop_succ] at h
    rw [fqdnLoop_succ]
    rcases fqdnStep d s k hk with h1 | ⟨j, h1⟩ | ⟨j, h1⟩
    · rw [h1]
      cases hs : Buf.fqdnStep d s with
      | inl s' => rw [hs] at h; exact fqdnLoop d k hk fuel s' r h
      | inr x => rw [hs] at h; cases h; exact ⟨_, rfl, .inl rfl⟩
    · rw [h1]; exact ⟨_, rfl, .inr (.inl rfl)⟩
    · rw [h1]; exact ⟨_, rfl, .inr (.inr rfl)⟩

theorem extractFqdn : CutWell extractFqdn := by
  intro d i a j h k hi hk
  unfold Buf.extractFqdn at h
  cases hr : Buf.fqdnLoop d (fqdnFuel d) ⟨i, [], none⟩ with
  | none => rw [hr] at h; cases h
  | some r =>
    rw [hr] at h
    simp only at h
    subst h
    obtain ⟨r', h1, h2⟩ := fqdnLoop d k hk _ _ _ hr
    have h3 : Buf.extractFqdn (d.take k) i = r' := by
      unfold Buf.extractFqdn
      rw [fqdnLoop_fuel h1]
    rw [h3]
    rcases h2 with rfl | h2
    · refine .inl ⟨rfl, ?_⟩
      have := Bounded.extractFqdn (d.take k) i (by simp; omega)
      rw [h3] at this
      simp at this
      omega
    · exact .inr h2

theorem header : CutWell Header.parse :=
  bind extractU16 fun _ => bind (extractBytes _) fun _ => bind extractU16 fun _ => bind extractU16 fun _ =>
    bind extractU16 fun _ => bind extractU16 fun _ => pure _

theorem question (cfg : Cfg) : CutWell (Question.parse cfg) :=
  bind extractFqdn fun _ => bind extractU16 fun _ => bind (lift _) fun _ => bind extractU16 fun _ =>
    ite (ite (bind (lift _) fun _ => pure _) (bind (lift _) fun _ => pure _)) (bind (lift _) fun _ => pure _)

theorem record (cfg : Cfg) : CutWell (ResourceRecord.parse cfg) := by
  refine bind extractFqdn fun _ => bind extractU16 fun _ => bind (lift _) fun _ => bind ?_ fun _ =>
    bind extractU32 fun _ => bind extractU16 fun _ => bind (withSubBuffer _ _) fun _ => bind (advance _) fun _ => pure _
  unfold ResourceRecord.parseClass
  exact bind extractU16 fun _ => ite (ite (pure _) (pure _)) (pure _)

theorem packet (cfg : Cfg) : CutWell (Packet.parseBuf cfg) :=
  bind header fun _ => bind (times _ (question cfg)) fun _ => bind (times _ (record cfg)) fun _ =>
    bind (times _ (record cfg)) fun _ => bind (times _ (record cfg)) fun _ => pure _

end CutWell

end Dns
