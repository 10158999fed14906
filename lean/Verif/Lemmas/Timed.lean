import Verif.Model.Timed
import Verif.Lemmas.Names
import Verif.Lemmas.RDataParse2

/-!
Steps of the reader: a predicate on parsers closed under composition.
-/

namespace Dns
namespace Timed
variable {α β : Type}

/-- No octet can be the first one of a pointer. -/
def NoPointers (d : Bytes) : Prop := ∀ b ∈ d, b.toNat < 192

instance (d : Bytes) : Decidable (NoPointers d) := inferInstanceAs (Decidable (∀ b ∈ d, b.toNat < 192))

/-- Bound for the steps of reading one name, or one octet of it if there are no pointers. -/
def weight (d : Bytes) : Nat := if NoPointers d then 192 else 192 * (2 * d.length + 3)

/-- From position `i` of `d`: on success at least `c` octets are consumed, in at most `weight d + a` steps for each of
them and `b` more; a failure takes at most so many steps for the octets that are left, one name and `e` more. -/
def Bound (a b e c : Nat) (d : Bytes) (i : Nat) : (Res α × Nat) × Nat → Prop
  | ((.ok _, j), t) => i + c ≤ j ∧ j ≤ d.length ∧ t ≤ (weight d + a) * (j - i) + b
  | ((.hang, _), _) => True
  | ((.err _, _), t) => t ≤ (weight d + a) * (d.length - i) + weight d + e
  | ((.panic _, _), t) => t ≤ (weight d + a) * (d.length - i) + weight d + e

/-- `p` does what `q` does, within the bounds. -/
structure Within (a b e c : Nat) (p : Timed α) (q : Parser α) : Prop where
  same : ∀ d i, (p d i).1 = q d i
  bound : ∀ d i, i ≤ d.length → Bound a b e c d i (p d i)

theorem Bound.of {a b e c : Nat} {d : Bytes} {i : Nat} {r : (Res α × Nat) × Nat}
    (h1 : ∀ x j, r.1 = (.ok x, j) → i + c ≤ j ∧ j ≤ d.length ∧ r.2 ≤ (weight d + a) * (j - i) + b)
    (h2 : (∀ x, r.1.1 ≠ .ok x) → r.1.1 ≠ .hang → r.2 ≤ (weight d + a) * (d.length - i) + weight d + e) :
    Bound a b e c d i r := by
  obtain ⟨⟨x, j⟩, t⟩ := r
  cases x with
  | ok x => exact h1 x j rfl
  | hang => trivial
  | err e => exact h2 (fun _ h => by cases h) (fun h => by cases h)
  | panic e => exact h2 (fun _ h => by cases h) (fun h => by cases h)

theorem Bound.ok {a b e c : Nat} {d : Bytes} {i : Nat} {r : (Res α × Nat) × Nat} (h : Bound a b e c d i r)
    {x : α} {j : Nat} (hr : r.1 = (.ok x, j)) :
    i + c ≤ j ∧ j ≤ d.length ∧ r.2 ≤ (weight d + a) * (j - i) + b := by
  obtain ⟨⟨y, k⟩, t⟩ := r
  cases hr
  exact h

theorem Bound.not_ok {a b e c : Nat} {d : Bytes} {i : Nat} {r : (Res α × Nat) × Nat} (h : Bound a b e c d i r)
    (h1 : ∀ x, r.1.1 ≠ .ok x) (h2 : r.1.1 ≠ .hang) : r.2 ≤ (weight d + a) * (d.length - i) + weight d + e := by
  obtain ⟨⟨y, k⟩, t⟩ := r
  cases y with
  | ok x => exact absurd rfl (h1 x)
  | hang => exact absurd rfl h2
  | err e => exact h
  | panic e => exact h

theorem Within.mono {a b e c a' b' e' c' : Nat} {p : Timed α} {q : Parser α} (h : Within a b e c p q)
    (ha : a ≤ a') (hb : b ≤ b') (he : e ≤ e') (hc : c' ≤ c) : Within a' b' e' c' p q := by
  refine ⟨h.same, fun d i hi => .of (fun x j hr => ?_) (fun h1 h2 => ?_)⟩
  · obtain ⟨g1, g2, g3⟩ := (h.bound d i hi).ok hr
    have : (weight d + a) * (j - i) ≤ (weight d + a') * (j - i) := Nat.mul_le_mul_right _ (by omega)
    exact ⟨by omega, g2, by omega⟩
  · have g := (h.bound d i hi).not_ok h1 h2
    have : (weight d + a) * (d.length - i) ≤ (weight d + a') * (d.length - i) := Nat.mul_le_mul_right _ (by omega)
    omega

/-- What is consumed pays for the rest. -/
theorem Within.absorb {a b e c : Nat} {p : Timed α} {q : Parser α} (h : Within a b e (c + 1) p q) :
    Within (a + b) 0 e (c + 1) p q := by
  refine ⟨h.same, fun d i hi => .of (fun x j hr => ?_) (fun h1 h2 => ?_)⟩
  · obtain ⟨g1, g2, g3⟩ := (h.bound d i hi).ok hr
    have h3 : (weight d + (a + b)) * (j - i) = (weight d + a) * (j - i) + b * (j - i) := by
      rw [← Nat.add_assoc, Nat.add_mul _ b]
    have h4 : b * 1 ≤ b * (j - i) := Nat.mul_le_mul_left _ (by omega)
    exact ⟨g1, g2, by omega⟩
  · have g := (h.bound d i hi).not_ok h1 h2
    have : (weight d + a) * (d.length - i) ≤ (weight d + (a + b)) * (d.length - i) := Nat.mul_le_mul_right _ (by omega)
    omega

theorem Within.pure (a : Nat) (x : α) : Within a 0 0 0 (Pure.pure x : Timed α) (Pure.pure x : Parser α) :=
  ⟨fun _ _ => rfl, fun _ _ hi => ⟨Nat.le_refl _, hi, Nat.zero_le _⟩⟩

/-- A result of which the length is bounded by the octets consumed is looked at. -/
theorem Within.bindTick {a m b1 b2 e1 e2 c1 c2 : Nat} {p : Timed α} {q : Parser α} {n : α → Nat}
    {f : α → Unit → Timed β} {g : α → Parser β} (h1 : Within a b1 e1 c1 p q)
    (hn : ∀ d i x j, q d i = (.ok x, j) → n x ≤ m * (j - i))
    (h2 : ∀ x, Within (a + m) b2 e2 c2 (f x ()) (g x)) :
    Within (a + m) (b1 + b2) (max e1 (b1 + e2)) (c1 + c2) (p >>= fun x => Timed.tick (n x) >>= f x) (q >>= g) := by
  constructor
  · intro d i
    have h := h1.same d i
    show (Timed.bind p _ d i).1 = Parser.bind q g d i
    unfold Timed.bind Parser.bind
    rw [← h]
    rcases p d i with ⟨⟨x, j⟩, t⟩
    cases x <;> simp only
    exact (h2 _).same d j
  · intro d i hi
    have hb := h1.bound d i hi
    have hs := h1.same d i
    show Bound _ _ _ _ d i (Timed.bind p _ d i)
    have split : ∀ j k, i ≤ j → j ≤ k → (weight d + (a + m)) * (k - i) =
        (weight d + (a + m)) * (j - i) + (weight d + (a + m)) * (k - j) := fun j k h1 h2 => by
      rw [← Nat.mul_add]; congr 1; omega
    have hm : ∀ k, (weight d + (a + m)) * k = (weight d + a) * k + m * k := fun k => by
      rw [← Nat.add_assoc, Nat.add_mul _ m]
    unfold Timed.bind
    rcases h : p d i with ⟨⟨x, j⟩, t⟩
    rw [h] at hb hs
    cases x with
    | ok x =>
      obtain ⟨g1, g2, g3⟩ := hb
      have hk := hn d i x j hs.symm
      show Bound _ _ _ _ _ _ ((f x () d j).1, t + (n x + (f x () d j).2))
      have hmj := hm (j - i)
      refine .of (fun y k hr => ?_) (fun h3 h4 => ?_)
      · obtain ⟨f1, f2, f3⟩ := ((h2 x).bound d j g2).ok hr
        have := split j k (by omega) (by omega)
        exact ⟨by omega, f2, by simp only; omega⟩
      · have f3 := ((h2 x).bound d j g2).not_ok h3 h4
        have := split j d.length (by omega) (by omega)
        simp only
        omega
    | hang => trivial
    | err e => have hb' : t ≤ _ := hb; have := hm (d.length - i); show t ≤ _; omega
    | panic e => have hb' : t ≤ _ := hb; have := hm (d.length - i); show t ≤ _; omega

theorem Within.bind {a b1 b2 e1 e2 c1 c2 : Nat} {p : Timed α} {q : Parser α} {f : α → Timed β} {g : α → Parser β}
    (h1 : Within a b1 e1 c1 p q) (h2 : ∀ x, Within a b2 e2 c2 (f x) (g x)) :
    Within a (b1 + b2) (max e1 (b1 + e2)) (c1 + c2) (p >>= f) (q >>= g) := by
  have h := Within.bindTick (m := 0) (n := fun _ => 0) (f := fun x _ => f x) h1 (fun _ _ _ _ _ => Nat.zero_le _) h2
  have e : (p >>= fun x => Timed.tick 0 >>= fun _ => f x) = p >>= f := by
    funext d i
    show Timed.bind p _ d i = Timed.bind p f d i
    unfold Timed.bind
    rcases p d i with ⟨⟨x, j⟩, t⟩
    cases x
    · rename_i x
      show ((f x d j).1, t + (0 + (f x d j).2)) = ((f x d j).1, t + (f x d j).2)
      rw [Nat.zero_add]
    all_goals rfl
  rwa [e] at h

/-- Steps that the model without steps does not have. -/
theorem Within.tick {a b e c n : Nat} {f : Unit → Timed β} {q : Parser β} (h : Within a b e c (f ()) q) :
    Within a (n + b) (n + e) c (Timed.tick n >>= f) q := by
  refine ⟨h.same, fun d i hi => ?_⟩
  show Bound _ _ _ _ _ _ ((f () d i).1, n + (f () d i).2)
  refine .of (fun y k hr => ?_) (fun h3 h4 => ?_)
  · obtain ⟨f1, f2, f3⟩ := (h.bound d i hi).ok hr
    exact ⟨f1, f2, by simp only; omega⟩
  · have f3 := (h.bound d i hi).not_ok h3 h4
    simp only; omega

theorem Within.lift (a : Nat) (r : Res α) : Within a 1 1 0 (Timed.lift r) (Parser.lift r) := by
  refine ⟨fun _ _ => rfl, fun d i hi => ?_⟩
  show Bound _ _ _ _ _ _ ((r, i), 1)
  refine .of (fun y k hr => ?_) (fun h3 h4 => ?_)
  · cases hr; exact ⟨Nat.le_refl _, hi, Nat.le_add_left _ _⟩
  · exact Nat.le_add_left _ _

theorem Within.fail (a : Nat) (e : DnsError) : Within (α := α) a 0 1 0 (Timed.fail e) (Parser.fail e) := by
  refine ⟨fun _ _ => rfl, fun d i hi => ?_⟩
  show 1 ≤ _
  omega

theorem Within.ite {a b1 b2 e1 e2 c1 c2 : Nat} {P : Prop} [Decidable P] {p p' : Timed α} {q q' : Parser α}
    (h1 : Within a b1 e1 c1 p q) (h2 : Within a b2 e2 c2 p' q') :
    Within a (max b1 b2) (max e1 e2) (min c1 c2) (if P then p else p') (if P then q else q') := by
  split
  · exact h1.mono (Nat.le_refl _) (Nat.le_max_left _ _) (Nat.le_max_left _ _) (Nat.min_le_left _ _)
  · exact h2.mono (Nat.le_refl _) (Nat.le_max_right _ _) (Nat.le_max_right _ _) (Nat.min_le_right _ _)

theorem weight_pos (d : Bytes) : 192 ≤ weight d := by unfold weight; split <;> omega

theorem Within.extractBytes (a n : Nat) : Within a 1 1 n (Timed.extractBytes n) (Buf.extractBytes n) := by
  constructor
  · intro d i; unfold Timed.extractBytes Buf.extractBytes; split <;> rfl
  · intro d i hi
    unfold Timed.extractBytes
    split
    · show 1 ≤ _; omega
    · refine ⟨by omega, by omega, ?_⟩
      have : n ≤ (weight d + a) * n := Nat.le_mul_of_pos_left _ (by have := weight_pos d; omega)
      rw [show i + n - i = n by omega]
      omega

/-- Without the least number of octets. -/
theorem Within.extractSome (a n : Nat) : Within a 1 1 0 (Timed.extractBytes n) (Buf.extractBytes n) :=
  (Within.extractBytes a n).mono (Nat.le_refl _) (Nat.le_refl _) (Nat.le_refl _) (Nat.zero_le _)

theorem Within.remaining (a : Nat) : Within a 1 0 0 Timed.remaining Buf.remaining := by
  refine ⟨fun _ _ => rfl, fun d i hi => ?_⟩
  show Bound _ _ _ _ _ _ (Buf.remaining d i, 1)
  unfold Buf.remaining
  rw [if_pos hi]
  exact ⟨Nat.le_refl _, hi, by omega⟩

theorem Within.extractU8 (a : Nat) : Within a 1 1 1 Timed.extractU8 Buf.extractU8 :=
  (Within.extractBytes a 1).bind fun _ => Within.pure a _
theorem Within.extractU16 (a : Nat) : Within a 1 1 2 Timed.extractU16 Buf.extractU16 :=
  (Within.extractBytes a 2).bind fun _ => Within.pure a _
theorem Within.extractU32 (a : Nat) : Within a 1 1 4 Timed.extractU32 Buf.extractU32 :=
  (Within.extractBytes a 4).bind fun _ => Within.pure a _
theorem Within.extractU128 (a : Nat) : Within a 1 1 16 Timed.extractU128 Buf.extractU128 :=
  (Within.extractBytes a 16).bind fun _ => Within.pure a _

theorem Within.extractRest (a : Nat) : Within a 2 2 0 Timed.extractRest Buf.extractRest :=
  (Within.remaining a).bind fun n => Within.extractSome a n

theorem Within.extractCharacterString (a : Nat) :
    Within a 2 2 1 Timed.extractCharacterString Buf.extractCharacterString :=
  (Within.extractU8 a).bind fun _ => Within.extractSome a _

/-! ### Names -/

theorem fqdnRound_le (d : Bytes) (s : Buf.FqdnState) : fqdnRound d s ≤ 192 := by
  unfold fqdnRound
  split
  · decide
  · rename_i len _
    split
    · decide
    · rename_i h
      rw [and_c0_iff] at h
      omega

theorem fqdnLoop_same (d : Bytes) : ∀ (fuel : Nat) (s : Buf.FqdnState), (fqdnLoop d fuel s).1 = Buf.fqdnLoop d fuel s
  | 0, _ => rfl
  | fuel + 1, s => by
    unfold fqdnLoop Buf.fqdnLoop
    cases Buf.fqdnStep d s with
    | inl s' => exact fqdnLoop_same d fuel s'
    | inr r => rfl

theorem fqdnLoop_le (d : Bytes) : ∀ (fuel : Nat) (s : Buf.FqdnState), (fqdnLoop d fuel s).2 ≤ 192 * fuel
  | 0, _ => Nat.le_refl _
  | fuel + 1, s => by
    have := fqdnRound_le d s
    unfold fqdnLoop
    cases Buf.fqdnStep d s with
    | inl s' => have := fqdnLoop_le d fuel s'; simp only; omega
    | inr r => simp only; omega

theorem extractFqdn_same (d : Bytes) (i : Nat) : (Timed.extractFqdn d i).1 = Buf.extractFqdn d i := by
  unfold Timed.extractFqdn Buf.extractFqdn
  rw [← fqdnLoop_same]
  rcases fqdnLoop d (Buf.fqdnFuel d) ⟨i, [], none⟩ with ⟨_ | r, t⟩ <;> rfl

theorem extractFqdn_le (d : Bytes) (i : Nat) : (Timed.extractFqdn d i).2 ≤ 192 * (2 * d.length + 3) := by
  have := fqdnLoop_le d (Buf.fqdnFuel d) ⟨i, [], none⟩
  unfold Timed.extractFqdn
  rcases h : fqdnLoop d (Buf.fqdnFuel d) ⟨i, [], none⟩ with ⟨_ | r, t⟩ <;> rw [h] at this <;> exact this

/-- Without pointers, each round consumes an octet. -/
theorem fqdnLoop_plain {d : Bytes} (hd : NoPointers d) : ∀ (fuel : Nat) (s : Buf.FqdnState), s.org = none →
    s.pos ≤ d.length → (fqdnLoop d fuel s).2 ≤ 192 * (d.length - s.pos) + 192 ∧
    ∀ x j, (fqdnLoop d fuel s).1 = some (.ok x, j) → s.pos < j ∧ (fqdnLoop d fuel s).2 ≤ 192 * (j - s.pos)
  | 0, s, _, _ => ⟨Nat.zero_le _, fun _ _ h => by cases h⟩
  | fuel + 1, s, ho, hp => by
    have hr := fqdnRound_le d s
    unfold fqdnLoop
    cases hs : Buf.fqdnStep d s with
    | inl s' =>
      unfold Buf.fqdnStep at hs
      split at hs
      · cases hs
      · rename_i len hl
        split at hs
        · rename_i hc
          have := hd len (List.mem_of_getElem? hl)
          have := (and_c0_iff _).mp hc
          omega
        · split at hs
          · cases hs
          · split at hs
            · cases hs
            · split at hs
              · cases hs
              · cases hs
                have h := fqdnLoop_plain hd fuel ⟨s.pos + 1 + len.toNat,
                  s.labels ++ [(d.drop (s.pos + 1)).take len.toNat], s.org⟩ ho (by simp only; omega)
                simp only at h ⊢
                refine ⟨by omega, fun x j hx => ?_⟩
                have := h.2 x j hx
                omega
    | inr r =>
      refine ⟨by simp only; omega, fun x j hx => ?_⟩
      cases hx
      have : j = s.pos + 1 := by
        unfold Buf.fqdnStep at hs
        split at hs
        · cases hs
        · split at hs
          · simp only at hs
            split at hs
            · cases hs
            · split at hs <;> cases hs
          · split at hs
            · cases hs
            · split at hs
              · cases hs; rw [ho]; rfl
              · split at hs <;> cases hs
      simp only
      omega

theorem Within.extractFqdn (a : Nat) : Within a 0 0 1 Timed.extractFqdn Buf.extractFqdn := by
  refine ⟨extractFqdn_same, fun d i hi => ?_⟩
  by_cases hd : NoPointers d
  · have hw : weight d = 192 := if_pos hd
    have h := fqdnLoop_plain hd (Buf.fqdnFuel d) ⟨i, [], none⟩ rfl hi
    rw [fqdnLoop_same] at h
    have ht : (Timed.extractFqdn d i).2 = (fqdnLoop d (Buf.fqdnFuel d) ⟨i, [], none⟩).2 := by
      unfold Timed.extractFqdn
      rcases fqdnLoop d (Buf.fqdnFuel d) ⟨i, [], none⟩ with ⟨_ | r, t⟩ <;> rfl
    refine .of (fun x j hr => ?_) (fun h3 h4 => ?_)
    · rw [extractFqdn_same] at hr
      have hp := Dns.extractFqdn_pos hr
      have hl : Buf.fqdnLoop d (Buf.fqdnFuel d) ⟨i, [], none⟩ = some (.ok x, j) := by
        unfold Buf.extractFqdn at hr
        split at hr
        · rename_i h; rw [h, hr]
        · cases hr
      have := (h.2 x j hl).2
      rw [ht, hw, Nat.add_mul]
      simp only at this
      exact ⟨by omega, hp.2, by omega⟩
    · have := h.1
      rw [ht, hw, Nat.add_mul]
      simp only at this
      omega
  · have hw : weight d = 192 * (2 * d.length + 3) := if_neg hd
    have ht := extractFqdn_le d i
    rw [← hw] at ht
    refine .of (fun x j hr => ?_) (fun h3 h4 => ?_)
    · rw [extractFqdn_same] at hr
      have := Dns.extractFqdn_pos hr
      refine ⟨by omega, this.2, ?_⟩
      have : weight d + a ≤ (weight d + a) * (j - i) := Nat.le_mul_of_pos_right _ (by omega)
      omega
    · omega

theorem extractBytes_length {d : Bytes} {n i j : Nat} {s : Bytes}
    (h : Buf.extractBytes n d i = (.ok s, j)) : s.length ≤ j - i := by
  unfold Buf.extractBytes at h
  split at h
  · cases h
  · cases h; simp

theorem Within.extractString (a : Nat) : Within (a + 1) 2 3 1 Timed.extractString Buf.extractString := by
  refine Within.bindTick (b1 := 2) (b2 := 0) (e1 := 2) (e2 := 1) (c1 := 1) (c2 := 0) (Within.extractCharacterString a)
    (fun d i s j h => ?_) fun s => Within.ite (b1 := 0) (e1 := 0) (c1 := 0) (Within.pure _ _) (Within.fail _ _)
  have := (extractCharacterString_ok.mp h).2.end_eq
  simp at this
  omega

/-! ### Loops -/

theorem tick_assoc {n : Nat} {p : Timed α} {f : α → Timed β} :
    (Timed.tick n >>= fun _ => p) >>= f = Timed.tick n >>= fun _ => p >>= f := by
  funext d i
  show Timed.bind (Timed.bind (Timed.tick n) fun _ => p) f d i = Timed.bind (Timed.tick n) (fun _ => Timed.bind p f) d i
  unfold Timed.bind Timed.tick
  simp only
  rcases p d i with ⟨⟨x, j⟩, t⟩
  cases x <;> simp only [Nat.add_assoc]

theorem Within.times {a b e : Nat} {p : Timed α} {q : Parser α} (h : Within a b e 1 p q) :
    ∀ n, Within (a + b + 1) 0 (e + 1) 0 (Timed.times n p) (Parser.times n q)
  | 0 => (Within.pure _ _).mono (Nat.le_refl _) (Nat.le_refl _) (Nat.zero_le _) (Nat.le_refl _)
  | n + 1 => by
    have h1 := Within.absorb (c := 0) (Within.tick (n := 1) (f := fun _ => p) h)
    have h2 := (h1.mono (a' := a + b + 1) (by omega) (Nat.le_refl _) (Nat.le_refl _) (Nat.zero_le _)).bind
      fun x => (Within.times h n).bind fun xs => Within.pure _ (x :: xs)
    rw [tick_assoc] at h2
    exact h2.mono (Nat.le_refl _) (by omega) (by omega) (by omega)

theorem Within.whileRemainingFuel {σ : Type} {a b e : Nat} {body : σ → Timed σ} {body' : σ → Parser σ}
    (h : ∀ s, Within a b e 1 (body s) (body' s)) : ∀ (fuel : Nat) (s : σ),
    Within (a + b + 1) 1 (e + 1) 0 (Timed.whileRemainingFuel body fuel s) (Buf.whileRemainingFuel body' fuel s)
  | 0, s => ⟨fun _ _ => rfl, fun _ _ _ => trivial⟩
  | fuel + 1, s => by
    have h1 := Within.absorb (c := 0) (Within.tick (n := 1) (f := fun _ => body s) (h s))
    have h2 := (h1.mono (a' := a + b + 1) (by omega) (Nat.le_refl _) (Nat.le_refl _) (Nat.le_refl _)).bind
      fun x => Within.whileRemainingFuel h fuel x
    rw [tick_assoc] at h2
    have hmore : ∀ d i, i < d.length → Timed.whileRemainingFuel body (fuel + 1) s d i =
        (Timed.tick 1 >>= fun _ => body s >>= fun x => Timed.whileRemainingFuel body fuel x) d i ∧
        Buf.whileRemainingFuel body' (fuel + 1) s d i = (body' s >>= fun x => Buf.whileRemainingFuel body' fuel x) d i := by
      intro d i hi
      have hr : Buf.remaining d i = (.ok (d.length - i), i) := if_pos (by omega)
      constructor
      · show Timed.bind (fun d i => (Buf.remaining d i, 1)) _ d i = Timed.bind _ _ d i
        unfold Timed.bind
        simp only [hr, Timed.tick]
        rw [if_pos (by omega)]
      · show Parser.bind Buf.remaining _ d i = _
        unfold Parser.bind
        simp only [hr]
        rw [if_pos (by omega)]
    have hend : ∀ d i, ¬ i < d.length → ∃ r : Res σ, Timed.whileRemainingFuel body (fuel + 1) s d i = ((r, i), 1) ∧
        Buf.whileRemainingFuel body' (fuel + 1) s d i = (r, i) := by
      intro d i hi
      by_cases he : i = d.length
      · have hr : Buf.remaining d i = (.ok (d.length - i), i) := if_pos (by omega)
        refine ⟨.ok s, ?_, ?_⟩
        · show Timed.bind (fun d i => (Buf.remaining d i, 1)) _ d i = _
          unfold Timed.bind
          simp only [hr]
          rw [if_neg (by omega)]
          rfl
        · show Parser.bind Buf.remaining _ d i = _
          unfold Parser.bind
          simp only [hr]
          rw [if_neg (by omega)]
          rfl
      · have hr : Buf.remaining d i = (.panic .overflow, i) := if_neg (by omega)
        refine ⟨.panic .overflow, ?_, ?_⟩
        · show Timed.bind (fun d i => (Buf.remaining d i, 1)) _ d i = _
          unfold Timed.bind
          simp only [hr]
        · show Parser.bind Buf.remaining _ d i = _
          unfold Parser.bind
          simp only [hr]
    refine ⟨fun d i => ?_, fun d i hi => ?_⟩
    · by_cases hi : i < d.length
      · rw [(hmore d i hi).1, (hmore d i hi).2]
        exact h2.same d i
      · obtain ⟨r, h3, h4⟩ := hend d i hi
        rw [h3, h4]
    · by_cases hi' : i < d.length
      · rw [(hmore d i hi').1]
        exact (h2.mono (Nat.le_refl _) (by omega) (by omega) (by omega)).bound d i hi
      · obtain ⟨r, h3, h4⟩ := hend d i hi'
        rw [h3]
        refine .of (fun x j hr => ?_) (fun _ _ => ?_)
        · cases hr; exact ⟨Nat.le_refl _, hi, by simp only; omega⟩
        · simp only; omega

theorem Within.whileRemaining {σ : Type} {a b e : Nat} {body : σ → Timed σ} {body' : σ → Parser σ}
    (h : ∀ s, Within a b e 1 (body s) (body' s)) (s : σ) :
    Within (a + b + 1) 1 (e + 1) 0 (Timed.whileRemaining s body) (Buf.whileRemaining s body') :=
  ⟨fun d i => (Within.whileRemainingFuel h (d.length + 1) s).same d i,
    fun d i hi => (Within.whileRemainingFuel h (d.length + 1) s).bound d i hi⟩

end Timed
end Dns
