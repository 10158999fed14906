import Verif.Spec.Denial
import Verif.Props.NameText
import Verif.Props.Canonical
import Verif.Props.Checks
import Verif.Props.RData

/-
C129: denial of existence, decided with the order of names that the crate has.
-/

namespace Dns
open Spec Buf

/-- An order of names, in which names are the same if none is before the other. -/
structure NameOrder (lt : Fqdn → Fqdn → Prop) (same : Fqdn → Fqdn → Prop) : Prop where
  trans : ∀ {a b c}, lt a b → lt b c → lt a c
  refl : ∀ a, same a a
  symm : ∀ {a b}, same a b → same b a
  apart : ∀ {a b}, same a b → ¬ lt a b
  cases : ∀ a b, lt a b ∨ same a b ∨ lt b a
  same_lt : ∀ {a b c}, same a b → lt b c → lt a c

theorem NameOrder.asymm {lt same : Fqdn → Fqdn → Prop} (ho : NameOrder lt same) {a b : Fqdn} (h : lt a b) : ¬ lt b a :=
  fun h' => ho.apart (ho.refl a) (ho.trans h h')

theorem denialsFrom_owner (apex : Fqdn) : ∀ (zone : List (Fqdn × List RecordType)) (x : Denial), x ∈ denialsFrom apex zone →
    ∃ y ∈ zone, x.owner = y.1 ∧ x.types = y.2
  | [], _, h => by cases h
  | [y], x, h => by
    rw [denialsFrom, List.mem_singleton] at h
    subst h
    exact ⟨y, by simp, rfl, rfl⟩
  | y :: z :: rest, x, h => by
    rw [denialsFrom, List.mem_cons] at h
    rcases h with rfl | h
    · exact ⟨y, by simp, rfl, rfl⟩
    · obtain ⟨w, h1, h2⟩ := denialsFrom_owner apex (z :: rest) x h
      exact ⟨w, List.mem_cons_of_mem _ h1, h2⟩

theorem denials_decide {lt same : Fqdn → Fqdn → Prop} (ho : NameOrder lt same) (apex q : Fqdn) :
    ∀ (rest : List (Fqdn × List RecordType)) (x : Fqdn × List RecordType), (x :: rest).Pairwise (fun a b => lt a.1 b.1) →
      lt x.1 q → (∀ y ∈ rest, y.1 ≠ apex) →
      ((∃ y ∈ rest, same q y.1) → ∀ d ∈ denialsFrom apex (x :: rest), ¬ d.Denies lt apex q) ∧
      ((∀ y ∈ rest, ¬ same q y.1) → ∃ as d bs, denialsFrom apex (x :: rest) = as ++ d :: bs ∧ d.Denies lt apex q ∧
        ∀ e ∈ as ++ bs, ¬ e.Denies lt apex q) := by
  intro rest
  induction rest with
  | nil =>
    intro x _ hx _
    constructor
    · rintro ⟨y, hy, -⟩
      cases hy
    · exact fun _ => ⟨[], _, [], rfl, ⟨hx, .inr rfl⟩, by simp⟩
  | cons y rest ih =>
    intro x hp hx hn
    obtain ⟨hp1, hp2⟩ := List.pairwise_cons.mp hp
    obtain ⟨hp3, -⟩ := List.pairwise_cons.mp hp2
    have later : ¬ lt y.1 q → ∀ d ∈ denialsFrom apex (y :: rest), ¬ d.Denies lt apex q := by
      intro hy d hd hc
      obtain ⟨w, hw, e, -⟩ := denialsFrom_owner apex _ d hd
      rcases List.mem_cons.mp hw with rfl | hw
      · exact hy (e ▸ hc.1)
      · exact hy (ho.trans (hp3 w hw) (e ▸ hc.1))
    have first : ¬ lt q y.1 → ¬ (⟨x.1, y.1, x.2⟩ : Denial).Denies lt apex q := by
      rintro hy ⟨-, h | h⟩
      · exact hy h
      · exact hn y (by simp) h
    rw [denialsFrom]
    rcases ho.cases q y.1 with h | h | h
    · constructor
      · rintro ⟨z, hz, hs⟩
        rcases List.mem_cons.mp hz with rfl | hz
        · exact absurd h (ho.apart hs)
        · exact absurd (ho.trans h (hp3 z hz)) (ho.apart hs)
      · intro _
        exact ⟨[], _, _, rfl, ⟨hx, .inl h⟩, fun e he => later (ho.asymm h) e (by simpa using he)⟩
    · constructor
      · intro _ d hd
        rcases List.mem_cons.mp hd with rfl | hd
        · exact first (ho.apart h)
        · exact later (ho.apart (ho.symm h)) d hd
      · intro hno
        exact absurd h (hno y (by simp))
    · obtain ⟨i1, i2⟩ := ih y hp2 h (fun z hz => hn z (by simp [hz]))
      constructor
      · rintro ⟨z, hz, hs⟩ d hd
        rcases List.mem_cons.mp hz with rfl | hz
        · exact absurd h (ho.apart (ho.symm hs))
        · rcases List.mem_cons.mp hd with rfl | hd
          · exact first (ho.asymm h)
          · exact i1 ⟨z, hz, hs⟩ d hd
      · intro hno
        obtain ⟨as, d, bs, e, h1, h2⟩ := i2 (fun z hz => hno z (by simp [hz]))
        refine ⟨⟨x.1, y.1, x.2⟩ :: as, d, bs, by rw [e]; rfl, h1, ?_⟩
        intro e he
        rw [List.cons_append, List.mem_cons] at he
        rcases he with rfl | he
        · exact first (ho.asymm h)
        · exact h2 e he

theorem cmp_order : NameOrder (fun a b => Fqdn.cmp a b = .lt) (fun a b => a = b) where
  trans := C55_trans _ _ _
  refl _ := rfl
  symm := Eq.symm
  apart := by rintro a b rfl; rw [(C55_eq a a).mpr rfl]; decide
  cases a b := by
    cases h : Fqdn.cmp a b with
    | lt => exact .inl rfl
    | eq => exact .inr (.inl ((C55_eq a b).mp h))
    | gt => exact .inr (.inr (by rw [C55_swap, h]; rfl))
  same_lt := by rintro a b c rfl h; exact h

theorem canonical_cmp {a b : Fqdn} : CanonicalLt a b ↔ Fqdn.cmp (lowerName a).reverse (lowerName b).reverse = .lt :=
  (C55_lexicographic _ _).symm

theorem canonical_order : NameOrder CanonicalLt SameName where
  trans h1 h2 := canonical_cmp.mpr (cmp_order.trans (canonical_cmp.mp h1) (canonical_cmp.mp h2))
  refl _ := rfl
  symm := Eq.symm
  apart h h' := cmp_order.apart (congrArg List.reverse h) (canonical_cmp.mp h')
  cases a b := by
    rcases cmp_order.cases (lowerName a).reverse (lowerName b).reverse with h | h | h
    · exact .inl (canonical_cmp.mpr h)
    · exact .inr (.inl (List.reverse_inj.mp h))
    · exact .inr (.inr (canonical_cmp.mpr h))
  same_lt h1 h2 := by
    have h1 : lowerName _ = lowerName _ := h1
    unfold CanonicalLt at h2 ⊢
    rw [h1]; exact h2

theorem lex_append (x : Fqdn) (l : Bytes) (r : Fqdn) : List.Lex (List.Lex (· < ·)) x (x ++ l :: r) := by
  induction x with
  | nil => exact .nil
  | cons a x ih => exact .cons ih

/-- Names below a name are behind it in the canonical order. -/
theorem canonical_below (apex : Fqdn) (l : Bytes) (n : Fqdn) : CanonicalLt apex (l :: n ++ apex) := by
  unfold CanonicalLt
  have e : (lowerName (l :: n ++ apex)).reverse = (lowerName apex).reverse ++ (lowerName (l :: n)).reverse := by
    simp [lowerName]
  rw [e]
  obtain ⟨a, b, h⟩ : ∃ a b, (lowerName (l :: n)).reverse = a :: b := by
    cases h : (lowerName (l :: n)).reverse with
    | nil => simp [lowerName] at h
    | cons a b => exact ⟨a, b, rfl⟩
  rw [h]
  exact lex_append _ _ _

/-- C129: with the canonical order, as RFC 4034 and RFC 4035 define it (this is about the RFC, not the crate: it shows what
`denials` and `Denies` mean).  A name below that of the zone that does not exist is denied by exactly one record of the
zone, and one that exists is denied by none. -/
theorem C129_rfc (apex : Fqdn × List RecordType) (rest : List (Fqdn × List RecordType))
    (hp : (apex :: rest).Pairwise (fun a b => CanonicalLt a.1 b.1)) (l : Bytes) (n : Fqdn) :
    ((∃ y ∈ rest, SameName (l :: n ++ apex.1) y.1) →
      ∀ d ∈ denials apex rest, ¬ d.Denies CanonicalLt apex.1 (l :: n ++ apex.1)) ∧
    ((∀ y ∈ rest, ¬ SameName (l :: n ++ apex.1) y.1) → ∃ as d bs, denials apex rest = as ++ d :: bs ∧
      d.Denies CanonicalLt apex.1 (l :: n ++ apex.1) ∧ ∀ e ∈ as ++ bs, ¬ e.Denies CanonicalLt apex.1 (l :: n ++ apex.1)) :=
  denials_decide canonical_order apex.1 _ rest apex hp (canonical_below apex.1 l n) (by
    intro y hy e
    have := (List.pairwise_cons.mp hp).1 y hy
    exact canonical_order.apart (by rw [e]; rfl) this)
example (t : List RecordType) (l : Bytes) (n : Fqdn) := C129_rfc ([[97]], t) [] (by simp) l n

/-- C129 (partial): a program that puts the names of its zone in the order of `FQDN`, and compares with it.  A name behind
that of the zone that does not exist is denied by exactly one record, and one that exists is denied by none.  What is
missing: records made by others, in the canonical order (false, see `C129_existing_denied` and `C129_missing_not_denied`). -/
theorem C129_own_order_partial (apex : Fqdn × List RecordType) (rest : List (Fqdn × List RecordType))
    (hp : (apex :: rest).Pairwise (fun a b => Fqdn.cmp a.1 b.1 = .lt)) (q : Fqdn) (hq : Fqdn.cmp apex.1 q = .lt) :
    ((∃ y ∈ rest, q = y.1) → ∀ d ∈ denials apex rest, ¬ d.Denies (fun a b => Fqdn.cmp a b = .lt) apex.1 q) ∧
    ((∀ y ∈ rest, q ≠ y.1) → ∃ as d bs, denials apex rest = as ++ d :: bs ∧
      d.Denies (fun a b => Fqdn.cmp a b = .lt) apex.1 q ∧
      ∀ e ∈ as ++ bs, ¬ e.Denies (fun a b => Fqdn.cmp a b = .lt) apex.1 q) :=
  denials_decide cmp_order apex.1 _ rest apex hp hq (by
    intro y hy e
    have := (List.pairwise_cons.mp hp).1 y hy
    exact cmp_order.apart (a := apex.1) (b := y.1) e.symm this)
example (t : List RecordType) : ∀ d ∈ denials ([[97]], t) [([[98], [97]], t)],
    ¬ d.Denies (fun a b => Fqdn.cmp a b = .lt) [[97]] [[98], [97]] :=
  (C129_own_order_partial ([[97]], t) [([[98], [97]], t)] (by simpa using (by decide : Fqdn.cmp [[97]] [[98], [97]] = .lt)) [[98], [97]]
    (show Fqdn.cmp [[97]] [[98], [97]] = .lt by decide)).1
    ⟨_, List.mem_singleton.mpr rfl, rfl⟩

/-- C129 (partial): a record of another implementation, if the owner, the next name and the name that is asked for are
directly below the same name and have no upper case letters: comparing with the order of `FQDN` tells what the RFC says.
What is missing: other names (false, see below). -/
theorem C129_siblings_partial (a b c : Bytes) (parent apex : Fqdn) (types : List RecordType) (ha : NoUpper (a :: parent))
    (hb : NoUpper (b :: parent)) (hc : NoUpper (c :: parent)) :
    (⟨a :: parent, b :: parent, types⟩ : Denial).Denies (fun a b => Fqdn.cmp a b = .lt) apex (c :: parent) ↔
      (⟨a :: parent, b :: parent, types⟩ : Denial).Denies CanonicalLt apex (c :: parent) := by
  unfold Denial.Denies
  show Fqdn.cmp (a :: parent) (c :: parent) = .lt ∧ (Fqdn.cmp (c :: parent) (b :: parent) = .lt ∨ _) ↔ _
  rw [C76_siblings_partial a c parent ha hc, C76_siblings_partial c b parent hc hb]
example (types : List RecordType) := C129_siblings_partial [97] [99] [98] [[122]] [[122]] types
  (by unfold NoUpper; decide) (by unfold NoUpper; decide) (by unfold NoUpper; decide)

theorem cmpBytes_append (h : Bytes) (x : UInt8) : Fqdn.cmpBytes h (h ++ [x]) = .lt := by
  induction h with
  | nil => rfl
  | cons a h ih => simp [Fqdn.cmpBytes, UInt8.lt_irrefl, ih]

theorem cmpBytes_prefix (h : Bytes) (x y : UInt8) (hxy : x < y) : Fqdn.cmpBytes (h ++ [x]) (h ++ [y]) = .lt := by
  induction h with
  | nil => simp [Fqdn.cmpBytes, hxy]
  | cons a h ih => simp [Fqdn.cmpBytes, UInt8.lt_irrefl, ih]

theorem lex_common (x u v : Fqdn) (h : List.Lex (List.Lex (· < ·)) u v) : List.Lex (List.Lex (· < ·)) (x ++ u) (x ++ v) := by
  induction x with
  | nil => exact h
  | cons a x ih => exact .cons ih

/-- C129 is false of the records of other implementations.  Below every name (whose first label has less than 63 octets)
there is a zone with three names in the canonical order such that the order of `FQDN` makes the record of the zone deny one
of them. -/
theorem C129_existing_denied (apex : Fqdn) (t : List RecordType) (hl : (apex.headD []).length < 63) :
    ∃ (x y : Bytes), 1 ≤ x.length ∧ x.length ≤ 63 ∧ 1 ≤ y.length ∧ y.length ≤ 63 ∧
      [(apex, t), (y :: x :: apex, t), (x :: y :: apex, t)].Pairwise (fun a b => CanonicalLt a.1 b.1) ∧
      ∃ d ∈ denials (apex, t) [(y :: x :: apex, t), (x :: y :: apex, t)],
        d.Denies (fun a b => Fqdn.cmp a b = .lt) apex (x :: y :: apex) := by
  refine ⟨apex.headD [] ++ [48], apex.headD [] ++ [49], by simp,
    by rw [List.length_append]; exact hl, by simp, by rw [List.length_append]; exact hl, ?_, ?_⟩
  · have h1 := canonical_below apex (apex.headD [] ++ [49]) [apex.headD [] ++ [48]]
    have h2 := canonical_below apex (apex.headD [] ++ [48]) [apex.headD [] ++ [49]]
    refine List.pairwise_cons.mpr ⟨?_, List.pairwise_cons.mpr ⟨?_, List.pairwise_singleton _ _⟩⟩
    · intro a ha
      simp only [List.mem_cons, List.not_mem_nil, or_false] at ha
      rcases ha with rfl | rfl
      · exact h1
      · exact h2
    · intro a ha
      rw [List.mem_singleton] at ha
      subst ha
      generalize apex.headD [] = h
      unfold CanonicalLt
      have e : ∀ u v : Bytes, (lowerName (u :: v :: apex)).reverse =
          (lowerName apex).reverse ++ [v.map lowerOctet, u.map lowerOctet] := by
        intro u v; simp [lowerName]
      show List.Lex _ (lowerName ((h ++ [49]) :: (h ++ [48]) :: apex)).reverse
        (lowerName ((h ++ [48]) :: (h ++ [49]) :: apex)).reverse
      rw [e, e]
      refine lex_common _ _ _ (.rel ?_)
      rw [List.map_append, List.map_append]
      exact (cmpBytes_lt_iff _ _).mp (cmpBytes_prefix (h.map lowerOctet) 48 49 (by decide))
  · refine ⟨⟨apex, (apex.headD [] ++ [49]) :: (apex.headD [] ++ [48]) :: apex, t⟩, by simp [denials, denialsFrom], ?_, .inl ?_⟩
    · cases apex with
      | nil => rfl
      | cons h apex => simp only [Fqdn.cmp, List.headD_cons, cmpBytes_append]
    · simp only [Fqdn.cmp, cmpBytes_prefix _ 48 49 (by decide)]
example (t : List RecordType) := C129_existing_denied [[97], [98]] t (by decide)

/-- C129: and below every name there are names that do not exist which no record denies: with names compared as `FQDN` does,
the only record of a zone with one name denies no name whose first label comes before that of the zone. -/
theorem C129_missing_not_denied (h l : Bytes) (apex n : Fqdn) (t : List RecordType) (hl : List.Lex (· < ·) l h) :
    ∀ d ∈ denials (h :: apex, t) [], ¬ d.Denies (fun a b => Fqdn.cmp a b = .lt) (h :: apex) (l :: n ++ h :: apex) := by
  intro d hd hc
  rw [denials, denialsFrom, List.mem_singleton] at hd
  subst hd
  have h1 : Fqdn.cmp (h :: apex) (l :: n ++ h :: apex) = .lt := hc.1
  have h2 : Fqdn.cmp (l :: n ++ h :: apex) (h :: apex) = .lt := by
    rw [List.cons_append, Fqdn.cmp, (cmpBytes_lt_iff l h).mpr hl]
  exact cmp_order.asymm h1 h2

/-- C129: such a name: there is no `a.com.` in a zone with the only name `com.`, but `FQDN` has `a.com.` before `com.`, so
that the only record of the zone does not deny it, as it does by the RFC. -/
example : (∀ d ∈ denials ([[99, 111, 109]], [.NS]) [],
      ¬ d.Denies (fun a b => Fqdn.cmp a b = .lt) [[99, 111, 109]] [[97], [99, 111, 109]]) ∧
    ∃ d ∈ denials ([[99, 111, 109]], [.NS]) [], d.Denies CanonicalLt [[99, 111, 109]] [[97], [99, 111, 109]] :=
  ⟨C129_missing_not_denied [99, 111, 109] [97] [] [] [.NS] (.rel (by decide)),
    ⟨[[99, 111, 109]], [[99, 111, 109]], [.NS]⟩, by simp [denials, denialsFrom],
    canonical_below [[99, 111, 109]] [97] [], .inr rfl⟩

/-- C129: a zone in the order of `FQDN`, a name in it and one that is not. -/
example : ([([], [RecordType.NS]), ([[97]], [.A]), ([[99]], [.A])] : List (Fqdn × List RecordType)).Pairwise
      (fun a b => Fqdn.cmp a.1 b.1 = .lt) ∧ Fqdn.cmp [] [[98]] = .lt ∧
    (⟨[[97]], [[99]], [.A]⟩ : Denial) ∈ denials ([], [.NS]) [([[97]], [.A]), ([[99]], [.A])] := by
  refine ⟨by decide, rfl, by simp [denials, denialsFrom]⟩

/-- C129: a zone in the canonical order. -/
example : ([([[97]], [RecordType.NS]), ([[120], [97]], [.A]), ([[98], [121], [97]], [.A])] :
    List (Fqdn × List RecordType)).Pairwise (fun a b => CanonicalLt a.1 b.1) := by
  simp only [canonical_cmp]; decide

/-- C129: siblings. -/
example : NoUpper [[97], [99, 111, 109]] ∧ NoUpper [[98], [99, 111, 109]] ∧ NoUpper [[100], [99, 111, 109]] ∧
    (⟨[[97], [99, 111, 109]], [[100], [99, 111, 109]], []⟩ : Denial).Denies (fun a b => Fqdn.cmp a b = .lt) [[99, 111, 109]]
      [[98], [99, 111, 109]] := ⟨by decide, by decide, by decide, by decide, .inl (by decide)⟩

/-- C129: an NSEC record is refused if one of the types in it has a number that the build does not read, so that it cannot
be used to deny anything.  (Zones that publish CDS records, 59, RFC 7344, or NSEC3PARAM
records, 51, say so in the record of the zone.) -/
theorem C129_unknown_type_refused (cfg : Cfg) (d : Bytes) (i k n : Nat) (next : Fqdn) (ws : List (UInt8 × Bytes))
    (hn : extractFqdn d i = (.ok next, k)) (hw : ∀ w ∈ ws, w.2.length ≤ 32)
    (ho : Octets d k (Items.octets (windowItems ws)) d.length) (hb : ∃ w ∈ ws, BitSet w n)
    (hu : ∀ t, Readable cfg t → typeNumber t ≠ n) (r : Nsec) (j : Nat) : Nsec.parse cfg d i ≠ (.ok r, j) := by
  intro h
  obtain ⟨k', h1, -, h3⟩ := (C43_nsec_bits cfg d i j r h).2
  rw [hn] at h1
  obtain ⟨-, rfl⟩ := Prod.mk.inj h1
  obtain ⟨t, ht, hn'⟩ := (h3 ws hw ho n).mp hb
  obtain ⟨us, h4, -⟩ := Nsec.parse_ok.mp h
  exact hu t (h4.known t ht) hn'

/-- C129: with the bit of CDS. -/
example : (Nsec.parse ⟨true, true, true⟩ [1, 97, 0, 0, 8, 64, 0, 0, 0, 0, 0, 0, 16] 0).1 = .err (.invalidType 59) ∧
    (Nsec.parse ⟨true, true, true⟩ [1, 97, 0, 0, 8, 64, 0, 0, 0, 0, 0, 0, 0] 0).1 = .ok ⟨[[97]], [.A]⟩ := by
  decide +kernel

end Dns
