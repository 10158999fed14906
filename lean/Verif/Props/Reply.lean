import Verif.Spec.Reply
import Verif.Props.Edit

/-
Messages made of the octets of another one.
C115 A message can be shortened between its records.
C116 A reply can be made of the octets of the questions.
C117 All TTLs of a message can be changed in place.
-/

namespace Dns
open Spec Buf

theorem headerOctets_length (h : Header) : (headerOctets h).length = 12 := rfl

theorem headerOctets_items (h : Header) (b : Bytes) : Items.At PlainName (headerOctets h ++ b) 0 (headerItems h) 12 := by
  have key : ∀ (i : Nat) (x : Bytes), (((headerOctets h).drop i).take x.length = x) → i + x.length ≤ 12 →
      Octets (headerOctets h ++ b) i x (i + x.length) := fun i x hx hl =>
    (octets_iff.mpr ⟨rfl, by rw [headerOctets_length]; exact hl, hx⟩ : Octets (headerOctets h) i x _).extend b
  exact ⟨2, key 0 (octets16 h.id) rfl (by simp [octets16]), 3, key 2 [h.flags.hi] rfl (by simp), 4,
    key 3 [h.flags.lo] rfl (by simp), 6, key 4 (octets16 h.quesCount) rfl (by simp [octets16]),
    8, key 6 (octets16 h.ansCount) rfl (by simp [octets16]), 10, key 8 (octets16 h.authCount) rfl (by simp [octets16]),
    12, key 10 (octets16 h.addCount) rfl (by simp [octets16]), rfl⟩

theorem reheaded_length {h : Header} {t : Nat} {d : Bytes} (h1 : 12 ≤ t) (h2 : t ≤ d.length) :
    (reheaded h t d).length = t := by
  simp [reheaded, headerOctets_length]
  omega

theorem reheaded_shared (h : Header) {t : Nat} {d : Bytes} (h1 : 12 ≤ t) (h2 : t ≤ d.length) :
    Shared 12 t d (reheaded h t d) := by
  refine ⟨h2, by rw [reheaded_length h1 h2], fun k a b => ?_⟩
  rw [reheaded, List.getElem?_append_right (by rw [headerOctets_length]; exact a), headerOctets_length, List.getElem?_drop,
    List.getElem?_take_of_lt (by omega)]
  congr 1
  omega

/-! ### C115 -/

/-- The places between the elements of a list. -/
theorem listPlaced_cuts {α : Type} {R : Places → Nat → α → Nat → Places → Prop} : ∀ {xs : List α} {k k' : Places} {i j : Nat},
    ListPlaced R k i xs j k' → ∃ (t : Nat → Nat) (K : Nat → Places), t 0 = i ∧ K 0 = k ∧ t xs.length = j ∧ K xs.length = k' ∧
      ∀ m (h : m < xs.length), R (K m) (t m) xs[m] (t (m + 1)) (K (m + 1)) := by
  intro xs
  induction xs with
  | nil => rintro k k' i j ⟨rfl, rfl⟩; exact ⟨fun _ => i, fun _ => k, rfl, rfl, rfl, rfl, fun m h => absurd h (by simp)⟩
  | cons x xs ih =>
    rintro k k' i j ⟨e, k1, h1, h2⟩
    obtain ⟨t, K, a1, a2, a3, a4, a5⟩ := ih h2
    refine ⟨fun m => match m with | 0 => i | m + 1 => t m, fun m => match m with | 0 => k | m + 1 => K m, rfl, rfl, a3, a4, ?_⟩
    rintro (_ | m) h
    · show R k i x (t 0) (K 0)
      rw [a1, a2]
      exact h1
    · exact a5 m (by simpa using h)

theorem listPlaced_slice {α : Type} {R : Places → Nat → α → Nat → Places → Prop} {xs : List α} {t : Nat → Nat}
    {K : Nat → Places} (h : ∀ m (h : m < xs.length), R (K m) (t m) xs[m] (t (m + 1)) (K (m + 1))) (a : Nat) :
    ∀ n, a + n ≤ xs.length → ListPlaced R (K a) (t a) ((xs.drop a).take n) (t (a + n)) (K (a + n)) := by
  intro n
  induction n with
  | zero => intro _; rw [List.take_zero]; exact ⟨rfl, rfl⟩
  | succ n ih =>
    intro hn
    have e : (xs.drop a).take (n + 1) = (xs.drop a).take n ++ [xs[a + n]] := by
      rw [List.take_add_one, List.getElem?_drop, List.getElem?_eq_getElem (by omega)]
      rfl
    rw [e]
    exact listPlaced_append (ih (by omega)) ⟨_, _, h (a + n) (by omega), rfl, rfl⟩

theorem record_lt {d : Bytes} {T : RecordType → Bool} {cfg : Cfg} {known known' : Places} {i j : Nat}
    {r : ResourceRecord} (h : RecordPlaced T cfg d known i r j known') : i < j := by
  obtain ⟨h1, h2, h3, v, len, k, known1, its, h4, ⟨m, new, a1, a2⟩, rfl, _⟩ := h
  have := namePlaced_lt a1
  have := placed_forth a2
  omega

/-- C115: shortening a message.  `d` is a message of RFC 1035 whose pointers lead to prior names, with `n` records.  There
are places `t 0 < … < t n`, of which the first is the end of the questions and the last that of the message, such that between `t k` and `t (k + 1)` the record
`k` stands; and the octets before `t k`, with any identification and flags and with the numbers of the records that are
left in the header, are such a message again, which says what `d` says without the records from `k` on. -/
theorem C115_message (T : RecordType → Bool) (cfg : Cfg) (d : Bytes) (p : Packet) (h : PlacedMessage T cfg d p) :
    ∃ t : Nat → Nat, ListAt (QuestionAt LegalName cfg d) 12 p.questions (t 0) ∧ 12 ≤ t 0 ∧
      t (records p).length = d.length ∧ (∀ k < (records p).length, t k < t (k + 1)) ∧
      (∀ k (hk : k < (records p).length), Writable cfg 63 (records p)[k].rdata ∧ ReadWell (records p)[k].rdata →
        ResourceRecord.parse cfg d (t k) = (.ok (records p)[k], t (k + 1))) ∧
      ∀ k ≤ (records p).length, ∀ id fl,
        (reheaded (firstRecords id fl k p).header (t k) d).length = t k ∧
        PlacedMessage T cfg (reheaded (firstRecords id fl k p).header (t k) d) (firstRecords id fl k p) := by
  obtain ⟨c1, c2, c3, c4, i1, i2, i3, i4, k2, k3, k4, k5, h0, h1, h2, h3, h4⟩ := h
  obtain ⟨rfl, hl⟩ := header_items h0
  have f1 := listPlaced_forth question_forth h1
  obtain ⟨v1, v2, v3⟩ := listPlaced_legal QuestionPlaced.legal hl (by simp [Valid]) h1
  have hr : ListPlaced (RecordPlaced T cfg d) k2 i2 (records p) d.length k5 :=
    listPlaced_append (listPlaced_append h2 h3) h4
  obtain ⟨t, K, a1, a2, a3, a4, a5⟩ := listPlaced_cuts hr
  have hlt : ∀ k < (records p).length, t k < t (k + 1) := fun k hk => record_lt (a5 k hk)
  have hge : ∀ k ≤ (records p).length, 12 ≤ t k := by
    intro k
    induction k with
    | zero => intro _; omega
    | succ k ih => intro hk; have := ih (by omega); have := hlt k (by omega); omega
  have hle : ∀ k m, k + m = (records p).length → t k ≤ d.length := by
    intro k m
    induction m generalizing k with
    | zero => intro hk; rw [← a3, ← hk]; exact Nat.le_refl _
    | succ m ih => intro hk; have := ih (k + 1) (by omega); have := hlt k (by omega); omega
  have hval : ∀ k ≤ (records p).length, Valid d (t k) (K k) := by
    intro k hk
    have := listPlaced_slice a5 0 k (by omega)
    simp only [Nat.zero_add] at this
    rw [a1, a2] at this
    exact (listPlaced_legal RecordPlaced.legal v3 v2 this).2.1
  have hn : (records p).length = p.answers.length + p.authorities.length + p.additional.length := by
    simp [records, Nat.add_assoc]
  refine ⟨t, a1 ▸ v1, hge 0 (Nat.zero_le _), a3, hlt, fun k hk hw => ?_, fun k hk id fl => ?_⟩
  · exact record_read (hle k ((records p).length - k) (by omega)) (hval k (by omega)) (a5 k hk) hw
  · have ht1 := hge k hk
    have ht2 := hle k ((records p).length - k) (by omega)
    have hle' : ∀ m ≤ k, t m ≤ t k := by
      intro m hm
      induction k, hm using Nat.le_induction with
      | base => exact Nat.le_refl _
      | succ k hm ih => 
        have := ih (by omega) (hge k (by omega)) (hle k ((records p).length - k) (by omega))
        have := hlt k (by omega); omega
    have hlen : (reheaded (firstRecords id fl k p).header (t k) d).length = t k := reheaded_length ht1 ht2
    have hs := reheaded_shared (firstRecords id fl k p).header ht1 ht2
    -- the three sections
    have s1 := listPlaced_slice a5 0 (min k p.answers.length) (by omega)
    have s2 := listPlaced_slice a5 (min k p.answers.length)
      (min k (p.answers.length + p.authorities.length) - min k p.answers.length) (by omega)
    have s3 := listPlaced_slice a5 (min k (p.answers.length + p.authorities.length))
      (k - min k (p.answers.length + p.authorities.length)) (by omega)
    have e1 : ((records p).drop 0).take (min k p.answers.length) = p.answers.take k := by
      rw [List.drop_zero, records, List.append_assoc, List.take_append_of_le_length (by omega)]
      rcases Nat.le_total k p.answers.length with hh | hh
      · rw [Nat.min_eq_left hh]
      · rw [Nat.min_eq_right hh, List.take_length, List.take_of_length_le hh]
    have e2 : ((records p).drop (min k p.answers.length)).take
        (min k (p.answers.length + p.authorities.length) - min k p.answers.length) =
        p.authorities.take (k - p.answers.length) := by
      rcases Nat.le_total k p.answers.length with hh | hh
      · rw [show min k (p.answers.length + p.authorities.length) - min k p.answers.length = 0 by omega,
          show k - p.answers.length = 0 by omega]; simp
      · rw [Nat.min_eq_right hh, records, List.append_assoc, List.drop_left, List.take_append_of_le_length (by omega)]
        rcases Nat.le_total k (p.answers.length + p.authorities.length) with hm | hm
        · rw [Nat.min_eq_left hm]
        · rw [Nat.min_eq_right hm, List.take_of_length_le (by omega), List.take_of_length_le (by omega)]
    have e3 : ((records p).drop (min k (p.answers.length + p.authorities.length))).take
        (k - min k (p.answers.length + p.authorities.length)) =
        p.additional.take (k - p.answers.length - p.authorities.length) := by
      rcases Nat.le_total k (p.answers.length + p.authorities.length) with hh | hh
      · rw [show k - min k (p.answers.length + p.authorities.length) = 0 by omega,
          show k - p.answers.length - p.authorities.length = 0 by omega]; simp
      · rw [Nat.min_eq_right hh, records, List.drop_left' (by simp)]
        congr 1; omega
    rw [e1, Nat.zero_add, a1, a2] at s1
    rw [e2, Nat.add_sub_cancel' (by omega)] at s2
    rw [e3, Nat.add_sub_cancel' (by omega)] at s3
    have g0 := listPlaced_forth record_forth s1
    have g1 := hle' (min k p.answers.length) (by omega)
    have g2 := hle' (min k (p.answers.length + p.authorities.length)) (by omega)
    have g3 := listPlaced_forth record_forth s2
    have l1 := p.header.ansCount.toNat_lt
    have l2 := p.header.authCount.toNat_lt
    have l3 := p.header.addCount.toNat_lt
    have small : ∀ n : Nat, n < 65536 → n = (UInt16.ofNat n).toNat := fun n hn =>
      (UInt16.toNat_ofNat_of_lt' (by simpa [UInt16.size] using hn)).symm
    refine ⟨hlen, c1, small _ ?_, small _ ?_, small _ ?_, 12, i2, _, _, k2, _, _, K k, headerOctets_items _ _,
      hs.questions (Nat.le_refl _) (by omega) h1, hs.records f1 g1 s1, hs.records (by omega) g2 s2, ?_⟩
    · simp [firstRecords]; omega
    · simp [firstRecords]; omega
    · simp [firstRecords]; omega
    · rw [hlen]; exact hs.records (by omega) (Nat.le_refl _) s3

/-- C115 (partial): the same for what the crate reads.  What is missing: messages in which a name has a pointer to
something else than a prior name (false, see `C115_counterexample`), and data that are not `ReadWell` (C99). -/
theorem C115_partial (T : RecordType → Bool) (cfg : Cfg) (d : Bytes) (p : Packet) (h : PlacedMessage T cfg d p)
    (hv : ∀ x ∈ records p, Writable cfg 63 x.rdata ∧ ReadWell x.rdata) :
    Packet.parse cfg d = .ok p ∧
    ∃ t : Nat → Nat, ListAt (QuestionAt LegalName cfg d) 12 p.questions (t 0) ∧ t (records p).length = d.length ∧
      (∀ k (hk : k < (records p).length), t k < t (k + 1) ∧
        ResourceRecord.parse cfg d (t k) = (.ok (records p)[k], t (k + 1))) ∧
      ∀ k ≤ (records p).length, ∀ id fl,
        (reheaded (firstRecords id fl k p).header (t k) d).length = t k ∧
        Packet.parse cfg (reheaded (firstRecords id fl k p).header (t k) d) = .ok (firstRecords id fl k p) := by
  obtain ⟨t, h0, h1, h2, h3, h4, h5⟩ := C115_message T cfg d p h
  refine ⟨placed_read h hv, t, h0, h2, fun k hk => ⟨h3 k hk, h4 k hk (hv _ (List.getElem_mem hk))⟩, fun k hk id fl =>
    ⟨(h5 k hk id fl).1, placed_read (h5 k hk id fl).2 fun x hx => hv x ?_⟩⟩
  simp only [records, firstRecords, List.mem_append] at hx ⊢
  rcases hx with (hx | hx) | hx
  · exact .inl (.inl (List.mem_of_mem_take hx))
  · exact .inl (.inr (List.mem_of_mem_take hx))
  · exact .inr (List.mem_of_mem_take hx)

theorem last_below {t : Nat → Nat} {limit : Nat} (h : t 0 ≤ limit) :
    ∀ n, ∃ k ≤ n, t k ≤ limit ∧ (k = n ∨ limit < t (k + 1)) := by
  intro n
  induction n with
  | zero => exact ⟨0, Nat.le_refl _, h, .inl rfl⟩
  | succ n ih =>
    obtain ⟨k, h1, h2, h3⟩ := ih
    by_cases h4 : limit < t (k + 1)
    · exact ⟨k, by omega, h2, .inr h4⟩
    · obtain rfl : k = n := h3.resolve_right h4
      exact ⟨k + 1, Nat.le_refl _, by omega, .inl rfl⟩

/-- C115 for a limit (partial, as above): if the header and the questions have room in `limit` octets, as many of the
first records can be sent as have room, too: either all, or one more would be too much. -/
theorem C115_limit_partial (T : RecordType → Bool) (cfg : Cfg) (d : Bytes) (p : Packet) (h : PlacedMessage T cfg d p)
    (hv : ∀ x ∈ records p, Writable cfg 63 x.rdata ∧ ReadWell x.rdata) (limit : Nat) (id : UInt16) (fl : Flags) :
    ∃ t0, ListAt (QuestionAt LegalName cfg d) 12 p.questions t0 ∧ (t0 ≤ limit →
      ∃ k t, t ≤ limit ∧ (reheaded (firstRecords id fl k p).header t d).length = t ∧
        Packet.parse cfg (reheaded (firstRecords id fl k p).header t d) = .ok (firstRecords id fl k p) ∧
        ((k = (records p).length ∧ t = d.length) ∨
          ∃ r e, (records p)[k]? = some r ∧ ResourceRecord.parse cfg d t = (.ok r, e) ∧ limit < e)) := by
  obtain ⟨_, t, h1, h2, h3, h4⟩ := C115_partial T cfg d p h hv
  refine ⟨t 0, h1, fun hl => ?_⟩
  obtain ⟨k, b1, b2, b3⟩ := last_below hl (records p).length
  refine ⟨k, t k, b2, (h4 k b1 id fl).1, (h4 k b1 id fl).2, ?_⟩
  by_cases hk : k = (records p).length
  · exact .inl ⟨hk, by rw [hk, h2]⟩
  · have hk' : k < (records p).length := by omega
    exact .inr ⟨_, _, List.getElem?_eq_getElem hk', (h3 k hk').2, b3.resolve_left hk⟩

/-! ### C116 -/

theorem items_known {d : Bytes} : ∀ {its : List Item} {known known' : Places} {i j : Nat},
    Items.Placed d known i its j known' → ∀ x ∈ known, x ∈ known' := by
  intro its
  induction its with
  | nil => rintro known known' i j ⟨_, rfl⟩ x hx; exact hx
  | cons it its ih =>
    intro known known' i j h x hx
    by_cases hn : ∃ n, it = .name n
    · obtain ⟨n, rfl⟩ := hn
      obtain ⟨k, new, _, h2⟩ := h
      exact ih h2 x (List.mem_append_left _ hx)
    · obtain ⟨k, _, h2⟩ := (placed_cons (fun n hh => hn ⟨n, hh⟩)).mp h
      exact ih h2 x hx

theorem question_known {d : Bytes} {cfg : Cfg} {known known' : Places} {i j : Nat} {q : Question}
    (h : QuestionPlaced cfg d known i q j known') : ∀ x ∈ known, x ∈ known' := by
  obtain ⟨h1, v, h2, h3⟩ := h
  exact items_known h3

theorem record_known {d : Bytes} {T : RecordType → Bool} {cfg : Cfg} {known known' : Places} {i j : Nat}
    {r : ResourceRecord} (h : RecordPlaced T cfg d known i r j known') : ∀ x ∈ known, x ∈ known' := by
  obtain ⟨h1, h2, h3, v, len, k, known1, its, h4, h5, h6, h7, h8, h9⟩ := h
  intro x hx
  have := items_known h5 x hx
  split at h9
  · exact items_known h9 x this
  · exact h9.2 ▸ this

theorem list_known {α : Type} {R : Places → Nat → α → Nat → Places → Prop}
    (hR : ∀ {k k' i j x}, R k i x j k' → ∀ y ∈ k, y ∈ k') : ∀ {xs : List α} {k k' : Places} {i j : Nat},
      ListPlaced R k i xs j k' → ∀ y ∈ k, y ∈ k' := by
  intro xs
  induction xs with
  | nil => rintro k k' i j ⟨_, rfl⟩ y hy; exact hy
  | cons x xs ih => rintro k k' i j ⟨m, k1, h1, h2⟩ y hy; exact ih h2 y (hR h1 y hy)

/-- The name of the first question stands at the position 12. -/
theorem first_known {d : Bytes} {cfg : Cfg} {known' : Places} {i j : Nat} {q : Question} (hq : q.qName ≠ [])
    (h : QuestionPlaced cfg d [] i q j known') : (i, q.qName) ∈ known' := by
  obtain ⟨h1, v, h2, k, new, h3, h4⟩ := h
  refine items_known h4 _ ?_
  rw [List.nil_append]
  revert h3 hq
  cases q.qName with
  | nil => intro hq; exact absurd rfl hq
  | cons l n =>
    rintro _ (⟨t, hm, _⟩ | ⟨_, _, k, new', _, _, rfl⟩)
    · exact absurd hm (by simp)
    · exact List.mem_cons_self

/-- A record behind other octets, with its owner name or with the pointer to it. -/
theorem answer_placed {T : RecordType → Bool} {cfg : Cfg} {n : Fqdn} {b : Bytes} {r : ResourceRecord}
    (h : AnswerOctets cfg n b r) (X : Bytes) {known : Places} (hk : n ≠ [] → (12, n) ∈ known) :
    ∃ known', RecordPlaced T cfg (X ++ b) known X.length r (X.length + b.length) known' := by
  rcases h with h | ⟨c, rfl, hn, rfl, h⟩
  · have g := record_move h X
    rw [Nat.add_zero] at g
    exact plainRecord_placed g known
  · have g := record_move h (X ++ [0xC0])
    simp only [List.length_append, List.length_singleton, Nat.add_zero, List.append_assoc, List.singleton_append] at g
    obtain ⟨known', g1, g2, g3, v, len, k, known1, its, g4, ⟨m, new, ⟨a1, rfl⟩, a2⟩, g6, g7, g8, g9⟩ :=
      plainRecord_placed (T := T) g known
    have b1 := a1.end_eq
    simp only [List.length_singleton] at b1
    obtain rfl : m = X.length + 2 := by omega
    have hs : Shared (X.length + 2) (X.length + 1 + (c.length + 1)) (X ++ 0xC0 :: 0 :: c) (X ++ 0xC0 :: 0x0C :: c) := by
      refine ⟨by simp; omega, by simp; omega, fun i h1 h2 => ?_⟩
      rw [List.getElem?_append_right (by omega), List.getElem?_append_right (by omega)]
      obtain ⟨e, he⟩ : ∃ e, i - X.length = e + 2 := ⟨i - X.length - 2, by omega⟩
      rw [he]
      rfl
    rw [List.append_nil] at a2
    have f2 := placed_forth a2
    have e : X.length + (0xC0 :: 0x0C :: c : Bytes).length = X.length + 1 + (c.length + 1) := by
      simp only [List.length_cons]; omega
    rw [e]
    refine ⟨known', g1, g2, g3, v, len, k, known1, its, g4, ⟨X.length + 2, [], ?_, ?_⟩, g6, by simp; omega, g8,
      hs.data f2 g9⟩
    · obtain ⟨l, n', hl⟩ : ∃ l n', r.name = l :: n' := by
        cases hc : r.name with
        | nil => exact absurd hc hn
        | cons l n' => exact ⟨l, n', rfl⟩
      rw [hl]
      exact .inl ⟨12, hl ▸ hk hn, by decide, ⟨X, c, by
        rw [show octets16 (UInt16.ofNat (49152 + 12)) = [0xC0, 0x0C] by decide]; simp, rfl, rfl⟩, rfl⟩
    · rw [List.append_nil]
      exact hs.items (.inl (by simp [Item.Open, o16])) (Nat.le_refl _) (by omega) a2

theorem answers_placed {T : RecordType → Bool} {cfg : Cfg} {n : Fqdn} {bs : List Bytes} {rs : List ResourceRecord}
    (h : List.Forall₂ (AnswerOctets cfg n) bs rs) : ∀ (X : Bytes) {known : Places}, (n ≠ [] → (12, n) ∈ known) →
    ∃ known', ListPlaced (RecordPlaced T cfg (X ++ bs.flatten)) known X.length rs (X ++ bs.flatten).length known' := by
  induction h with
  | nil => intro X known _; exact ⟨known, by simp, rfl⟩
  | @cons b r bs rs h1 h2 ih =>
    intro X known hk
    obtain ⟨k1, g1⟩ := answer_placed (T := T) h1 X hk
    obtain ⟨k2, g2⟩ := ih (X ++ b) (known := k1) (fun hn => record_known g1 _ (hk hn))
    rw [List.flatten_cons, ← List.append_assoc]
    have hs : Shared 0 (X ++ b).length (X ++ b) (X ++ b ++ bs.flatten) :=
      Shared.extend ⟨Nat.le_refl _, Nat.le_refl _, fun _ _ _ => rfl⟩ _
    refine ⟨k2, (X ++ b).length, k1, ?_, g2⟩
    rw [List.length_append]
    exact hs.record (Nat.zero_le _) (by simp) g1

/-- C116: a reply made of the octets of the questions.  `d` is a message of RFC 1035 whose pointers lead to prior names,
its questions stand before the position `t`.  The octets of the questions, behind a header with any identification and
flags and before the octets of any records, are such a message, with the same questions and with these records as answers;
for the owner name of a record there may be the pointer 0xC00C, which stands for the name of the first question. -/
theorem C116_message (T : RecordType → Bool) (cfg : Cfg) (d : Bytes) (p : Packet) (q : Question) (qs : List Question)
    (bs : List Bytes) (rs : List ResourceRecord) (h : PlacedMessage T cfg d p) (hq : p.questions = q :: qs)
    (hb : List.Forall₂ (AnswerOctets cfg q.qName) bs rs) (hn : rs.length < 65536) :
    ∃ t, ListAt (QuestionAt LegalName cfg d) 12 p.questions t ∧ (records p = [] → t = d.length) ∧
      ∀ id fl, PlacedMessage T cfg (reheaded (replyPacket id fl p.questions rs).header t d ++ bs.flatten)
        (replyPacket id fl p.questions rs) := by
  obtain ⟨c1, c2, c3, c4, i1, i2, i3, i4, k2, k3, k4, k5, h0, h1, h2, h3, h4⟩ := h
  obtain ⟨rfl, hl⟩ := header_items h0
  have f1 := listPlaced_forth question_forth h1
  obtain ⟨v1, v2, v3⟩ := listPlaced_legal QuestionPlaced.legal hl (by simp [Valid]) h1
  refine ⟨i2, v1, fun hr => ?_, fun id fl => ?_⟩
  · have := listPlaced_append (listPlaced_append h2 h3) h4
    rw [show p.answers ++ p.authorities ++ p.additional = [] from hr] at this
    exact this.1
  · have hk : q.qName ≠ [] → (12, q.qName) ∈ k2 := by
      intro hne
      rw [hq] at h1
      obtain ⟨m, k1, g1, g2⟩ := h1
      exact list_known question_known g2 _ (first_known hne g1)
    obtain ⟨k3', g⟩ := answers_placed (T := T) hb (reheaded (replyPacket id fl p.questions rs).header i2 d) hk
    have hlen := reheaded_length (h := (replyPacket id fl p.questions rs).header) f1 v3
    have hs := (reheaded_shared (replyPacket id fl p.questions rs).header f1 v3).extend bs.flatten
    have small : ∀ n : Nat, n < 65536 → n = (UInt16.ofNat n).toNat := fun n hn =>
      (UInt16.toNat_ofNat_of_lt' (by simpa [UInt16.size] using hn)).symm
    rw [hlen] at g
    refine ⟨small _ ?_, small _ hn, rfl, rfl, 12, i2, _, _, k2, k3', k3', k3', ?_,
      hs.questions (Nat.le_refl _) (Nat.le_refl _) h1, g, ⟨rfl, rfl⟩, rfl, rfl⟩
    · show p.questions.length < 65536
      rw [c1]; exact p.header.quesCount.toNat_lt
    · rw [reheaded, List.append_assoc]
      exact headerOctets_items _ _

/-- C116 (partial): the same for what the crate reads.  What is missing: messages in which a name has a pointer to
something else than a prior name (false, see `C116_counterexample`), and data that are not `ReadWell` (C99). -/
theorem C116_partial (T : RecordType → Bool) (cfg : Cfg) (d : Bytes) (p : Packet) (q : Question) (qs : List Question)
    (bs : List Bytes) (rs : List ResourceRecord) (h : PlacedMessage T cfg d p) (hq : p.questions = q :: qs)
    (hb : List.Forall₂ (AnswerOctets cfg q.qName) bs rs) (hn : rs.length < 65536)
    (hv : ∀ x ∈ records p ++ rs, Writable cfg 63 x.rdata ∧ ReadWell x.rdata) :
    Packet.parse cfg d = .ok p ∧
    ∃ t, ListAt (QuestionAt LegalName cfg d) 12 p.questions t ∧ (records p = [] → t = d.length) ∧
      ∀ id fl, Packet.parse cfg (reheaded (replyPacket id fl p.questions rs).header t d ++ bs.flatten) =
        .ok (replyPacket id fl p.questions rs) := by
  obtain ⟨t, h1, h2, h3⟩ := C116_message T cfg d p q qs bs rs h hq hb hn
  refine ⟨placed_read h fun x hx => hv x (List.mem_append_left _ hx), t, h1, h2, fun id fl => placed_read (h3 id fl) fun x hx =>
    hv x (List.mem_append_right _ ?_)⟩
  simpa [records, replyPacket] using hx

/-- C116 for what the crate writes itself: the octets of a query that `to_bytes_compressed` writes, with another header,
and behind them those that `to_bytes` writes for each answer with the root as owner name, with 0xC00C in place of this
root (partial, in the cases of C97 in which both are written as they should be). -/
theorem C116_own_partial (cfg : Cfg) (h : Hash) (p : Packet) (q : Question) (qs : List Question) (rs : List ResourceRecord)
    (hp : PacketOk cfg 63 p) (hc : CountsOk p) (hh : NoCollision h (packetNames p)) (hr : records p = [])
    (hq : p.questions = q :: qs) (hq' : q.qName ≠ []) (hn : rs.length < 65536)
    (hs : ∀ x ∈ rs, x.name = q.qName ∧ RecordOk cfg 63 { x with name := [] } ∧ sizeError x.rdata = 0 ∧
      ReadWell x.rdata ∧ WrittenWell x.rdata) :
    ∃ a cs, p.toBytesCompressed cfg h = .ok a ∧
      List.Forall₂ (fun c r => ResourceRecord.toBytes cfg { r with name := [] } = .ok (0 :: c)) cs rs ∧
      (a.length ≤ 16384 → ∀ id fl, Packet.parse cfg (headerOctets (replyPacket id fl p.questions rs).header ++ a.drop 12 ++
        (cs.map fun c => 0xC0 :: 0x0C :: c).flatten) = .ok (replyPacket id fl p.questions rs)) := by
  obtain ⟨a, ha, h1, _⟩ := C111_shortest cfg h p hp hc hh (by rw [hr]; simp)
  have key : ∀ rs : List ResourceRecord, (∀ x ∈ rs, x.name = q.qName ∧ RecordOk cfg 63 { x with name := [] } ∧
      sizeError x.rdata = 0 ∧ ReadWell x.rdata ∧ WrittenWell x.rdata) → ∃ cs : List Bytes,
      List.Forall₂ (fun c r => ResourceRecord.toBytes cfg { r with name := [] } = .ok (0 :: c)) cs rs ∧
      List.Forall₂ (AnswerOctets cfg q.qName) (cs.map fun c => 0xC0 :: 0x0C :: c) rs := by
    intro rs
    induction rs with
    | nil => intro _; exact ⟨[], .nil, .nil⟩
    | cons r rs ih =>
      intro hs
      obtain ⟨cs, g1, g2⟩ := ih fun x hx => hs x (List.mem_cons_of_mem _ hx)
      obtain ⟨e1, e2, e3, e4, e5⟩ := hs r List.mem_cons_self
      obtain ⟨b, hb, h2⟩ := ResourceRecord.sent (N := PlainName) (max := 63) (nameWith_extends _ _)
        (nameWith_plain_end (by decide) _) e2 e5 e3 e2.2.2.2.2.2.2.1.sets []
      rw [List.nil_append] at h2
      have hc : ∃ c, b = 0 :: c := by
        obtain ⟨_, _, v, len, k, _, ⟨m, a1, _⟩, _⟩ := h2
        cases a1 with
        | root h =>
          cases b with
          | nil => simp at h
          | cons x b => simp only [List.length_nil, List.getElem?_cons_zero, Option.some.injEq] at h; exact ⟨b, by rw [h]⟩
        | pointer _ _ h _ => exact h.elim
      obtain ⟨c, rfl⟩ := hc
      exact ⟨c :: cs, .cons hb g1, .cons (.inr ⟨c, rfl, hq', e1, by simpa using h2⟩) g2⟩
  obtain ⟨cs, g1, g2⟩ := key rs hs
  refine ⟨a, cs, ha, g1, fun hl id fl => ?_⟩
  obtain ⟨_, t, _, t2, t3⟩ := C116_partial compressedType cfg a p q qs _ rs (h1 hl) hq g2 hn (by
    intro x hx
    rw [hr, List.nil_append] at hx
    obtain ⟨_, e2, _, e4, _⟩ := hs x hx
    exact ⟨e2.2.2.2.2.2.2.1, e4⟩)
  have := t3 id fl
  rw [reheaded, t2 hr, List.take_length] at this
  exact this

/-! ### C117 -/

/-- The record at `s` in other octets, with another TTL. -/
theorem record_retime {T : RecordType → Bool} {cfg : Cfg} {d : Bytes} {known known' : Places} {s e : Nat} {r : ResourceRecord}
    (h : RecordPlaced T cfg d known s r e known') :
    ∃ k new, NamePlaced known d s r.name k new ∧ s < k ∧ k + 10 ≤ e ∧ Octets d (k + 4) (octets32 r.ttl) (k + 8) ∧
      ∀ ttl d', Shared s (k + 4) d d' → Shared (k + 8) e d d' → Octets d' (k + 4) (octets32 ttl) (k + 8) →
        RecordPlaced T cfg d' known s { r with ttl := ttl } e known' := by
  obtain ⟨h1, h2, h3, v, len, m, known1, its, h4, ⟨k, new, a1, k1, a2, k2, a3, k3, a4, k4, a5, a6, a7⟩, h6, h7, h8, h9⟩ := h
  have b2 := a2.end_eq; have b3 := a3.end_eq; have b4 := a4.end_eq; have b5 := a5.end_eq
  have hk := namePlaced_lt a1
  simp only [octets16, octets32, List.length_cons, List.length_nil] at b2 b3 b4 b5
  obtain rfl : k1 = k + 2 := by omega
  obtain rfl : k2 = k + 4 := by omega
  obtain rfl : k3 = k + 8 := by omega
  obtain rfl : k4 = k + 10 := by omega
  obtain rfl : k + 10 = m := a6
  refine ⟨k, new, a1, hk, by omega, a4, fun ttl d' s1 s2 hd => ?_⟩
  exact ⟨h1, h2, h3, v, len, k + 10, known1, its, h4, ⟨k, new, s1.name (Nat.le_refl _) (by omega) a1, k + 2,
    s1.octets (by omega) (by omega) a2, k + 4, s1.octets (by omega) (by omega) a3, k + 8, hd, k + 10,
    s2.octets (by omega) (by omega) a5, rfl, a7⟩, h6, s2.right, h8, s2.data (by omega) h9⟩

theorem records_retime {T : RecordType → Bool} {cfg : Cfg} {d : Bytes} : ∀ {xs : List ResourceRecord} {ka kb : Places} {a b : Nat},
    a ≤ d.length → Valid d a ka → ListPlaced (RecordPlaced T cfg d) ka a xs b kb →
    ∃ ks : List Nat, List.Forall₂ (fun k r => ∃ s n e, k = n + 4 ∧ LegalName d s r.name n ∧
        Octets d k (octets32 r.ttl) (k + 4) ∧
        (Writable cfg 63 r.rdata ∧ ReadWell r.rdata → ResourceRecord.parse cfg d s = (.ok r, e))) ks xs ∧
      (∀ k ∈ ks, a < k ∧ k + 4 ≤ b) ∧
      ∀ ttls d', d'.length = d.length →
        (∀ i, a ≤ i → i < b → (∀ k ∈ ks, i < k ∨ k + 4 ≤ i) → d'[i]? = d[i]?) →
        List.Forall₂ (fun k ttl => Octets d' k (octets32 ttl) (k + 4)) ks ttls →
        ListPlaced (RecordPlaced T cfg d') ka a (retimed xs ttls) b kb := by
  intro xs
  induction xs with
  | nil =>
    rintro ka kb a b _ _ ⟨rfl, rfl⟩
    exact ⟨[], .nil, by simp, fun ttls d' _ _ _ => ⟨rfl, rfl⟩⟩
  | cons x xs ih =>
    rintro ka kb a b ha hv ⟨e, ke, h1, h2⟩
    obtain ⟨_, v2, v3⟩ := RecordPlaced.legal ha hv h1
    obtain ⟨_, _, v6⟩ := listPlaced_legal RecordPlaced.legal v3 v2 h2
    have f2 := listPlaced_forth record_forth h2
    obtain ⟨ks, g1, g2, g3⟩ := ih v3 v2 h2
    obtain ⟨k, new, a1, a2, a3, a4, a5⟩ := record_retime h1
    refine ⟨(k + 4) :: ks, .cons ⟨a, k, e, rfl, (NamePlaced.legal hv (Nat.le_refl _) a1).2.1, a4,
      fun hw => record_read ha hv h1 hw⟩ g1, ?_, ?_⟩
    · intro m hm
      rcases List.mem_cons.mp hm with rfl | hm
      · omega
      · have := g2 m hm; omega
    · rintro _ d' hl hd (_ | ⟨b1, b2⟩)
      refine ⟨e, ke, a5 _ d' ⟨by omega, by omega, fun i h3 h4 => hd i h3 (by omega) ?_⟩
        ⟨by omega, by omega, fun i h3 h4 => hd i (by omega) (by omega) ?_⟩ b1, g3 _ d' hl (fun i h3 h4 h5 => hd i (by omega) h4 ?_) b2⟩
      all_goals
        intro m hm
        rcases List.mem_cons.mp hm with rfl | hm
        · omega
        · first | exact h5 m hm | (have := g2 m hm; omega)

theorem retimed_append : ∀ (xs ys : List ResourceRecord) (ttls : List UInt32),
    retimed (xs ++ ys) ttls = retimed xs ttls ++ retimed ys (ttls.drop xs.length) := by
  intro xs
  induction xs with
  | nil => intro ys ttls; rfl
  | cons x xs ih =>
    intro ys ttls
    cases ttls with
    | nil => simp [retimed]
    | cons t ttls =>
      have := ih ys ttls
      simp only [retimed] at this ⊢
      simp [this]

/-- C117: changing all TTLs.  `d` is a message of RFC 1035 whose pointers lead to prior names.  There is a list of places,
one for each record: four octets behind the end of its name, where its TTL stands.  Any octets that have other TTLs at
these places and are the same elsewhere are such a message again, which says what `d` says except for the TTLs. -/
theorem C117_message (T : RecordType → Bool) (cfg : Cfg) (d : Bytes) (p : Packet) (h : PlacedMessage T cfg d p) :
    ∃ ks : List Nat, List.Forall₂ (fun k r => ∃ s n e, k = n + 4 ∧ LegalName d s r.name n ∧
        Octets d k (octets32 r.ttl) (k + 4) ∧
        (Writable cfg 63 r.rdata ∧ ReadWell r.rdata → ResourceRecord.parse cfg d s = (.ok r, e))) ks (records p) ∧
      ∀ ttls d', d'.length = d.length → (∀ i, (∀ k ∈ ks, i < k ∨ k + 4 ≤ i) → d'[i]? = d[i]?) →
        List.Forall₂ (fun k ttl => Octets d' k (octets32 ttl) (k + 4)) ks ttls →
        PlacedMessage T cfg d' (withTtls ttls p) := by
  obtain ⟨c1, c2, c3, c4, i1, i2, i3, i4, k2, k3, k4, k5, h0, h1, h2, h3, h4⟩ := h
  obtain ⟨rfl, hl⟩ := header_items h0
  have f1 := listPlaced_forth question_forth h1
  obtain ⟨v1, v2, v3⟩ := listPlaced_legal QuestionPlaced.legal hl (by simp [Valid]) h1
  have hr : ListPlaced (RecordPlaced T cfg d) k2 i2 (records p) d.length k5 :=
    listPlaced_append (listPlaced_append h2 h3) h4
  obtain ⟨ks, g1, g2, g3⟩ := records_retime v3 v2 hr
  refine ⟨ks, g1, fun ttls d' hd hs ht => ?_⟩
  have g4 := g3 ttls d' hd (fun i _ _ h => hs i h) ht
  rw [records, List.append_assoc, retimed_append, retimed_append, List.drop_drop] at g4
  obtain ⟨j3, q3, w1, g5⟩ := listPlaced_split g4
  obtain ⟨j4, q4, w2, w3⟩ := listPlaced_split g5
  have s0 : Shared 0 i2 d d' := ⟨by omega, by omega, fun i _ hi => hs i fun k hk => .inl (by have := g2 k hk; omega)⟩
  have hlen : ttls.length = (records p).length := by rw [← ht.length_eq, g1.length_eq]
  simp only [records, List.length_append] at hlen
  have hz : ∀ (rs : List ResourceRecord) (ts : List UInt32), rs.length ≤ ts.length → (retimed rs ts).length = rs.length := by
    intro rs ts h
    simp [retimed]
    omega
  refine ⟨c1, (hz _ _ (by omega)).trans c2, (hz _ _ (by simp; omega)).trans c3, (hz _ _ (by simp; omega)).trans c4,
    12, i2, j3, j4, k2, q3, q4, k5, ?_, s0.questions (Nat.zero_le _) (Nat.le_refl _) h1, w1, w2, hd ▸ w3⟩
  obtain ⟨m1, a1, m2, a2, m3, a3, m4, a4, m5, a5, m6, a6, m7, a7, a8⟩ := h0
  have b1 := a1.end_eq; have b2 := a2.end_eq; have b3 := a3.end_eq; have b4 := a4.end_eq
  have b5 := a5.end_eq; have b6 := a6.end_eq; have b7 := a7.end_eq
  have a8' : m7 = 12 := a8
  simp only [octets16, List.length_cons, List.length_nil] at b1 b2 b3 b4 b5 b6 b7
  have key : ∀ {x : Bytes} {i j : Nat}, j ≤ 12 → Octets d i x j → Octets d' i x j := fun hj ho =>
    s0.octets (Nat.zero_le _) (by omega) ho
  exact ⟨m1, key (by omega) a1, m2, key (by omega) a2, m3, key (by omega) a3, m4, key (by omega) a4, m5,
    key (by omega) a5, m6, key (by omega) a6, m7, key (by omega) a7, a8⟩

/-- C117 (partial): the same for what the crate reads.  What is missing: messages in which a name has a pointer to
something else than a prior name (false, see `C114_counterexample`), and data that are not `ReadWell` (C99). -/
theorem C117_partial (T : RecordType → Bool) (cfg : Cfg) (d : Bytes) (p : Packet) (h : PlacedMessage T cfg d p)
    (hv : ∀ x ∈ records p, Writable cfg 63 x.rdata ∧ ReadWell x.rdata) :
    Packet.parse cfg d = .ok p ∧
    ∃ ks : List Nat, List.Forall₂ (fun k r => ∃ s n e, k = n + 4 ∧ extractFqdn d s = (.ok r.name, n) ∧
        Octets d k (octets32 r.ttl) (k + 4) ∧ ResourceRecord.parse cfg d s = (.ok r, e)) ks (records p) ∧
      ∀ ttls d', d'.length = d.length → (∀ i, (∀ k ∈ ks, i < k ∨ k + 4 ≤ i) → d'[i]? = d[i]?) →
        List.Forall₂ (fun k ttl => Octets d' k (octets32 ttl) (k + 4)) ks ttls →
        Packet.parse cfg d' = .ok (withTtls ttls p) := by
  obtain ⟨ks, h1, h2⟩ := C117_message T cfg d p h
  refine ⟨placed_read h hv, ks, ?_, fun ttls d' a b c => placed_read (h2 ttls d' a b c) fun x hx => ?_⟩
  · revert hv
    clear h h2
    generalize records p = rs at h1
    intro hv
    induction h1 with
    | nil => exact .nil
    | @cons k r ks rs h1 h2 ih =>
      refine .cons ?_ (ih fun x hx => hv x (List.mem_cons_of_mem _ hx))
      obtain ⟨s, n, e, e1, e2, e3, e4⟩ := h1
      refine ⟨s, n, e, e1, ?_, e3, e4 (hv r List.mem_cons_self)⟩
      obtain ⟨k', g1, g2⟩ := legal_decodes (its := [.name r.name]) (j := n) ⟨n, e2, rfl⟩
      have g2 : k' = n := g2
      rw [← g2]
      exact g1
  · have key : ∀ (rs : List ResourceRecord) (ts : List UInt32), x ∈ retimed rs ts → ∃ y ∈ rs, x.rdata = y.rdata := by
      intro rs
      induction rs with
      | nil => intro ts hx; simp [retimed] at hx
      | cons r rs ih =>
        intro ts hx
        cases ts with
        | nil => simp [retimed] at hx
        | cons t ts =>
          rcases List.mem_cons.mp hx with rfl | hx
          · exact ⟨r, List.mem_cons_self, rfl⟩
          · obtain ⟨y, h1, h2⟩ := ih ts hx
            exact ⟨y, List.mem_cons_of_mem _ h1, h2⟩
    have : ∃ y ∈ records p, x.rdata = y.rdata := by
      simp only [records, withTtls, List.mem_append] at hx ⊢
      rcases hx with (hx | hx) | hx <;> obtain ⟨y, h1, h2⟩ := key _ _ hx
      · exact ⟨y, .inl (.inl h1), h2⟩
      · exact ⟨y, .inl (.inr h1), h2⟩
      · exact ⟨y, .inr h1, h2⟩
    obtain ⟨y, h1, h2⟩ := this
    rw [h2]
    exact hv y h1

/-! ### Counterexamples and examples -/

/-- C115 is false of messages in which a name has a pointer to ANCOUNT: the question of this message of RFC 1035 is for
a name with the label of one zero octet; without the answer it is for the root. -/
theorem C115_counterexample (cfg : Cfg) : ∃ (d : Bytes) (p q : Packet),
    ReceivedMessage cfg d p d.length ∧ Packet.parse cfg d = .ok p ∧ ListAt (QuestionAt LegalName cfg d) 12 p.questions 18 ∧
    Packet.parse cfg (reheaded (firstRecords 1 ⟨0, 0⟩ 0 p).header 18 d) = .ok q ∧
    p.questions.map (·.qName) = [[[0]]] ∧ q.questions.map (·.qName) = [[]] := by
  have hq : ListAt (QuestionAt LegalName cfg [0, 1, 0, 0, 0, 1, 0, 1, 0, 0, 0, 0, 0xC0, 7, 0, 1, 0, 1,
      0, 0, 1, 0, 1, 0, 0, 0, 5, 0, 4, 10, 0, 0, 1]) 12 [⟨[[0]], .rr .A, .IN, false⟩] 18 := by
    refine ⟨18, ⟨?_, 1, ?_, 14, ?_, 16, ?_, 18, ?_, rfl⟩, rfl⟩
    · simp [QReadable, Readable, dnssecTypes]
    · exact ⟨rfl, by simp⟩
    · exact .pointer (hi := 0xC0) (lo := 7) (by decide) (octets_iff.mpr (by decide)) (by decide)
        (.label (len := 1) (by decide) (by decide) rfl (octets_iff.mpr (by decide)) (.root rfl))
    · exact octets_iff.mpr (by decide)
    · exact octets_iff.mpr (by decide)
  refine ⟨[0, 1, 0, 0, 0, 1, 0, 1, 0, 0, 0, 0, 0xC0, 7, 0, 1, 0, 1, 0, 0, 1, 0, 1, 0, 0, 0, 5, 0, 4, 10, 0, 0, 1],
    ⟨⟨1, ⟨0, 0⟩, 1, 1, 0, 0⟩, [⟨[[0]], .rr .A, .IN, false⟩], [⟨[], .A, false, .IN, 5, .A ⟨0x0A000001⟩⟩], [], []⟩,
    ⟨⟨1, ⟨0, 0⟩, 1, 0, 0, 0⟩, [⟨[], .rr .A, .IN, false⟩], [], [], []⟩, ?_, ?_, hq, ?_, rfl, rfl⟩
  · refine ⟨rfl, rfl, rfl, rfl, 12, 18, 33, 33, ?_, hq, ⟨33, ⟨by simp [Readable, dnssecTypes], by simp [classOk], 1, 4, 29,
      ⟨rfl, by simp⟩, ⟨19, .root rfl, 21, octets_iff.mpr (by decide), 23, octets_iff.mpr (by decide), 27,
        octets_iff.mpr (by decide), 29, octets_iff.mpr (by decide), rfl⟩, rfl, by decide, rfl, [.u32 0x0A000001], rfl, 33,
        octets_iff.mpr (by decide), rfl⟩, rfl⟩, rfl, rfl⟩
    exact ⟨2, octets_iff.mpr (by decide), 3, octets_iff.mpr (by decide), 4, octets_iff.mpr (by decide),
      6, octets_iff.mpr (by decide), 8, octets_iff.mpr (by decide), 10, octets_iff.mpr (by decide),
      12, octets_iff.mpr (by decide), rfl⟩
  all_goals
    obtain ⟨o, m, s⟩ := cfg
    cases o <;> cases m <;> cases s <;> decide +kernel

/-- C116 is false of queries in which a name has a pointer to ANCOUNT: this query of RFC 1035 is for the root; in the
reply with one answer the question is for a name with the label of one zero octet. -/
theorem C116_counterexample (cfg : Cfg) : ∃ (d b : Bytes) (p q : Packet) (r : ResourceRecord),
    ReceivedMessage cfg d p d.length ∧ Packet.parse cfg d = .ok p ∧ ListAt (QuestionAt LegalName cfg d) 12 p.questions d.length ∧
    r.toBytes cfg = .ok b ∧
    Packet.parse cfg (reheaded (replyPacket 1 ⟨0x80, 0⟩ p.questions [r]).header d.length d ++ b) = .ok q ∧
    p.questions.map (·.qName) = [[]] ∧ q.questions.map (·.qName) = [[[0]]] := by
  have hq : ListAt (QuestionAt LegalName cfg [0, 1, 0, 0, 0, 1, 0, 0, 0, 0, 0, 0, 0xC0, 7, 0, 1, 0, 1]) 12
      [⟨[], .rr .A, .IN, false⟩] 18 := by
    refine ⟨18, ⟨?_, 1, ?_, 14, ?_, 16, ?_, 18, ?_, rfl⟩, rfl⟩
    · simp [QReadable, Readable, dnssecTypes]
    · exact ⟨rfl, by simp⟩
    · exact .pointer (hi := 0xC0) (lo := 7) (by decide) (octets_iff.mpr (by decide)) (by decide) (.root rfl)
    · exact octets_iff.mpr (by decide)
    · exact octets_iff.mpr (by decide)
  refine ⟨[0, 1, 0, 0, 0, 1, 0, 0, 0, 0, 0, 0, 0xC0, 7, 0, 1, 0, 1],
    [0, 0, 1, 0, 1, 0, 0, 0, 5, 0, 4, 10, 0, 0, 1],
    ⟨⟨1, ⟨0, 0⟩, 1, 0, 0, 0⟩, [⟨[], .rr .A, .IN, false⟩], [], [], []⟩,
    ⟨⟨1, ⟨0x80, 0⟩, 1, 1, 0, 0⟩, [⟨[[0]], .rr .A, .IN, false⟩], [⟨[], .A, false, .IN, 5, .A ⟨0x0A000001⟩⟩], [], []⟩,
    ⟨[], .A, false, .IN, 5, .A ⟨0x0A000001⟩⟩, ?_, ?_, hq, ?_, ?_, rfl, rfl⟩
  · refine ⟨rfl, rfl, rfl, rfl, 12, 18, 18, 18, ?_, hq, rfl, rfl, rfl⟩
    exact ⟨2, octets_iff.mpr (by decide), 3, octets_iff.mpr (by decide), 4, octets_iff.mpr (by decide),
      6, octets_iff.mpr (by decide), 8, octets_iff.mpr (by decide), 10, octets_iff.mpr (by decide),
      12, octets_iff.mpr (by decide), rfl⟩
  all_goals
    obtain ⟨o, m, s⟩ := cfg
    cases o <;> cases m <;> cases s <;> decide +kernel

/-- C115: a message with two records can be cut between them. -/
example : PlacedMessage compressedType ⟨true, true, true⟩ (arcount 1 looseOctets ++ tailOctets)
      (withAdditional [tailRecord] loosePacket) ∧
    (∀ x ∈ records (withAdditional [tailRecord] loosePacket), Writable ⟨true, true, true⟩ 63 x.rdata ∧ ReadWell x.rdata) ∧
    (records (withAdditional [tailRecord] loosePacket)).length = 2 ∧
    Packet.parse ⟨true, true, true⟩ (reheaded (firstRecords 9 ⟨0x82, 0⟩ 1 (withAdditional [tailRecord] loosePacket)).header 41
      (arcount 1 looseOctets ++ tailOctets)) = .ok (firstRecords 9 ⟨0x82, 0⟩ 1 (withAdditional [tailRecord] loosePacket)) := by
  refine ⟨C113_append_message compressedType ⟨true, true, true⟩ looseOctets tailOctets loosePacket tailRecord loose_placed
    tail_record (by decide), fun x hx => loose_data x ?_, rfl, by decide +kernel⟩
  simp only [records, withAdditional, List.mem_append, List.mem_cons, List.not_mem_nil, or_false] at hx ⊢
  tauto

/-- C116: the hypotheses are met, with an answer whose owner name is a pointer to the question. -/
example : PlacedMessage compressedType ⟨true, true, true⟩ looseOctets loosePacket ∧
    loosePacket.questions = [⟨[[97], [98]], .rr .MX, .IN, false⟩] ∧
    List.Forall₂ (AnswerOctets ⟨true, true, true⟩ [[97], [98]]) [0xC0 :: 0x0C :: tailOctets.tail]
      [{ tailRecord with name := [[97], [98]] }] ∧
    Packet.parse ⟨true, true, true⟩ (reheaded (replyPacket 9 ⟨0x80, 0⟩ loosePacket.questions
      [{ tailRecord with name := [[97], [98]] }]).header 21 looseOctets ++ [0xC0 :: 0x0C :: tailOctets.tail].flatten) =
      .ok (replyPacket 9 ⟨0x80, 0⟩ loosePacket.questions [{ tailRecord with name := [[97], [98]] }]) :=
  ⟨loose_placed, rfl, .cons (.inr ⟨_, rfl, by decide, rfl, tail_record⟩) .nil, by decide +kernel⟩

/-- C116 for what the crate writes: the hypotheses are met. -/
example : ∃ (p : Packet) (q : Question), PacketOk ⟨true, true, true⟩ 63 p ∧ CountsOk p ∧ NoCollision exHash (packetNames p) ∧
    records p = [] ∧ p.questions = [q] ∧ q.qName ≠ [] ∧
    ∀ x ∈ [{ tailRecord with name := q.qName }], x.name = q.qName ∧
      RecordOk ⟨true, true, true⟩ 63 { x with name := [] } ∧ sizeError x.rdata = 0 ∧ ReadWell x.rdata ∧
      WrittenWell x.rdata := by
  have hr : RecordOk ⟨true, true, true⟩ 63 tailRecord := by
    refine ⟨by decide, by simp [tailRecord, Readable], rfl, by simp [tailRecord, classOk], by decide, by simp [tailRecord], trivial, ?_⟩
    intro b hb; cases hb; decide
  refine ⟨⟨⟨1, ⟨0, 0⟩, 1, 0, 0, 0⟩, [⟨[[97], [98]], .rr .A, .IN, false⟩], [], [], []⟩, _, ⟨?_, by simp [records], by decide,
    by decide, by decide, by decide⟩, ⟨rfl, rfl, rfl, rfl⟩, ?_, rfl, rfl, by decide, ?_⟩
  · intro q hq
    simp only [List.mem_singleton] at hq
    subst hq
    exact ⟨by decide, by simp [QReadable, Readable], by simp⟩
  · have key : ∀ a ∈ [[[97], [98]], [[98]], ([] : Fqdn)], ∀ b ∈ [[[97], [98]], [[98]], ([] : Fqdn)],
        exHash a = exHash b → a = b := by decide +kernel
    rintro a b ⟨n, hn, ha⟩ ⟨m, hm, hb⟩ h
    simp only [packetNames, records, List.map_cons, List.map_nil, List.append_nil, List.flatMap_nil, List.mem_singleton] at hn hm
    subst hn; subst hm
    exact key a ((List.mem_tails _ _).mpr ha) b ((List.mem_tails _ _).mpr hb) h
  · intro x hx
    rw [List.mem_singleton] at hx
    subst hx
    exact ⟨rfl, hr, rfl, trivial, trivial⟩

/-- C117 is false of messages with a pointer into a TTL: with another TTL they do not say the same with other TTLs. -/
theorem C117_counterexample (cfg : Cfg) : ∃ (d : Bytes) (p q : Packet),
    ReceivedMessage cfg d p d.length ∧ extractFqdn d 12 = (.ok [], 13) ∧ Packet.parse cfg d = .ok p ∧
    Packet.parse cfg (overwrite 17 (octets32 0x01620000) d) = .ok q ∧ ∀ ttls, q ≠ withTtls ttls p := by
  obtain ⟨d, p, q, h1, h2, h3, h4, h5, h6⟩ := C114_counterexample cfg
  refine ⟨d, p, q, h1, h2, h3, h4, ?_⟩
  rintro ttls rfl
  have hl : ∀ (rs : List ResourceRecord) (ts : List UInt32),
      (retimed rs ts).map (·.name) = (rs.map (·.name)).take ts.length := by
    intro rs
    induction rs with
    | nil => intro ts; simp [retimed]
    | cons r rs ih =>
      intro ts
      cases ts with
      | nil => simp [retimed]
      | cons t ts => simpa [retimed] using ih ts
  have : (p.answers.map (·.name)).take ttls.length = [[], [[98]]] := (hl p.answers ttls).symm.trans h6
  rw [h5] at this
  rcases ttls with _ | ⟨a, _ | ⟨b, t⟩⟩ <;> simp at this

/-- C117: the octets of the example with another TTL. -/
example : PlacedMessage compressedType ⟨true, true, true⟩ looseOctets loosePacket ∧
    (∀ x ∈ records loosePacket, Writable ⟨true, true, true⟩ 63 x.rdata ∧ ReadWell x.rdata) ∧
    extractFqdn looseOctets 21 = (.ok [[97], [98]], 25) ∧
    Octets (overwrite 29 (octets32 77) looseOctets) 29 (octets32 77) 33 ∧
    Packet.parse ⟨true, true, true⟩ (overwrite 29 (octets32 77) looseOctets) = .ok (withTtls [77] loosePacket) :=
  ⟨loose_placed, fun x hx => loose_data x (List.mem_cons_of_mem _ hx), by decide +kernel, octets_iff.mpr (by decide),
    by decide +kernel⟩

end Dns
