import Verif.Lemmas.PlacedEdit
import Verif.Props.Exactly

/-
Encoded messages that are edited in place.
C113 A record can be appended to an encoded message and taken off again.
C114 The TTL of a record can be changed in an encoded message.
-/

namespace Dns
open Spec Buf

/-! ### Octets written over others -/

theorem overwrite_length {i : Nat} {x d : Bytes} (h : i + x.length ≤ d.length) : (overwrite i x d).length = d.length := by
  simp [overwrite]
  omega

theorem overwrite_octets {i : Nat} {x d : Bytes} (h : i + x.length ≤ d.length) :
    Octets (overwrite i x d) i x (i + x.length) :=
  ⟨d.take i, d.drop (i + x.length), rfl, by simp; omega, rfl⟩

theorem overwrite_before {i : Nat} {x d : Bytes} (h : i + x.length ≤ d.length) : Shared 0 i d (overwrite i x d) := by
  refine ⟨by omega, by rw [overwrite_length h]; omega, fun k _ hk => ?_⟩
  rw [overwrite, List.append_assoc, List.getElem?_append_left (by simp; omega), List.getElem?_take_of_lt hk]

theorem overwrite_behind {i : Nat} {x d : Bytes} (h : i + x.length ≤ d.length) :
    Shared (i + x.length) d.length d (overwrite i x d) := by
  refine ⟨Nat.le_refl _, by rw [overwrite_length h], fun k hk _ => ?_⟩
  have hl : (d.take i ++ x).length = i + x.length := by simp; omega
  rw [overwrite, List.getElem?_append_right (by omega), List.getElem?_drop, hl]
  congr 1
  omega

theorem Shared.extend {lo hi : Nat} {d d' : Bytes} (h : Shared lo hi d d') (b : Bytes) : Shared lo hi d (d' ++ b) := by
  have := h.right
  refine ⟨h.left, by simp; omega, fun k h1 h2 => ?_⟩
  rw [List.getElem?_append_left (by omega)]
  exact h.same k h1 h2

theorem header_items {N : NameRel} {d : Bytes} {h : Header} {i : Nat} (h0 : Items.At N d 0 (headerItems h) i) :
    i = 12 ∧ 12 ≤ d.length :=
  ⟨(header_repatch (id := 0) (fl := ⟨0, 0⟩) h0).1, (header_repatch (id := 0) (fl := ⟨0, 0⟩) h0).2.1⟩

/-- Another number of additional records in the header. -/
theorem header_count {N N' : NameRel} {d d' : Bytes} {h : Header} {i : Nat} {v : UInt16}
    (h0 : Items.At N d 0 (headerItems h) i) (hs : Shared 0 10 d d') (hv : Octets d' 10 (octets16 v) 12) :
    Items.At N' d' 0 (headerItems { h with addCount := v }) 12 := by
  obtain ⟨k1, a1, k2, a2, k3, a3, k4, a4, k5, a5, k6, a6, k7, a7, a8⟩ := h0
  have b1 := a1.end_eq; have b2 := a2.end_eq; have b3 := a3.end_eq; have b4 := a4.end_eq
  have b5 := a5.end_eq; have b6 := a6.end_eq
  simp only [octets16, List.length_cons, List.length_nil] at b1 b2 b3 b4 b5 b6
  obtain rfl : k6 = 10 := by omega
  exact ⟨k1, hs.octets (by omega) (by omega) a1, k2, hs.octets (by omega) (by omega) a2,
    k3, hs.octets (by omega) (by omega) a3, k4, hs.octets (by omega) (by omega) a4,
    k5, hs.octets (by omega) (by omega) a5, 10, hs.octets (by omega) (by omega) a6, 12, hv, rfl⟩

theorem placed_read {T : RecordType → Bool} {cfg : Cfg} {d : Bytes} {p : Packet} (h : PlacedMessage T cfg d p)
    (hv : ∀ x ∈ records p, Writable cfg 63 x.rdata ∧ ReadWell x.rdata) : Packet.parse cfg d = .ok p :=
  (C99_received_partial cfg d p d.length h.received (fun r hr => (hv r hr).1) (fun r hr => (hv r hr).2)).1

/-! ### C113 -/

/-- C113: appending a record.  `d` is a message of RFC 1035 whose pointers lead to prior names, `b` is the encoding
without pointers of the record `r`.  With `b` behind `d` and ARCOUNT increased, it is such a message again, which says
what `d` says and `r` at the end of the additional section. -/
theorem C113_append_message (T : RecordType → Bool) (cfg : Cfg) (d b : Bytes) (p : Packet) (r : ResourceRecord)
    (h : PlacedMessage T cfg d p)
    (hb : RecordAtWith (RDataWritten PlainName cfg) PlainName cfg b 0 r b.length)
    (hn : p.additional.length + 1 < 65536) :
    PlacedMessage T cfg (arcount (p.additional.length + 1) d ++ b) (withAdditional (p.additional ++ [r]) p) := by
  obtain ⟨c1, c2, c3, c4, i1, i2, i3, i4, k2, k3, k4, k5, h0, h1, h2, h3, h4⟩ := h
  obtain ⟨rfl, hl⟩ := header_items h0
  have e16 : (octets16 (UInt16.ofNat (p.additional.length + 1))).length = 2 := rfl
  have hx : 10 + (octets16 (UInt16.ofNat (p.additional.length + 1))).length ≤ d.length := by rw [e16]; omega
  have hlen : (arcount (p.additional.length + 1) d).length = d.length := overwrite_length hx
  have hs : Shared 12 d.length d (arcount (p.additional.length + 1) d ++ b) := (overwrite_behind hx).extend b
  have f1 := listPlaced_forth question_forth h1
  have f2 := listPlaced_forth record_forth h2
  have f3 := listPlaced_forth record_forth h3
  have f4 := listPlaced_forth record_forth h4
  have g := record_move hb (arcount (p.additional.length + 1) d)
  rw [hlen, Nat.add_zero] at g
  obtain ⟨k6, g⟩ := plainRecord_placed (T := T) g k5
  refine ⟨c1, c2, c3, ?_, 12, i2, i3, i4, k2, k3, k4, k6, ?_, hs.questions (by omega) (by omega) h1,
    hs.records (by omega) (by omega) h2, hs.records (by omega) (by omega) h3, ?_⟩
  · simp only [withAdditional, List.length_append, List.length_singleton]
    rw [UInt16.toNat_ofNat_of_lt' (by simpa [UInt16.size] using hn)]
  · refine header_count h0 ((overwrite_before hx).extend b) ?_
    simp only [List.length_append, List.length_singleton]
    exact (overwrite_octets hx).extend b
  · have e : (arcount (p.additional.length + 1) d ++ b).length = d.length + b.length := by rw [List.length_append, hlen]
    rw [e]
    exact listPlaced_append (hs.records (by omega) (Nat.le_refl _) h4) ⟨_, k6, g, rfl, rfl⟩

/-- C113 (partial): the same for what the crate reads.  What is missing: messages in which a name has a pointer to
something else than a prior name (false, see `C113_counterexample`), and data that are not `ReadWell` (C99). -/
theorem C113_append_partial (T : RecordType → Bool) (cfg : Cfg) (d b : Bytes) (p : Packet) (r : ResourceRecord)
    (h : PlacedMessage T cfg d p)
    (hb : RecordAtWith (RDataWritten PlainName cfg) PlainName cfg b 0 r b.length)
    (hn : p.additional.length + 1 < 65536)
    (hv : ∀ x ∈ r :: records p, Writable cfg 63 x.rdata ∧ ReadWell x.rdata) :
    Packet.parse cfg d = .ok p ∧
    Packet.parse cfg (arcount (p.additional.length + 1) d ++ b) = .ok (withAdditional (p.additional ++ [r]) p) := by
  refine ⟨placed_read h fun x hx => hv x (List.mem_cons_of_mem _ hx),
    placed_read (C113_append_message T cfg d b p r h hb hn) fun x hx => hv x ?_⟩
  simp only [records, withAdditional, List.mem_append, List.mem_cons, List.not_mem_nil, or_false] at hx ⊢
  tauto

/-- Where the parts of a message are to which a record has been appended. -/
theorem appended_places (cfg : Cfg) (d b : Bytes) (p : Packet) (r : ResourceRecord)
    (h : MessageAtWith (RDataWritten (NameFrom 12) cfg) (NameFrom 12) cfg d p d.length)
    (hb : RecordAtWith (RDataWritten PlainName cfg) PlainName cfg b 0 r b.length) :
    ∃ i2 i3 i4, 12 ≤ d.length ∧
      Items.At (NameFrom 12) (arcount (p.additional.length + 1) d ++ b) 0
        (headerItems (withAdditional (p.additional ++ [r]) p).header) 12 ∧
      ListAt (QuestionAt (NameFrom 12) cfg (arcount (p.additional.length + 1) d ++ b)) 12 p.questions i2 ∧
      ListAt (RecordAtWith (RDataWritten (NameFrom 12) cfg) (NameFrom 12) cfg (arcount (p.additional.length + 1) d ++ b))
        i2 p.answers i3 ∧
      ListAt (RecordAtWith (RDataWritten (NameFrom 12) cfg) (NameFrom 12) cfg (arcount (p.additional.length + 1) d ++ b))
        i3 p.authorities i4 ∧
      ListAt (RecordAtWith (RDataWritten (NameFrom 12) cfg) (NameFrom 12) cfg (arcount (p.additional.length + 1) d ++ b))
        i4 p.additional d.length ∧
      RecordAtWith (RDataWritten (NameFrom 12) cfg) (NameFrom 12) cfg (arcount (p.additional.length + 1) d ++ b)
        d.length r (d.length + b.length) := by
  obtain ⟨c1, c2, c3, c4, i1, i2, i3, i4, h0, h1, h2, h3, h4⟩ := h
  obtain ⟨rfl, hl⟩ := header_items h0
  have e16 : (octets16 (UInt16.ofNat (p.additional.length + 1))).length = 2 := rfl
  have hx : 10 + (octets16 (UInt16.ofNat (p.additional.length + 1))).length ≤ d.length := by rw [e16]; omega
  have hlen : (arcount (p.additional.length + 1) d).length = d.length := overwrite_length hx
  have ha : Alike 12 d (arcount (p.additional.length + 1) d) := by
    refine ⟨hlen.symm, fun k hk => ?_⟩
    by_cases hkd : k < d.length
    · exact ((overwrite_behind hx).same k hk hkd).symm
    · rw [List.getElem?_eq_none (by omega), List.getElem?_eq_none (by omega)]
  have hN : Extends (NameFrom 12) := fun d e i n j h => ⟨legalName_extends _ _ _ _ _ h.1, nameWith_extends _ _ _ _ _ _ _ h.2⟩
  obtain ⟨b1, a1⟩ := listAt_alike (S := QuestionAt (NameFrom 12) cfg (arcount (p.additional.length + 1) d)) (lo := 12)
    (fun i x j hi h => ⟨Nat.le_trans hi (by obtain ⟨-, v, -, h⟩ := h; exact items_forth nameFrom_forth h),
      question_alike ha hi h⟩) (by omega) h1
  obtain ⟨b2, a2⟩ := listAt_alike (fun i x j hi h => record_alike ha hi h) b1 h2
  obtain ⟨b3, a3⟩ := listAt_alike (fun i x j hi h => record_alike ha hi h) b2 h3
  obtain ⟨b4, a4⟩ := listAt_alike (fun i x j hi h => record_alike ha hi h) b3 h4
  have g := record_move hb (arcount (p.additional.length + 1) d)
  rw [hlen, Nat.add_zero] at g
  have ext : ∀ i x j, RecordAtWith (RDataWritten (NameFrom 12) cfg) (NameFrom 12) cfg (arcount (p.additional.length + 1) d) i x j →
      RecordAtWith (RDataWritten (NameFrom 12) cfg) (NameFrom 12) cfg (arcount (p.additional.length + 1) d ++ b) i x j :=
    fun _ _ _ h => recordAt_extend hN h b
  refine ⟨i2, i3, i4, hl, ?_, listAt_mono (fun _ _ _ h => questionAt_extend hN h b) _ _ _ a1,
    listAt_mono ext _ _ _ a2, listAt_mono ext _ _ _ a3, listAt_mono ext _ _ _ a4, ?_⟩
  · refine header_count h0 ((overwrite_before hx).extend b) ?_
    simp only [List.length_append, List.length_singleton]
    exact (overwrite_octets hx).extend b
  · obtain ⟨g1, g2, v, len, k, g3, g4, g5, g6, g7, its, g8, g9⟩ := g
    exact ⟨g1, g2, v, len, k, g3, items_mono (fun _ _ _ _ => plain_from) g4, g5, g6, g7, its, g8,
      items_mono (fun _ _ _ _ => plain_from) g9⟩

/-- C113 (partial), for all messages of RFC 1035 in which no name has a pointer to the header: a record can be appended.
(These pointers need not lead to prior names.)  What is missing: names with pointers to the header (false, see
`C113_counterexample`), and data that are not `ReadWell` (C99). -/
theorem C113_append_any_partial (cfg : Cfg) (d b : Bytes) (p : Packet) (r : ResourceRecord)
    (h : MessageAtWith (RDataWritten (NameFrom 12) cfg) (NameFrom 12) cfg d p d.length)
    (hb : RecordAtWith (RDataWritten PlainName cfg) PlainName cfg b 0 r b.length)
    (hn : p.additional.length + 1 < 65536)
    (hv : ∀ x ∈ r :: records p, Writable cfg 63 x.rdata ∧ ReadWell x.rdata) :
    MessageAtWith (RDataWritten (NameFrom 12) cfg) (NameFrom 12) cfg (arcount (p.additional.length + 1) d ++ b)
      (withAdditional (p.additional ++ [r]) p) (d.length + b.length) ∧
    Packet.parse cfg d = .ok p ∧
    Packet.parse cfg (arcount (p.additional.length + 1) d ++ b) = .ok (withAdditional (p.additional ++ [r]) p) := by
  have hr := messageFrom_received h
  obtain ⟨i2, i3, i4, -, g0, g1, g2, g3, g4, g5⟩ := appended_places cfg d b p r h hb
  have key : MessageAtWith (RDataWritten (NameFrom 12) cfg) (NameFrom 12) cfg (arcount (p.additional.length + 1) d ++ b)
      (withAdditional (p.additional ++ [r]) p) (d.length + b.length) := by
    refine ⟨h.1, h.2.1, h.2.2.1, ?_, 12, i2, i3, i4, g0, g1, g2, g3, listAt_append.mpr ⟨d.length, g4, _, g5, rfl⟩⟩
    simp only [withAdditional, List.length_append, List.length_singleton]
    rw [UInt16.toNat_ofNat_of_lt' (by simpa [UInt16.size] using hn)]
  refine ⟨key, (C99_received_partial cfg d p _ hr (fun x hx => (hv x (List.mem_cons_of_mem _ hx)).1)
    (fun x hx => (hv x (List.mem_cons_of_mem _ hx)).2)).1, ?_⟩
  have hv' : ∀ x ∈ records (withAdditional (p.additional ++ [r]) p), x ∈ r :: records p := by
    intro x hx
    simp only [records, withAdditional, List.mem_append, List.mem_cons, List.not_mem_nil, or_false] at hx ⊢
    tauto
  exact (C99_received_partial cfg _ _ _ (messageFrom_received key) (fun x hx => (hv x (hv' x hx)).1)
    (fun x hx => (hv x (hv' x hx)).2)).1

theorem record_read {T : RecordType → Bool} {cfg : Cfg} {d : Bytes} {known known' : Places} {i j : Nat} {r : ResourceRecord}
    (hi : i ≤ d.length) (hv : Valid d i known) (h : RecordPlaced T cfg d known i r j known')
    (hw : Writable cfg 63 r.rdata ∧ ReadWell r.rdata) : ResourceRecord.parse cfg d i = (.ok r, j) := by
  obtain ⟨⟨a1, a2, v, len, k, a3, a4, a5, a6, a7⟩, _⟩ := RecordPlaced.legal hi hv h
  exact ResourceRecord.parse_ok.mpr ⟨a1, a2, v, len, k, a3, legal_decodes a4, a5, a6, readWell_parsed hw.1 hw.2 a7⟩

/-- C113: taking off the last record.  `d` is a message of RFC 1035 whose pointers lead to prior names.  The octets before
its last additional record, with ARCOUNT decreased, are such a message again, which says what `d` says without this
record. -/
theorem C113_remove_message (T : RecordType → Bool) (cfg : Cfg) (d : Bytes) (p : Packet) (rs : List ResourceRecord)
    (r : ResourceRecord) (h : PlacedMessage T cfg d p) (he : p.additional = rs ++ [r]) :
    ∃ t, 12 ≤ t ∧ t ≤ d.length ∧
      (Writable cfg 63 r.rdata ∧ ReadWell r.rdata → ResourceRecord.parse cfg d t = (.ok r, d.length)) ∧
      PlacedMessage T cfg (arcount rs.length (d.take t)) (withAdditional rs p) := by
  obtain ⟨c1, c2, c3, c4, i1, i2, i3, i4, k2, k3, k4, k5, h0, h1, h2, h3, h4⟩ := h
  obtain ⟨rfl, hl⟩ := header_items h0
  rw [he] at h4
  obtain ⟨t, k6, h4', ⟨m, _, h5, hm, rfl⟩⟩ := listPlaced_split h4
  subst hm
  have f1 := listPlaced_forth question_forth h1
  have f2 := listPlaced_forth record_forth h2
  have f3 := listPlaced_forth record_forth h3
  have f4 := listPlaced_forth record_forth h4'
  have f5 := record_forth h5
  obtain ⟨v1, v2, v3⟩ := listPlaced_legal QuestionPlaced.legal hl (by simp [Valid]) h1
  obtain ⟨_, v4, v5⟩ := listPlaced_legal RecordPlaced.legal v3 v2 h2
  obtain ⟨_, v6, v7⟩ := listPlaced_legal RecordPlaced.legal v5 v4 h3
  obtain ⟨_, v8, v9⟩ := listPlaced_legal RecordPlaced.legal v7 v6 h4'
  have e16 : (octets16 (UInt16.ofNat rs.length)).length = 2 := rfl
  have ht : (d.take t).length = t := by simp; omega
  have hx : 10 + (octets16 (UInt16.ofNat rs.length)).length ≤ (d.take t).length := by rw [e16, ht]; omega
  have hlen : (arcount rs.length (d.take t)).length = t := by rw [arcount, overwrite_length hx, ht]
  have hs0 : ∀ {lo hi : Nat}, hi ≤ t → Shared lo hi d (d.take t) := fun {lo hi} hh =>
    ⟨by omega, by omega, fun k _ hk => by rw [List.getElem?_take_of_lt (by omega)]⟩
  have hs : Shared 12 t d (arcount rs.length (d.take t)) := by
    have := overwrite_behind hx
    rw [e16, ht] at this
    exact ⟨by omega, by omega, fun k h1 h2 => ((this.same k h1 h2).trans ((hs0 (Nat.le_refl t)).same k h1 h2))⟩
  have hs' : Shared 0 10 d (arcount rs.length (d.take t)) := by
    have := overwrite_before hx
    exact ⟨by omega, by omega, fun k h1 h2 => (this.same k h1 h2).trans ((hs0 (Nat.le_refl t)).same k h1 (by omega))⟩
  refine ⟨t, by omega, f5, fun hw => record_read v9 v8 h5 hw, c1, c2, c3, ?_, 12, i2, i3, i4, k2, k3, k4, k6,
    header_count h0 hs' (overwrite_octets hx), hs.questions (by omega) (by omega) h1,
    hs.records (by omega) (by omega) h2, hs.records (by omega) (by omega) h3, ?_⟩
  · have : rs.length + 1 < 65536 := by
      have := p.header.addCount.toNat_lt
      rw [he] at c4
      simp only [List.length_append, List.length_singleton] at c4
      omega
    simp only [withAdditional]
    rw [UInt16.toNat_ofNat_of_lt' (by simp only [UInt16.size]; omega)]
  · rw [hlen]
    exact hs.records (by omega) (Nat.le_refl _) h4'

/-- C113 (partial): the same for what the crate reads: the place is where the last record is read, up to the end of the
message.  What is missing is as for `C113_append_partial`. -/
theorem C113_remove_partial (T : RecordType → Bool) (cfg : Cfg) (d : Bytes) (p : Packet) (rs : List ResourceRecord)
    (r : ResourceRecord) (h : PlacedMessage T cfg d p) (he : p.additional = rs ++ [r])
    (hv : ∀ x ∈ records p, Writable cfg 63 x.rdata ∧ ReadWell x.rdata) :
    ∃ t, ResourceRecord.parse cfg d t = (.ok r, d.length) ∧
      Packet.parse cfg (arcount rs.length (d.take t)) = .ok (withAdditional rs p) := by
  obtain ⟨t, _, _, h3, h4⟩ := C113_remove_message T cfg d p rs r h he
  refine ⟨t, h3 (hv r (by simp [records, he])), placed_read h4 fun x hx => hv x ?_⟩
  simp only [records, withAdditional, he, List.mem_append, List.mem_singleton] at hx ⊢
  tauto

/-- C113: what is appended and taken off again leaves nothing behind. -/
theorem C113_undo (d b : Bytes) (n : Nat) (hd : 12 ≤ d.length) (hn : Octets d 10 (octets16 (UInt16.ofNat n)) 12) :
    arcount n ((arcount (n + 1) d ++ b).take d.length) = d := by
  have e16 : ∀ m : Nat, (octets16 (UInt16.ofNat m)).length = 2 := fun _ => rfl
  have hx : 10 + (octets16 (UInt16.ofNat (n + 1))).length ≤ d.length := by rw [e16]; omega
  rw [List.take_left' (by rw [arcount, overwrite_length hx])]
  obtain ⟨u, v, rfl, hu, _⟩ := hn
  have h1 : ∀ m : Nat, arcount m (u ++ octets16 (UInt16.ofNat n) ++ v) = u ++ octets16 (UInt16.ofNat m) ++ v := by
    intro m
    rw [arcount, overwrite, e16, List.append_assoc u, List.take_left' hu, ← List.append_assoc u,
      List.drop_left' (by simp [hu, octets16])]
  have h2 : ∀ m : Nat, arcount m (u ++ octets16 (UInt16.ofNat (n + 1)) ++ v) = u ++ octets16 (UInt16.ofNat m) ++ v := by
    intro m
    rw [arcount, overwrite, e16, List.append_assoc u, List.take_left' hu, ← List.append_assoc u,
      List.drop_left' (by simp [hu, octets16])]
  rw [h1, h2]

/-- C113 for what the crate writes itself: the octets of `to_bytes` of a record can be put behind those of
`to_bytes_compressed` of a packet (partial, in the cases of C97 in which both are written as they should be). -/
theorem C113_own_partial (cfg : Cfg) (h : Hash) (p : Packet) (r : ResourceRecord) (hp : PacketOk cfg 63 p) (hc : CountsOk p)
    (hh : NoCollision h (packetNames p)) (hr : RecordOk cfg 63 r) (hz : sizeError r.rdata = 0)
    (hs : ∀ x ∈ r :: records p, ReadWell x.rdata ∧ WrittenWell x.rdata) (hn : p.additional.length + 1 < 65536) :
    ∃ a b, p.toBytesCompressed cfg h = .ok a ∧ r.toBytes cfg = .ok b ∧
      (a.length ≤ 16384 → Packet.parse cfg (arcount (p.additional.length + 1) a ++ b) =
        .ok (withAdditional (p.additional ++ [r]) p)) := by
  obtain ⟨a, ha, h1, _⟩ := C111_shortest cfg h p hp hc hh fun x hx => (hs x (List.mem_cons_of_mem _ hx)).2
  have hw := hr.2.2.2.2.2.2.1
  obtain ⟨b, hb, h2⟩ := ResourceRecord.sent (N := PlainName) (max := 63) (nameWith_extends _ _)
    (nameWith_plain_end (by decide) _) hr (hs r List.mem_cons_self).2 hz hw.sets []
  rw [List.nil_append] at h2
  refine ⟨a, b, ha, hb, fun hl => (C113_append_partial compressedType cfg a b p r (h1 hl) h2 hn fun x hx => ?_).2⟩
  refine ⟨?_, (hs x hx).1⟩
  rcases List.mem_cons.mp hx with rfl | hx
  · exact hw
  · exact (hp.2.1 x hx).2.2.2.2.2.2.1

/-! ### C114 -/

theorem section_split {α : Type} {R : Places → Nat → α → Nat → Places → Prop} {xs ys : List α} {x : α} {k1 k3 : Places}
    {i j : Nat} (h : ListPlaced R k1 i (xs ++ x :: ys) j k3) :
    ∃ s e ks ke, ListPlaced R k1 i xs s ks ∧ R ks s x e ke ∧ ListPlaced R ke e ys j k3 := by
  obtain ⟨s, ks, h1, e, ke, h2, h3⟩ := listPlaced_split h
  exact ⟨s, e, ks, ke, h1, h2, h3⟩

/-- The record at `s` with another TTL. -/
theorem record_ttl {T : RecordType → Bool} {cfg : Cfg} {d : Bytes} {known known' : Places} {s e : Nat} {r : ResourceRecord}
    (h : RecordPlaced T cfg d known s r e known') (he : e ≤ d.length) :
    ∃ k new, NamePlaced known d s r.name k new ∧ s < k ∧ k + 10 ≤ e ∧ Octets d (k + 4) (octets32 r.ttl) (k + 8) ∧
      ∀ ttl, RecordPlaced T cfg (overwrite (k + 4) (octets32 ttl) d) known s { r with ttl := ttl } e known' := by
  obtain ⟨h1, h2, h3, v, len, m, known1, its, h4, ⟨k, new, a1, k1, a2, k2, a3, k3, a4, k4, a5, a6, a7⟩, h6, h7, h8, h9⟩ := h
  have b2 := a2.end_eq; have b3 := a3.end_eq; have b4 := a4.end_eq; have b5 := a5.end_eq
  have hk := namePlaced_lt a1
  simp only [octets16, octets32, List.length_cons, List.length_nil] at b2 b3 b4 b5
  obtain rfl : k1 = k + 2 := by omega
  obtain rfl : k2 = k + 4 := by omega
  obtain rfl : k3 = k + 8 := by omega
  obtain rfl : k4 = k + 10 := by omega
  obtain rfl : k + 10 = m := a6
  refine ⟨k, new, a1, hk, by omega, a4, fun ttl => ?_⟩
  have e32 : (octets32 ttl).length = 4 := rfl
  have hx : (k + 4) + (octets32 ttl).length ≤ d.length := by rw [e32]; omega
  have s1 := overwrite_before hx
  have s2 := overwrite_behind hx
  rw [e32] at s2
  have hm := s2.mono (lo' := k + 8) (hi' := e) (by omega) he
  exact ⟨h1, h2, h3, v, len, k + 10, known1, its, h4, ⟨k, new, s1.name (by omega) (by omega) a1, k + 2,
    s1.octets (by omega) (by omega) a2, k + 4, s1.octets (by omega) (by omega) a3, k + 8, overwrite_octets hx, k + 10,
    s2.octets (by omega) (by omega) a5, rfl, a7⟩, h6, by rw [overwrite_length hx]; exact h7, h8, hm.data (by omega) h9⟩

/-- C114: changing a TTL.  `d` is a message of RFC 1035 whose pointers lead to prior names.  For each record of it there is
the place `s` where the record starts and the place `k` where its name ends; the TTL are the octets from `k + 4` on, and
with any other TTL written over them it is such a message again, which says what `d` says except for this TTL. -/
theorem C114_message (T : RecordType → Bool) (cfg : Cfg) (d : Bytes) (p : Packet) (sec : Section)
    (xs ys : List ResourceRecord) (r : ResourceRecord) (h : PlacedMessage T cfg d p) (he : sec.of p = xs ++ r :: ys) :
    ∃ s k e, LegalName d s r.name k ∧
      (Writable cfg 63 r.rdata ∧ ReadWell r.rdata → ResourceRecord.parse cfg d s = (.ok r, e)) ∧
      Octets d (k + 4) (octets32 r.ttl) (k + 8) ∧
      ∀ ttl, PlacedMessage T cfg (overwrite (k + 4) (octets32 ttl) d) (sec.set (xs ++ { r with ttl := ttl } :: ys) p) := by
  obtain ⟨c1, c2, c3, c4, i1, i2, i3, i4, k2, k3, k4, k5, h0, h1, h2, h3, h4⟩ := h
  obtain ⟨rfl, hl⟩ := header_items h0
  have f1 := listPlaced_forth question_forth h1
  have f2 := listPlaced_forth record_forth h2
  have f3 := listPlaced_forth record_forth h3
  have f4 := listPlaced_forth record_forth h4
  obtain ⟨v1, v2, v3⟩ := listPlaced_legal QuestionPlaced.legal hl (by simp [Valid]) h1
  obtain ⟨_, v4, v5⟩ := listPlaced_legal RecordPlaced.legal v3 v2 h2
  obtain ⟨_, v6, v7⟩ := listPlaced_legal RecordPlaced.legal v5 v4 h3
  have e32 : ∀ ttl, (octets32 ttl).length = 4 := fun _ => rfl
  -- one section
  have key : ∀ {ka kb : Places} {a b : Nat}, 12 ≤ a → b ≤ d.length → Valid d a ka →
      ListPlaced (RecordPlaced T cfg d) ka a (xs ++ r :: ys) b kb →
      ∃ s k e, a ≤ s ∧ s < k ∧ k + 10 ≤ b ∧ LegalName d s r.name k ∧
      (Writable cfg 63 r.rdata ∧ ReadWell r.rdata → ResourceRecord.parse cfg d s = (.ok r, e)) ∧
      Octets d (k + 4) (octets32 r.ttl) (k + 8) ∧
      ∀ ttl, ListPlaced (RecordPlaced T cfg (overwrite (k + 4) (octets32 ttl) d)) ka a (xs ++ { r with ttl := ttl } :: ys) b kb := by
    intro ka kb a b ha hb hv hp
    obtain ⟨s, e, ks, ke, g1, g2, g3⟩ := section_split hp
    have w1 := listPlaced_forth record_forth g1
    have w3 := listPlaced_forth record_forth g3
    have w2 := record_forth g2
    obtain ⟨_, u2, u3⟩ := listPlaced_legal RecordPlaced.legal (by omega) hv g1
    obtain ⟨k, new, q1, q2, q3, q4, q5⟩ := record_ttl g2 (by omega)
    refine ⟨s, k, e, w1, q2, by omega, (NamePlaced.legal u2 (Nat.le_refl _) q1).2.1, fun hw => record_read u3 u2 g2 hw, q4,
      fun ttl => ?_⟩
    have hx : (k + 4) + (octets32 ttl).length ≤ d.length := by rw [e32]; omega
    have s1 := overwrite_before hx
    have s2 := overwrite_behind hx
    rw [e32] at s2
    exact listPlaced_append (s1.records (by omega) (by omega) g1) ⟨e, ke, q5 ttl, s2.records (by omega) (by omega) g3⟩
  have keyS : ∀ (k : Nat) (ttl : UInt32), 8 ≤ k → k + 8 ≤ d.length →
      Shared 0 (k + 4) d (overwrite (k + 4) (octets32 ttl) d) ∧
      Shared (k + 8) d.length d (overwrite (k + 4) (octets32 ttl) d) ∧
      (overwrite (k + 4) (octets32 ttl) d).length = d.length ∧
      Items.At PlainName (overwrite (k + 4) (octets32 ttl) d) 0 (headerItems p.header) 12 := by
    intro k ttl hk hx
    have hx : (k + 4) + (octets32 ttl).length ≤ d.length := by rw [e32]; omega
    have s1 := overwrite_before hx
    have s2 := overwrite_behind hx
    rw [e32] at s2
    refine ⟨s1, s2, overwrite_length hx, ?_⟩
    have h0' := h0
    obtain ⟨m1, a1, m2, a2, m3, a3, m4, a4, m5, a5, m6, a6, m7, a7, a8⟩ := h0'
    have b7 := a7.end_eq
    have a8' : m7 = 12 := a8
    simp only [octets16, List.length_cons, List.length_nil] at b7
    obtain rfl : m6 = 10 := by omega
    subst a8'
    exact header_count h0 (s1.mono (Nat.le_refl _) (by omega)) (s1.octets (by omega) (by omega) a7)
  cases sec with
  | answers =>
    have he' : p.answers = xs ++ r :: ys := he
    rw [he'] at h2 c2
    obtain ⟨s, k, e, q1, q2, q3, q4, q5, q6, q7⟩ := key (by omega) (by omega) v2 h2
    refine ⟨s, k, e, q4, q5, q6, fun ttl => ?_⟩
    obtain ⟨s1, s2, sl, hh⟩ := keyS k ttl (by omega) (by omega)
    refine ⟨c1, ?_, c3, c4, 12, i2, i3, i4, k2, k3, k4, k5, hh, s1.questions (by omega) (by omega) h1, q7 ttl,
      s2.records (by omega) (by omega) h3, ?_⟩
    · exact Eq.trans (by simp [Section.set]) c2
    · rw [sl]; exact s2.records (by omega) (Nat.le_refl _) h4
  | authorities =>
    have he' : p.authorities = xs ++ r :: ys := he
    rw [he'] at h3 c3
    obtain ⟨s, k, e, q1, q2, q3, q4, q5, q6, q7⟩ := key (by omega) (by omega) v4 h3
    refine ⟨s, k, e, q4, q5, q6, fun ttl => ?_⟩
    obtain ⟨s1, s2, sl, hh⟩ := keyS k ttl (by omega) (by omega)
    refine ⟨c1, c2, ?_, c4, 12, i2, i3, i4, k2, k3, k4, k5, hh, s1.questions (by omega) (by omega) h1,
      s1.records (by omega) (by omega) h2, q7 ttl, ?_⟩
    · exact Eq.trans (by simp [Section.set]) c3
    · rw [sl]; exact s2.records (by omega) (Nat.le_refl _) h4
  | additional =>
    have he' : p.additional = xs ++ r :: ys := he
    rw [he'] at h4 c4
    obtain ⟨s, k, e, q1, q2, q3, q4, q5, q6, q7⟩ := key (by omega) (by omega) v6 h4
    refine ⟨s, k, e, q4, q5, q6, fun ttl => ?_⟩
    obtain ⟨s1, s2, sl, hh⟩ := keyS k ttl (by omega) (by omega)
    refine ⟨c1, c2, c3, ?_, 12, i2, i3, i4, k2, k3, k4, k5, hh, s1.questions (by omega) (by omega) h1,
      s1.records (by omega) (by omega) h2, s1.records (by omega) (by omega) h3, ?_⟩
    · exact Eq.trans (by simp [Section.set]) c4
    · rw [sl]; exact q7 ttl

/-- C114 (partial): the same for what the crate reads: four octets behind the name of a record stands its TTL, and with
any other TTL written over it the same packet is read, except for this TTL.  What is missing: messages in which a name has
a pointer to something else than a prior name (false, see `C114_counterexample`), and data that are not `ReadWell`
(C99). -/
theorem C114_partial (T : RecordType → Bool) (cfg : Cfg) (d : Bytes) (p : Packet) (sec : Section)
    (xs ys : List ResourceRecord) (r : ResourceRecord) (h : PlacedMessage T cfg d p) (he : sec.of p = xs ++ r :: ys)
    (hv : ∀ x ∈ records p, Writable cfg 63 x.rdata ∧ ReadWell x.rdata) :
    Packet.parse cfg d = .ok p ∧
    ∃ s k e, ResourceRecord.parse cfg d s = (.ok r, e) ∧ extractFqdn d s = (.ok r.name, k) ∧
      Octets d (k + 4) (octets32 r.ttl) (k + 8) ∧
      ∀ ttl, Packet.parse cfg (overwrite (k + 4) (octets32 ttl) d) =
        .ok (sec.set (xs ++ { r with ttl := ttl } :: ys) p) := by
  have hr : r ∈ records p := by
    cases sec <;> simp only [Section.of] at he <;> simp [records, he]
  obtain ⟨s, k, e, h1, h2, h3, h4⟩ := C114_message T cfg d p sec xs ys r h he
  refine ⟨placed_read h hv, s, k, e, h2 (hv r hr), ?_, h3, fun ttl => ?_⟩
  · obtain ⟨k', g1, g2⟩ := legal_decodes (its := [.name r.name]) (j := k) ⟨k, h1, rfl⟩
    have g2 : k' = k := g2
    rw [← g2]
    exact g1
  · refine placed_read (h4 ttl) fun x hx => ?_
    have key : x ∈ records p ∨ x = { r with ttl := ttl } := by
      cases sec <;> simp only [Section.of] at he <;>
        simp only [records, Section.set, he, List.mem_append, List.mem_cons] at hx ⊢ <;> tauto
    rcases key with hx | rfl
    · exact hv x hx
    · exact hv r hr

/-! ### Counterexamples and examples -/

/-- C113 is false of messages in which a name has a pointer to ARCOUNT: the question of this message of RFC 1035 is for
the root; with a record appended it is for another name. -/
theorem C113_counterexample (cfg : Cfg) : ∃ (d b : Bytes) (p q : Packet) (r : ResourceRecord),
    ReceivedMessage cfg d p d.length ∧ RecordAtWith (RDataWritten PlainName cfg) PlainName cfg b 0 r b.length ∧
    Packet.parse cfg d = .ok p ∧ Packet.parse cfg (arcount 1 d ++ b) = .ok q ∧ q.additional = [r] ∧
    p.questions.map (·.qName) = [[]] ∧ q.questions.map (·.qName) = [[[192], [0, 1, 0, 1, 0, 0, 1, 0, 1, 0, 0]]] := by
  refine ⟨[0, 1, 0, 0, 0, 1, 0, 0, 0, 0, 0, 0, 0xC0, 11, 0, 1, 0, 1], [0, 0, 1, 0, 1, 0, 0, 0, 5, 0, 4, 10, 0, 0, 1],
    ⟨⟨1, ⟨0, 0⟩, 1, 0, 0, 0⟩, [⟨[], .rr .A, .IN, false⟩], [], [], []⟩,
    ⟨⟨1, ⟨0, 0⟩, 1, 0, 0, 1⟩, [⟨[[192], [0, 1, 0, 1, 0, 0, 1, 0, 1, 0, 0]], .rr .A, .IN, false⟩], [], [],
      [⟨[], .A, false, .IN, 5, .A ⟨0x0A000001⟩⟩]⟩,
    ⟨[], .A, false, .IN, 5, .A ⟨0x0A000001⟩⟩, ?_, ?_, ?_, ?_, rfl, rfl, rfl⟩
  · refine ⟨rfl, rfl, rfl, rfl, 12, 18, 18, 18, ?_, ⟨18, ⟨?_, 1, ?_, 14, ?_, 16, ?_, 18, ?_, rfl⟩, rfl⟩, rfl, rfl, rfl⟩
    · exact ⟨2, octets_iff.mpr (by decide), 3, octets_iff.mpr (by decide), 4, octets_iff.mpr (by decide),
        6, octets_iff.mpr (by decide), 8, octets_iff.mpr (by decide), 10, octets_iff.mpr (by decide),
        12, octets_iff.mpr (by decide), rfl⟩
    · simp [QReadable, Readable, dnssecTypes]
    · exact ⟨rfl, by simp⟩
    · exact .pointer (hi := 0xC0) (lo := 11) (by decide) (octets_iff.mpr (by decide)) (by decide) (.root rfl)
    · exact octets_iff.mpr (by decide)
    · exact octets_iff.mpr (by decide)
  · refine ⟨by simp [Readable, dnssecTypes], by simp [classOk], 1, 4, 11, ⟨rfl, by simp⟩, ⟨1, .root rfl, 3,
      octets_iff.mpr (by decide), 5, octets_iff.mpr (by decide), 9, octets_iff.mpr (by decide), 11,
      octets_iff.mpr (by decide), rfl⟩, rfl, by decide, rfl, [.u32 0x0A000001], rfl, 15, octets_iff.mpr (by decide), rfl⟩
  all_goals
    obtain ⟨o, m, s⟩ := cfg
    cases o <;> cases m <;> cases s <;> decide +kernel

/-- C114 is false of messages in which a name has a pointer to a TTL: the second answer of this message of RFC 1035 is for
`a.`; with another TTL of the first one it is for `b.`. -/
theorem C114_counterexample (cfg : Cfg) : ∃ (d : Bytes) (p q : Packet),
    ReceivedMessage cfg d p d.length ∧ extractFqdn d 12 = (.ok [], 13) ∧
    Packet.parse cfg d = .ok p ∧ Packet.parse cfg (overwrite 17 (octets32 0x01620000) d) = .ok q ∧
    p.answers.map (·.name) = [[], [[97]]] ∧ q.answers.map (·.name) = [[], [[98]]] := by
  refine ⟨[0, 1, 0, 0, 0, 0, 0, 2, 0, 0, 0, 0, 0, 0, 1, 0, 1, 1, 97, 0, 0, 0, 4, 10, 0, 0, 1,
      0xC0, 17, 0, 1, 0, 1, 0, 0, 0, 5, 0, 4, 10, 0, 0, 2],
    ⟨⟨1, ⟨0, 0⟩, 0, 2, 0, 0⟩, [], [⟨[], .A, false, .IN, 0x01610000, .A ⟨0x0A000001⟩⟩,
      ⟨[[97]], .A, false, .IN, 5, .A ⟨0x0A000002⟩⟩], [], []⟩,
    ⟨⟨1, ⟨0, 0⟩, 0, 2, 0, 0⟩, [], [⟨[], .A, false, .IN, 0x01620000, .A ⟨0x0A000001⟩⟩,
      ⟨[[98]], .A, false, .IN, 5, .A ⟨0x0A000002⟩⟩], [], []⟩, ?_, by decide +kernel, ?_, ?_, rfl, rfl⟩
  · refine ⟨rfl, rfl, rfl, rfl, 12, 12, 43, 43, ?_, rfl, ⟨27, ⟨by simp [Readable, dnssecTypes], by simp [classOk], 1, 4, 23,
      ⟨rfl, by simp⟩, ⟨13, .root rfl, 15, octets_iff.mpr (by decide), 17, octets_iff.mpr (by decide), 21,
        octets_iff.mpr (by decide), 23, octets_iff.mpr (by decide), rfl⟩, rfl, by decide, rfl, [.u32 0x0A000001], rfl, 27,
        octets_iff.mpr (by decide), rfl⟩,
      43, ⟨by simp [Readable, dnssecTypes], by simp [classOk], 1, 4, 39,
      ⟨rfl, by simp⟩, ⟨29, ?_, 31, octets_iff.mpr (by decide), 33, octets_iff.mpr (by decide), 37,
        octets_iff.mpr (by decide), 39, octets_iff.mpr (by decide), rfl⟩, rfl, by decide, rfl, [.u32 0x0A000002], rfl, 43,
        octets_iff.mpr (by decide), rfl⟩, rfl⟩, rfl, rfl⟩
    · exact ⟨2, octets_iff.mpr (by decide), 3, octets_iff.mpr (by decide), 4, octets_iff.mpr (by decide),
        6, octets_iff.mpr (by decide), 8, octets_iff.mpr (by decide), 10, octets_iff.mpr (by decide),
        12, octets_iff.mpr (by decide), rfl⟩
    · exact .pointer (hi := 0xC0) (lo := 17) (by decide) (octets_iff.mpr (by decide)) (by decide)
        (.label (len := 1) (by decide) (by decide) rfl (octets_iff.mpr (by decide)) (.root rfl))
  all_goals
    obtain ⟨o, m, s⟩ := cfg
    cases o <;> cases m <;> cases s <;> decide +kernel

/-- The record that is appended in the examples. -/
def tailRecord : ResourceRecord := ⟨[], .A, false, .IN, 5, .A ⟨0x0A000001⟩⟩

/-- Its octets. -/
def tailOctets : Bytes := [0, 0, 1, 0, 1, 0, 0, 0, 5, 0, 4, 10, 0, 0, 1]

theorem tail_record : RecordAtWith (RDataWritten PlainName ⟨true, true, true⟩) PlainName ⟨true, true, true⟩ tailOctets 0
    tailRecord tailOctets.length := by
  refine ⟨by simp [tailRecord, Readable], by simp [tailRecord, classOk], 1, 4, 11, ⟨rfl, by simp [tailRecord]⟩, ⟨1, .root rfl, 3,
    octets_iff.mpr (by decide), 5, octets_iff.mpr (by decide), 9, octets_iff.mpr (by decide), 11,
    octets_iff.mpr (by decide), rfl⟩, rfl, by decide, rfl, [.u32 0x0A000001], rfl, 15, octets_iff.mpr (by decide), rfl⟩

theorem loose_data : ∀ x ∈ tailRecord :: records loosePacket, Writable ⟨true, true, true⟩ 63 x.rdata ∧ ReadWell x.rdata := by
  intro r hr
  simp only [loosePacket, records, List.append_nil, List.mem_cons, List.not_mem_nil, or_false] at hr
  rcases hr with rfl | rfl
  · exact ⟨trivial, trivial⟩
  · refine ⟨?_, trivial⟩
    show NameOk 63 _
    decide

/-- C113: the hypotheses are met, by a message with two pointers. -/
example : PlacedMessage compressedType ⟨true, true, true⟩ looseOctets loosePacket ∧
    RecordAtWith (RDataWritten PlainName ⟨true, true, true⟩) PlainName ⟨true, true, true⟩ tailOctets 0 tailRecord
      tailOctets.length ∧
    (∀ x ∈ tailRecord :: records loosePacket, Writable ⟨true, true, true⟩ 63 x.rdata ∧ ReadWell x.rdata) ∧
    Packet.parse ⟨true, true, true⟩ (arcount 1 looseOctets ++ tailOctets) =
      .ok (withAdditional [tailRecord] loosePacket) :=
  ⟨loose_placed, tail_record, loose_data, by decide +kernel⟩

/-- C113: a message from which a record can be taken. -/
example : PlacedMessage compressedType ⟨true, true, true⟩ (arcount 1 looseOctets ++ tailOctets)
      (withAdditional [tailRecord] loosePacket) ∧
    (withAdditional [tailRecord] loosePacket).additional = [] ++ [tailRecord] ∧
    ResourceRecord.parse ⟨true, true, true⟩ (arcount 1 looseOctets ++ tailOctets) 41 = (.ok tailRecord, 56) ∧
    Packet.parse ⟨true, true, true⟩ (arcount 0 ((arcount 1 looseOctets ++ tailOctets).take 41)) = .ok loosePacket :=
  ⟨C113_append_message compressedType ⟨true, true, true⟩ looseOctets tailOctets loosePacket tailRecord loose_placed
    tail_record (by decide), rfl, by decide +kernel, by decide +kernel⟩

/-- C113: the octets of the example with and without the record. -/
example : Octets looseOctets 10 (octets16 (UInt16.ofNat 0)) 12 ∧
    arcount 0 ((arcount 1 looseOctets ++ tailOctets).take 41) = looseOctets :=
  ⟨octets_iff.mpr (by decide), C113_undo looseOctets tailOctets 0 (by decide) (octets_iff.mpr (by decide))⟩

/-- C113 for pointers that do not lead to prior names: the name of the first answer of this message ends in its TTL. -/
theorem far_placed : MessageAtWith (RDataWritten (NameFrom 12) ⟨true, true, true⟩) (NameFrom 12) ⟨true, true, true⟩
    [0, 1, 0, 0, 0, 0, 0, 2, 0, 0, 0, 0, 0, 0, 1, 0, 1, 1, 97, 0, 0, 0, 4, 10, 0, 0, 1,
      0xC0, 17, 0, 1, 0, 1, 0, 0, 0, 5, 0, 4, 10, 0, 0, 2]
    ⟨⟨1, ⟨0, 0⟩, 0, 2, 0, 0⟩, [], [⟨[], .A, false, .IN, 0x01610000, .A ⟨0x0A000001⟩⟩,
      ⟨[[97]], .A, false, .IN, 5, .A ⟨0x0A000002⟩⟩], [], []⟩ 43 := by
  refine ⟨rfl, rfl, rfl, rfl, 12, 12, 43, 43, ?_, rfl, ⟨27, ⟨by simp [Readable], by simp [classOk], 1, 4, 23,
      ⟨rfl, by simp⟩, ⟨13, ⟨.root rfl, .root rfl⟩, 15, octets_iff.mpr (by decide), 17, octets_iff.mpr (by decide), 21,
        octets_iff.mpr (by decide), 23, octets_iff.mpr (by decide), rfl⟩, rfl, by decide, rfl, [.u32 0x0A000001], rfl, 27,
        octets_iff.mpr (by decide), rfl⟩,
      43, ⟨by simp [Readable], by simp [classOk], 1, 4, 39,
      ⟨rfl, by simp⟩, ⟨29, ⟨?_, ?_⟩, 31, octets_iff.mpr (by decide), 33, octets_iff.mpr (by decide), 37,
        octets_iff.mpr (by decide), 39, octets_iff.mpr (by decide), rfl⟩, rfl, by decide, rfl, [.u32 0x0A000002], rfl, 43,
        octets_iff.mpr (by decide), rfl⟩, rfl⟩, rfl, rfl⟩
  · exact ⟨2, octets_iff.mpr (by decide), 3, octets_iff.mpr (by decide), 4, octets_iff.mpr (by decide),
      6, octets_iff.mpr (by decide), 8, octets_iff.mpr (by decide), 10, octets_iff.mpr (by decide),
      12, octets_iff.mpr (by decide), rfl⟩
  all_goals
    exact .pointer (hi := 0xC0) (lo := 17) (by decide) (octets_iff.mpr (by decide)) (by decide)
      (.label (len := 1) (by decide) (by decide) rfl (octets_iff.mpr (by decide)) (.root rfl))

/-- C113 for what the crate writes: the hypotheses are met. -/
example : PacketOk ⟨true, true, true⟩ 63 (onePacket tailRecord) ∧ CountsOk (onePacket tailRecord) ∧
    NoCollision exHash (packetNames (onePacket tailRecord)) ∧ RecordOk ⟨true, true, true⟩ 63 tailRecord ∧
    sizeError tailRecord.rdata = 0 ∧
    (∀ x ∈ tailRecord :: records (onePacket tailRecord), ReadWell x.rdata ∧ WrittenWell x.rdata) ∧
    (onePacket tailRecord).additional.length + 1 < 65536 := by
  have hr : RecordOk ⟨true, true, true⟩ 63 tailRecord := by
    refine ⟨by decide, by simp [tailRecord, Readable], rfl, by simp [tailRecord, classOk], by decide, by simp [tailRecord], trivial, ?_⟩
    intro b hb; cases hb; decide
  refine ⟨⟨by simp [onePacket], ?_, by decide, by decide, by decide, by decide⟩, ⟨rfl, rfl, rfl, rfl⟩, ?_, hr, rfl, ?_,
    by decide⟩
  · intro r h
    simp only [onePacket, records, List.append_nil, List.mem_singleton] at h
    exact h ▸ hr
  · rintro a b ⟨n, hn, ha⟩ ⟨m, hm, hb⟩ _
    simp [onePacket, packetNames, records, tailRecord, rdataNames] at hn hm
    subst hn; subst hm
    rw [List.suffix_nil.mp ha, List.suffix_nil.mp hb]
  · intro x hx
    simp only [onePacket, records, List.append_nil, List.mem_cons, List.not_mem_nil, or_false, or_self] at hx
    subst hx
    exact ⟨trivial, trivial⟩

/-- C114: the hypotheses are met, by a record with compressed names. -/
example : PlacedMessage compressedType ⟨true, true, true⟩ looseOctets loosePacket ∧
    Section.answers.of loosePacket = [] ++ ⟨[[97], [98]], .MX, false, .IN, 5, .MX ⟨10, [[109], [97], [98]]⟩⟩ :: [] ∧
    (∀ x ∈ records loosePacket, Writable ⟨true, true, true⟩ 63 x.rdata ∧ ReadWell x.rdata) ∧
    extractFqdn looseOctets 21 = (.ok [[97], [98]], 25) ∧
    Packet.parse ⟨true, true, true⟩ (overwrite 29 (octets32 3600) looseOctets) =
      .ok (Section.answers.set [⟨[[97], [98]], .MX, false, .IN, 3600, .MX ⟨10, [[109], [97], [98]]⟩⟩] loosePacket) := by
  refine ⟨loose_placed, rfl, fun x hx => loose_data x (List.mem_cons_of_mem _ hx), ?_, ?_⟩
  · decide +kernel
  · decide +kernel

end Dns
