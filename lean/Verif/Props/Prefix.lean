import Verif.Props.PacketWire
import Verif.Lemmas.Bounded

/-! C30: what is parsed does not depend on what follows, and truncated messages are never accepted. -/

namespace Dns
open Spec Buf

/-- C30: a name. -/
theorem C30_name_extend (d e : Bytes) (i j : Nat) (n : Fqdn) (h : extractFqdn d i = (.ok n, j)) :
    extractFqdn (d ++ e) i = (.ok n, j) := decodes_extends d e i n j h

example : extractFqdn [1, 97, 0] 0 = (.ok [[97]], 3) ∧ extractFqdn [1, 97, 0, 9, 9] 0 = (.ok [[97]], 3) := by
  decide +kernel

/-- C30: a question. -/
theorem C30_question_extend (cfg : Cfg) (d e : Bytes) (i j : Nat) (q : Question)
    (h : Question.parse cfg d i = (.ok q, j)) : Question.parse cfg (d ++ e) i = (.ok q, j) :=
  Question.parse_ok.mpr (questionAt_extend decodes_extends (Question.parse_ok.mp h) e)
example (e : Bytes) : Question.parse ⟨true, true, true⟩ ([1, 97, 0, 0, 1, 0, 1] ++ e) 0 = (.ok ⟨[[97]], .rr .A, .IN, false⟩, 7) :=
  C30_question_extend _ _ e 0 7 _ (by decide +kernel)

/-- C30: a record. -/
theorem C30_record_extend (cfg : Cfg) (d e : Bytes) (i j : Nat) (r : ResourceRecord)
    (h : ResourceRecord.parse cfg d i = (.ok r, j)) : ResourceRecord.parse cfg (d ++ e) i = (.ok r, j) :=
  ResourceRecord.parse_ok.mpr (recordAt_extend decodes_extends (ResourceRecord.parse_ok.mp h) e)

example : ResourceRecord.parse ⟨true, true, true⟩
    ([1, 97, 0, 0, 1, 0, 1, 0, 0, 1, 44, 0, 4, 1, 2, 3, 4] ++ [9, 9] : Bytes) 0 =
    (.ok ⟨[[97]], .A, false, .IN, 300, .A ⟨0x01020304⟩⟩, 17) :=
  C30_record_extend _ _ _ 0 17 _ (by decide +kernel)

/-- C30: a packet; the octets consumed are the same. -/
theorem C30_packet_extend (cfg : Cfg) (d e : Bytes) (j : Nat) (p : Packet)
    (h : Packet.parseBuf cfg d 0 = (.ok p, j)) : Packet.parseBuf cfg (d ++ e) 0 = (.ok p, j) := by
  obtain ⟨h1, h2, h3, h4, i1, i2, i3, i4, l0, l1, l2, l3, l4⟩ := Packet.parseBuf_ok.mp h
  exact Packet.parseBuf_ok.mpr ⟨h1, h2, h3, h4, i1, i2, i3, i4,
    items_extend decodes_extends (by simp [headerItems, Item.Open]) l0 e,
    listAt_mono (fun i x j hx => questionAt_extend decodes_extends hx e) _ _ _ l1,
    listAt_mono (fun i x j hx => recordAt_extend decodes_extends hx e) _ _ _ l2,
    listAt_mono (fun i x j hx => recordAt_extend decodes_extends hx e) _ _ _ l3,
    listAt_mono (fun i x j hx => recordAt_extend decodes_extends hx e) _ _ _ l4⟩
example (e : Bytes) : Packet.parseBuf ⟨true, true, true⟩ ([0, 1, 1, 0, 0, 0, 0, 0, 0, 0, 0, 0] ++ e) 0 =
    (.ok ⟨⟨1, ⟨1, 0⟩, 0, 0, 0, 0⟩, [], [], [], []⟩, 12) :=
  C30_packet_extend _ _ e 12 _ (by decide +kernel)

/-- C30: `Packet::try_from` of a longer slice. -/
theorem C30_try_from_extend (cfg : Cfg) (d e : Bytes) (p : Packet) (h : Packet.parse cfg d = .ok p) :
    Packet.parse cfg (d ++ e) = .ok p := by
  unfold Packet.parse at h ⊢
  rw [C30_packet_extend cfg d e (Packet.parseBuf cfg d 0).2 p (by rw [← h])]
example (e : Bytes) : Packet.parse ⟨true, true, true⟩ ([0, 1, 1, 0, 0, 0, 0, 0, 0, 0, 0, 0] ++ e) =
    .ok ⟨⟨1, ⟨1, 0⟩, 0, 0, 0, 0⟩, [], [], [], []⟩ :=
  C30_try_from_extend _ _ e _ (by decide +kernel)

theorem recordAt_le {RD : RecordType → Bytes → Nat → RecordData → Prop} {N : NameRel} {cfg : Cfg}
    {d : Bytes} {i j : Nat} {r : ResourceRecord} (h : RecordAtWith RD N cfg d i r j) : j ≤ d.length := by
  obtain ⟨_, _, _, _, _, _, _, _, h, _⟩ := h; exact h

/-- C30: a name cut off before its end is not accepted. -/
theorem C30_name_truncated (d : Bytes) (i j k : Nat) (n : Fqdn) (h : extractFqdn d i = (.ok n, j))
    (hk : k < j) (m : Fqdn) (l : Nat) : extractFqdn (d.take k) i ≠ (.ok m, l) := by
  intro h1
  have h2 := C30_name_extend _ (d.drop k) _ _ _ h1
  rw [List.take_append_drop, h] at h2
  cases h2
  have : j ≤ (d.take k).length := by
    rcases codeName_shape (extractFqdn_ok.mp h1) with ⟨_, h2, _⟩ | ⟨_, _, p, _, _, _, _, _, rfl, h4, _⟩
    · have := (List.getElem?_eq_some_iff.mp h2).1; omega
    · exact Octets.le h4
  rw [List.length_take] at this
  omega
example (m : Fqdn) (l : Nat) : extractFqdn ([1, 97, 1, 98, 0].take 3) 0 ≠ (.ok m, l) :=
  C30_name_truncated _ 0 5 3 [[97], [98]] (by decide +kernel) (by decide) m l

/-- C30: a question cut off before its end is not accepted. -/
theorem C30_question_truncated (cfg : Cfg) (d : Bytes) (i j k : Nat) (q : Question)
    (h : Question.parse cfg d i = (.ok q, j)) (hk : k < j) (q' : Question) (l : Nat) :
    Question.parse cfg (d.take k) i ≠ (.ok q', l) := by
  intro h1
  have h2 := C30_question_extend cfg _ (d.drop k) _ _ _ h1
  rw [List.take_append_drop, h] at h2
  cases h2
  obtain ⟨_, v, _, m1, _, m2, _, m3, h3, rfl⟩ := Question.parse_ok.mp h1
  have := Octets.le h3
  rw [List.length_take] at this
  omega

/-- C30: a question of 7 octets without the last one. -/
example (q : Question) (l : Nat) : Question.parse ⟨true, true, true⟩ [1, 97, 0, 0, 1, 0] 0 ≠ (.ok q, l) :=
  C30_question_truncated ⟨true, true, true⟩ [1, 97, 0, 0, 1, 0, 1] 0 7 6 ⟨[[97]], .rr .A, .IN, false⟩
    (by decide +kernel) (by decide) q l

/-- C30: a record cut off before its end is not accepted. -/
theorem C30_record_truncated (cfg : Cfg) (d : Bytes) (i j k : Nat) (r : ResourceRecord)
    (h : ResourceRecord.parse cfg d i = (.ok r, j)) (hk : k < j) (r' : ResourceRecord) (l : Nat) :
    ResourceRecord.parse cfg (d.take k) i ≠ (.ok r', l) := by
  intro h1
  have h2 := C30_record_extend cfg _ (d.drop k) _ _ _ h1
  rw [List.take_append_drop, h] at h2
  cases h2
  have := recordAt_le (ResourceRecord.parse_ok.mp h1)
  rw [List.length_take] at this
  omega
example (r' : ResourceRecord) (l : Nat) :
    ResourceRecord.parse ⟨true, true, true⟩ ([0, 0, 1, 0, 1, 0, 0, 0, 5, 0, 4, 1, 2, 3, 4].take 14) 0 ≠ (.ok r', l) :=
  C30_record_truncated _ _ 0 15 14 ⟨[], .A, false, .IN, 5, .A ⟨0x01020304⟩⟩ (by decide +kernel) (by decide) r' l

theorem Packet.parseBuf_le {cfg : Cfg} {d : Bytes} {p : Packet} {j : Nat}
    (h : Packet.parseBuf cfg d 0 = (.ok p, j)) : j ≤ d.length := by
  have := Packet.bounded cfg d 0 (Nat.zero_le _)
  rwa [h] at this

/-- C30: a message cut off before the end of the last record (of the octets consumed) is not accepted:
no truncation of a packet parses, not even as a different packet. -/
theorem C30_packet_truncated (cfg : Cfg) (d : Bytes) (j k : Nat) (p : Packet)
    (h : Packet.parseBuf cfg d 0 = (.ok p, j)) (hk : k < j) (p' : Packet) :
    Packet.parse cfg (d.take k) ≠ .ok p' := by
  intro h1
  have h2 : Packet.parseBuf cfg (d.take k) 0 = (.ok p', (Packet.parseBuf cfg (d.take k) 0).2) := by
    unfold Packet.parse at h1; rw [← h1]
  have h3 := C30_packet_extend cfg _ (d.drop k) _ _ h2
  rw [List.take_append_drop, h] at h3
  have := Packet.parseBuf_le h2
  have h4 : j = (Packet.parseBuf cfg (d.take k) 0).2 := congrArg Prod.snd h3
  rw [List.length_take] at this
  omega
example (p' : Packet) : Packet.parse ⟨true, true, true⟩ ([0, 1, 1, 0, 0, 0, 0, 0, 0, 0, 0, 0].take 11) ≠ .ok p' :=
  C30_packet_truncated _ _ 12 11 ⟨⟨1, ⟨1, 0⟩, 0, 0, 0, 0⟩, [], [], [], []⟩ (by decide +kernel) (by decide) p'

/-- C30: what `to_bytes()` writes is not accepted with octets missing at the end. -/
theorem C30_written_truncated (cfg : Cfg) (p : Packet) (hp : PacketOk cfg 191 p)
    (hs : ∀ r ∈ records p, r.rdata.type ≠ .SSHFP ∧ sizeError r.rdata = 0) (b : Bytes)
    (hb : p.toBytes cfg = .ok b) (k : Nat) (hk : k < b.length) (p' : Packet) :
    Packet.parse cfg (b.take k) ≠ .ok p' := by
  obtain ⟨b', h1, h2⟩ := C27_packet_round_trip_partial cfg p hp hs
  rw [hb] at h1
  cases h1
  obtain ⟨h3, h4⟩ := h2 []
  rw [List.append_nil] at h3 h4
  refine C30_packet_truncated cfg b b.length k (withCounts p) ?_ hk p'
  unfold Packet.parse at h3
  rw [← h3, ← h4]

/-- C30: a packet of 21 octets, with and without trailing octets. -/
example : Packet.parseBuf ⟨true, false, false⟩
    ([0, 7, 1, 0, 0, 1, 0, 0, 0, 0, 0, 0, 1, 97, 1, 98, 0, 0, 1, 0, 1] ++ [9, 9] : Bytes) 0 =
    (.ok ⟨⟨7, ⟨1, 0⟩, 1, 0, 0, 0⟩, [exQuestion], [], [], []⟩, 21) := by decide +kernel

end Dns
