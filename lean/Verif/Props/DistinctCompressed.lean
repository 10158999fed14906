import Verif.Lemmas.DistinctCompressed
import Verif.Props.Distinct
import Verif.Props.Hash

/-! C67: different packets are written differently by `to_bytes_compressed()`, with records of all types. -/

namespace Dns
open Spec Buf

/-- C67 (partial): two packets that can be represented on the wire, with right counts, and are written by
`to_bytes_compressed()` to octets of which one is the beginning of the other are the same packet; the hash
functions of the two calls may differ.  Records of all types may be present, also the SSHFP records, which are
not read back (C28).  What is missing: hash functions with collisions, for which it is false
(`C67_collision_counterexample`), and messages of more than 16384 octets, for which it is false too
(`C67_offset_counterexample`). -/
theorem C67_distinct_compressed_partial (cfg : Cfg) (h h' : Hash) (p q : Packet)
    (hp : PacketOk cfg 191 p) (hq : PacketOk cfg 191 q) (hc : CountsOk p) (hc' : CountsOk q)
    (hh : NoCollision h (packetNames p)) (hh' : NoCollision h' (packetNames q))
    (b c x y : Bytes) (h1 : p.toBytesCompressed cfg h = .ok b)
    (h2 : q.toBytesCompressed cfg h' = .ok c) (hb : b.length ≤ 16384) (hcl : c.length ≤ 16384)
    (h3 : b ++ x = c ++ y) : p = q ∧ b = c := by
  obtain ⟨b', e1, r1⟩ := Packet.said_compressed (suffixOf_tailClosed (packetNames p)) hh hp hc
    (fun n hn => ⟨n, hn, List.suffix_refl _⟩)
  obtain ⟨c', e2, r2⟩ := Packet.said_compressed (suffixOf_tailClosed (packetNames q)) hh' hq hc'
    (fun n hn => ⟨n, hn, List.suffix_refl _⟩)
  rw [h1] at e1; cases e1
  rw [h2] at e2; cases e2
  have a1 := r1 hb x
  rw [h3] at a1
  obtain ⟨e, l⟩ := message_same a1 (r2 hcl y)
  exact ⟨e, (List.append_inj h3 l).1⟩

/-- C67: the hypotheses hold for a packet with an SSHFP record. -/
example : CountsOk framedPacket ∧ NoCollision (fun n => UInt64.ofNat n.length) (packetNames framedPacket) ∧
    ∃ b, framedPacket.toBytesCompressed ⟨true, true, true⟩ (fun n => UInt64.ofNat n.length) = .ok b ∧
      b.length ≤ 16384 := by
  refine ⟨⟨rfl, rfl, rfl, rfl⟩, ?_, _, rfl, by decide +kernel⟩
  have hm : ∀ n ∈ packetNames framedPacket, n = [[97]] ∨ n = [] := by decide
  rintro a b ⟨n, hn, ha⟩ ⟨m, hm', hb⟩ e
  have hs : ∀ n a : Fqdn, n ∈ packetNames framedPacket → a <:+ n → a = [[97]] ∨ a = [] := by
    intro n a h1 h2
    rcases hm n h1 with rfl | rfl
    · simpa [List.suffix_cons_iff] using h2
    · exact .inr (by simpa using h2)
  rcases hs n a hn ha with rfl | rfl <;> rcases hs m b hm' hb with rfl | rfl <;> first | rfl | simp at e

/-- C67 is false for `to_bytes_compressed()` without the hypothesis on the hash function: for every hash
function there are two packets that can be represented on the wire, with right counts, that are written to the
same octets. -/
theorem C67_collision_counterexample (cfg : Cfg) (h : Hash) : ∃ (p q : Packet) (b : Bytes),
    PacketOk cfg 63 p ∧ PacketOk cfg 63 q ∧ CountsOk p ∧ CountsOk q ∧ p ≠ q ∧ b.length ≤ 16384 ∧
    p.toBytesCompressed cfg h = .ok b ∧ q.toBytesCompressed cfg h = .ok b := by
  obtain ⟨f, g, h1, h2⟩ := collision h
  have hl : ∀ f, (letters f).length = 33 := fun f => List.length_ofFn
  obtain ⟨k1, k2⟩ := twoQuestions_ok cfg 63 (by omega) f g
  obtain ⟨k3, k4⟩ := twoQuestions_ok cfg 63 (by omega) f f
  refine ⟨twoQuestions (letters f) (letters g), twoQuestions (letters f) (letters f), _, k1, k3, k2, k4, ?_, ?_,
    twoQuestions_bytes cfg h (letters f) (letters g) h2, twoQuestions_bytes cfg h (letters f) (letters f) rfl⟩
  · intro e
    exact h1 (letters_injective (by simpa [twoQuestions] using e.symm))
  · simp [hl]

/-- A long record, and two records of which the second has the name `n`. -/
def farPacket (e : Bytes) (n : Fqdn) : Packet := ⟨⟨1, ⟨0x80, 0⟩, 0, 3, 0, 0⟩, [],
  [⟨[[97]], .URI, false, .IN, 5, .URI ⟨0, 0, e⟩⟩, ⟨[[98]], .A, false, .IN, 5, .A ⟨1⟩⟩, ⟨n, .A, false, .IN, 5, .A ⟨2⟩⟩], [], []⟩

theorem farPacket_ok (cfg : Cfg) {e : Bytes} (he : e.length = 16367) {n : Fqdn} (hn : NameOk 63 n) :
    PacketOk cfg 63 (farPacket e n) ∧ CountsOk (farPacket e n) := by
  refine ⟨⟨by simp [farPacket], ?_, by simp [farPacket], by simp [farPacket], by simp [farPacket], by simp [farPacket]⟩,
    ⟨rfl, rfl, rfl, rfl⟩⟩
  intro r hr
  simp only [records, farPacket, List.append_nil, List.mem_cons, List.not_mem_nil, or_false] at hr
  rcases hr with rfl | rfl | rfl
  · refine ⟨by simp [NameOk], by simp [Readable, dnssecTypes], rfl, trivial, by simp [classNumber], by simp, trivial, ?_⟩
    intro b hb
    have hb : Res.ok (u16be 0 ++ u16be 0 ++ e) = Res.ok b := hb
    rw [← Res.ok.inj hb]
    simp [u16be_length, he]
  · refine ⟨by simp [NameOk], by simp [Readable, dnssecTypes], rfl, trivial, by simp [classNumber], by simp, trivial, ?_⟩
    intro b hb; cases hb; decide
  · refine ⟨hn, by simp [Readable, dnssecTypes], rfl, trivial, by simp [classNumber], by simp, trivial, ?_⟩
    intro b hb; cases hb; decide

/-- What is written for both. -/
def farOctets (e : Bytes) : Bytes := [0, 1, 0x80, 0, 0, 0, 0, 3, 0, 0, 0, 0] ++
  [1, 97, 0, 1, 0, 0, 1, 0, 0, 0, 5, 0x3f, 0xf3, 0, 0, 0, 0] ++ e ++
  [1, 98, 0, 0, 1, 0, 1, 0, 0, 0, 5, 0, 4, 0, 0, 0, 1] ++ [0xC0, 12, 0, 1, 0, 1, 0, 0, 0, 5, 0, 4, 0, 0, 0, 2]

theorem farPacket_bytes (cfg : Cfg) (h : Hash) {e : Bytes} (he : e.length = 16367) (hab : h [[98]] ≠ h [[97]])
    {n : Fqdn} (hn : n = [[97]] ∨ n = [[98]]) : (farPacket e n).toBytesCompressed cfg h = .ok (farOctets e) := by
  have hc : ∀ (n : Fqdn) (t : RecordType) (d : RecordData), (⟨n, t, false, .IN, 5, d⟩ : ResourceRecord).classBits cfg = 1 := by
    intro n t d; simp [ResourceRecord.classBits]; decide
  have e1 : u16be 1 = [0, 1] := by decide
  have e0 : u16be 0 = [0, 0] := by decide
  have e3 : u16be 3 = [0, 3] := by decide
  have e4 : u16be (lenU16 4) = [0, 4] := by decide
  have e5 : u16be (lenU16 16371) = [0x3f, 0xf3] := by decide
  have e6 : u32be 5 = [0, 0, 0, 5] := by decide
  have e7 : u32be 1 = [0, 0, 0, 1] := by decide
  have e8 : u32be 2 = [0, 0, 0, 2] := by decide
  have e9 : u16be (12 ||| 0xC000) = [0xC0, 12] := by decide
  have e10 : u16be (16396 ||| 0xC000) = [0xC0, 12] := by decide
  have e11 : u16be RecordType.A.toU16 = [0, 1] := by decide
  have e12 : u16be RecordType.URI.toU16 = [1, 0] := by decide
  rcases hn with rfl | rfl <;>
  simp [farOctets, Packet.toBytesCompressed, farPacket, Packet.questionsCompressed, ResourceRecord.toBytesCompressed,
    ResourceRecord.headCompressed, RecordData.toBytesCompressed, Uri.toBytes, A.toBytes,
    Fqdn.toBytesCompressed, Names.empty, Names.insert, Packet.recordsCompressed, Header.toBytes, e0, e1, e3, e4, e5,
    e6, e7, e8, e9, e10, e11, e12, hc, he, hab, hab.symm, bind, Res.bind, pure, lenU8]

theorem far_packets (cfg : Cfg) (h : Hash) (hh : NoCollision h [[[97]], [[98]]]) :
    ∃ (p q : Packet) (b : Bytes), PacketOk cfg 63 p ∧ PacketOk cfg 63 q ∧ CountsOk p ∧ CountsOk q ∧
    NoCollision h (packetNames p) ∧ NoCollision h (packetNames q) ∧ p ≠ q ∧
    p.toBytesCompressed cfg h = .ok b ∧ q.toBytesCompressed cfg h = .ok b ∧
    (∀ r ∈ records p, r.rdata.type ≠ .SSHFP) ∧ ∀ r ∈ records q, r.rdata.type ≠ .SSHFP := by
  have he : (List.replicate 16367 (0 : UInt8)).length = 16367 := List.length_replicate
  generalize List.replicate 16367 (0 : UInt8) = e at he
  have hab : h [[98]] ≠ h [[97]] := fun e => by
    have := hh _ _ ⟨[[98]], by simp, List.suffix_refl _⟩ ⟨[[97]], by simp, List.suffix_refl _⟩ e
    revert this; decide
  have hm : ∀ n : Fqdn, n = [[97]] ∨ n = [[98]] → NoCollision h (packetNames (farPacket e n)) := by
    rintro n hn a b ⟨x, hx, ha⟩ ⟨y, hy, hb⟩
    have hs : ∀ x ∈ packetNames (farPacket e n), x ∈ [[[97]], [[98]]] := by
      intro x hx
      simp [packetNames, farPacket, records, rdataNames] at hx
      rcases hn with rfl | rfl <;> simp <;> tauto
    exact hh a b ⟨x, hs x hx, ha⟩ ⟨y, hs y hy, hb⟩
  obtain ⟨p1, p2⟩ := farPacket_ok cfg he (n := [[97]]) (by decide)
  obtain ⟨q1, q2⟩ := farPacket_ok cfg he (n := [[98]]) (by decide)
  exact ⟨farPacket e [[97]], farPacket e [[98]], farOctets e, p1, q1, p2, q2, hm _ (.inl rfl), hm _ (.inr rfl),
    by simp [farPacket], farPacket_bytes cfg h he hab (.inl rfl), farPacket_bytes cfg h he hab (.inr rfl),
    by simp [records, farPacket, RecordData.type], by simp [records, farPacket, RecordData.type]⟩

/-- C67 is false for `to_bytes_compressed()` for messages of more than 16384 octets, whatever the hash function:
two packets that can be represented on the wire, with right counts and names on which the hash function does not
collide, are written to the same octets. -/
theorem C67_offset_counterexample (cfg : Cfg) (h : Hash) (hh : NoCollision h [[[97]], [[98]]]) :
    ∃ (p q : Packet) (b : Bytes), PacketOk cfg 63 p ∧ PacketOk cfg 63 q ∧ CountsOk p ∧ CountsOk q ∧
    NoCollision h (packetNames p) ∧ NoCollision h (packetNames q) ∧ p ≠ q ∧
    p.toBytesCompressed cfg h = .ok b ∧ q.toBytesCompressed cfg h = .ok b := by
  obtain ⟨p, q, b, p1, q1, p2, q2, p3, q3, hne, p4, q4, _, _⟩ := far_packets cfg h hh
  exact ⟨p, q, b, p1, q1, p2, q2, p3, q3, hne, p4, q4⟩
example (cfg : Cfg) (h : Hash) (hh : ∀ a b, h a = h b → a = b) := C67_offset_counterexample cfg h (fun a b _ _ => hh a b)

/-- Missing in C28: for messages of more than 16384 octets it is false, whatever the hash function: a packet
that can be represented on the wire, with right counts, without SSHFP records and with names on which the hash
function does not collide, is written to octets that are not read as that packet. -/
theorem C28_offset_counterexample (cfg : Cfg) (h : Hash) (hh : NoCollision h [[[97]], [[98]]]) :
    ∃ (p : Packet) (b : Bytes), PacketOk cfg 63 p ∧ CountsOk p ∧ (∀ r ∈ records p, r.rdata.type ≠ .SSHFP) ∧
    NoCollision h (packetNames p) ∧ p.toBytesCompressed cfg h = .ok b ∧ Packet.parse cfg b ≠ .ok p := by
  obtain ⟨p, q, b, p1, q1, p2, q2, p3, q3, hne, p4, q4, p5, q5⟩ := far_packets cfg h hh
  by_cases hp : Packet.parse cfg b = .ok p
  · exact ⟨q, b, q1, q2, q5, q3, q4, fun hq => hne (Res.ok.inj (hp.symm.trans hq))⟩
  · exact ⟨p, b, p1, p2, p5, p3, p4, hp⟩

/-- C67, C28: there are such hash functions. -/
example : NoCollision exHash [[[97]], [[98]]] := by
  have key : ∀ a ∈ ([[[97]], [[98]]] : List Fqdn).flatMap List.tails, ∀ b ∈ ([[[97]], [[98]]] : List Fqdn).flatMap List.tails,
      exHash a = exHash b → a = b := by decide +kernel
  rintro a b ⟨n, hn, ha⟩ ⟨m, hm, hb⟩ h
  exact key a (List.mem_flatMap.mpr ⟨n, hn, (List.mem_tails _ _).mpr ha⟩) b
    (List.mem_flatMap.mpr ⟨m, hm, (List.mem_tails _ _).mpr hb⟩) h

end Dns
