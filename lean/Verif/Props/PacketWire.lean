import Verif.Lemmas.PacketWrite
import Verif.Props.NameWrite

/-! C26 to C29: packets on the wire. -/

namespace Dns
open Spec Buf

/-! ## C26 -/

theorem recordsBytes_prefix {cfg : Cfg} : ∀ (rs : List ResourceRecord) (bin b : Bytes),
    Packet.recordsBytes cfg rs bin = .ok b → bin <+: b := by
  intro rs
  induction rs with
  | nil => intro bin b h; cases h; exact List.prefix_refl _
  | cons r rs ih =>
    intro bin b h
    rw [Packet.recordsBytes, Res.bind_ok] at h
    obtain ⟨a, _, h⟩ := h
    exact (List.prefix_append _ _).trans (ih _ _ h)

theorem questionsBytes_prefix {cfg : Cfg} (qs : List Question) (bin : Bytes) :
    bin <+: qs.foldl (fun bin q => bin ++ q.toBytes cfg) bin := by
  induction qs generalizing bin with
  | nil => exact List.prefix_refl _
  | cons q qs ih => exact (List.prefix_append _ _).trans (ih _)

theorem toBytes_prefix {cfg : Cfg} {p : Packet} {b : Bytes} (h : p.toBytes cfg = .ok b) :
    p.headerBytes <+: b := by
  unfold Packet.toBytes at h
  simp only [Res.bind_ok] at h
  obtain ⟨b1, h1, b2, h2, h3⟩ := h
  exact (((questionsBytes_prefix _ _).trans (recordsBytes_prefix _ _ _ h1)).trans
    (recordsBytes_prefix _ _ _ h2)).trans (recordsBytes_prefix _ _ _ h3)

theorem valueOf_octets16 (n : Nat) (h : n < 65536) : valueOf (octets16 (UInt16.ofNat n)) = n := by
  rw [← u16be_eq, u16be, toBE_value _ _ (by have := (UInt16.ofNat n).toNat_lt; omega)]
  exact UInt16.toNat_ofNat_of_lt' (by simpa [UInt16.size] using h)

/-- C26: whatever the counts in the header of the packet are, the octets 4 to 12 of `to_bytes()` are the
numbers of questions, answers, authorities and additionals (most significant octet first).  The first
four octets are those of the header. -/
theorem C26_counts_written (cfg : Cfg) (p : Packet) (b : Bytes) (h : p.toBytes cfg = .ok b)
    (h1 : p.questions.length < 65536) (h2 : p.answers.length < 65536)
    (h3 : p.authorities.length < 65536) (h4 : p.additional.length < 65536) :
    b.take 4 = p.header.toBytes.take 4 ∧
    valueOf ((b.drop 4).take 2) = p.questions.length ∧ valueOf ((b.drop 6).take 2) = p.answers.length ∧
    valueOf ((b.drop 8).take 2) = p.authorities.length ∧
    valueOf ((b.drop 10).take 2) = p.additional.length := by
  obtain ⟨e, rfl⟩ := toBytes_prefix h
  obtain ⟨⟨id, ⟨hi, lo⟩, x1, x2, x3, x4⟩, q, an, au, ad⟩ := p
  rw [headerBytes_eq, header_toBytes_eq]
  have key : Items.octets (headerItems (withCounts ⟨⟨id, ⟨hi, lo⟩, x1, x2, x3, x4⟩, q, an, au, ad⟩).header)
      = octets16 id ++ [hi, lo] ++ octets16 (UInt16.ofNat q.length) ++ octets16 (UInt16.ofNat an.length)
        ++ octets16 (UInt16.ofNat au.length) ++ octets16 (UInt16.ofNat ad.length) := by
    simp [headerItems, withCounts, Items.octets, Item.octets]
  rw [key]
  refine ⟨rfl, ?_, ?_, ?_, ?_⟩
  · exact valueOf_octets16 _ h1
  · exact valueOf_octets16 _ h2
  · exact valueOf_octets16 _ h3
  · exact valueOf_octets16 _ h4

/-- A question and an A record, used in the examples below. -/
def exQuestion : Question := ⟨[[97], [98]], .rr .A, .IN, false⟩
def exRecord : ResourceRecord := ⟨[[97], [98]], .A, false, .IN, 300, .A ⟨0x01020304⟩⟩

/-- C26: a packet whose header counts are wrong (as after `with_questions`). -/
example : (Packet.withQuestions 7 true [exQuestion]).header.quesCount = 0 ∧
    (Packet.withQuestions 7 true [exQuestion]).toBytes ⟨true, true, true⟩ =
      .ok [0, 7, 1, 0, 0, 1, 0, 0, 0, 0, 0, 0, 1, 97, 1, 98, 0, 0, 1, 0, 1] := by decide +kernel

/-! ## C27 -/

theorem writable_sets {cfg : Cfg} {max : Nat} {r : RecordData} (h : Writable cfg max r) : SetsOk r := by
  cases r with
  | NSEC r => exact h.2.1
  | CSYNC r => exact h.2.1
  | _ => trivial

/-- C27 (partial): a packet that can be represented on the wire is written, and what is written
(whatever follows) is read back as the same packet, with the counts of the header corrected; exactly the
octets written are consumed.  What is missing: packets with SSHFP records, and with records whose size
the crate gets wrong (OPT, RRSIG, CAA with a tag, SVCB with parameters); for them the claim is false,
see the counterexamples.  Labels may have up to 191 octets. -/
theorem C27_packet_round_trip_partial (cfg : Cfg) (p : Packet) (hp : PacketOk cfg 191 p)
    (hs : ∀ r ∈ records p, r.rdata.type ≠ .SSHFP ∧ sizeError r.rdata = 0) :
    ∃ b, p.toBytes cfg = .ok b ∧
      ∀ rest, Packet.parse cfg (b ++ rest) = .ok (withCounts p) ∧
        (Packet.parseBuf cfg (b ++ rest) 0).2 = b.length := by
  obtain ⟨b, h1, h2⟩ := Packet.read_back (Nat.le_refl 191) hp
    (fun r hr => ⟨fun x hx => (hs r hr).1 (by rw [hx]; rfl), (hs r hr).2,
      writable_sets (hp.2.1 r hr).2.2.2.2.2.2.1⟩)
  exact ⟨b, h1, fun rest => by unfold Packet.parse; rw [h2]; exact ⟨rfl, rfl⟩⟩

/-- C27: correcting right counts changes nothing, so that such packets are read back unchanged. -/
theorem C27_counts (p : Packet) (hc : CountsOk p) : withCounts p = p := by
  obtain ⟨⟨id, fl, x1, x2, x3, x4⟩, q, an, au, ad⟩ := p
  obtain ⟨h1, h2, h3, h4⟩ := hc
  simp only at h1 h2 h3 h4
  simp [withCounts, ← h1, ← h2, ← h3, ← h4]
example : withCounts (Packet.newQuery 7 true) = .newQuery 7 true := C27_counts _ ⟨rfl, rfl, rfl, rfl⟩

/-- The only difference between a packet and the packet with corrected counts are the counts. -/
theorem C27_counts_only (p : Packet) : (withCounts p).questions = p.questions ∧
    (withCounts p).answers = p.answers ∧ (withCounts p).authorities = p.authorities ∧
    (withCounts p).additional = p.additional ∧ (withCounts p).header.id = p.header.id ∧
    (withCounts p).header.flags = p.header.flags := ⟨rfl, rfl, rfl, rfl, rfl, rfl⟩

/-- A packet with one question and records of several types, for the examples. -/
def exPacket : Packet :=
  ⟨⟨4660, ⟨0x81, 0x80⟩, 1, 2, 1, 1⟩, [exQuestion],
    [exRecord, ⟨[[97]], .TXT, true, .IN, 5, .TXT ⟨[[104, 105], []]⟩⟩],
    [⟨[[98]], .NSEC, false, .CH, 5, .NSEC ⟨[[97], [98]], [.A, .MX, .CAA]⟩⟩],
    [⟨[], .MX, false, .udpPayloadSize 1232, 0, .MX ⟨10, [[109], [97], [98]]⟩⟩]⟩

theorem exPacket_ok : PacketOk ⟨true, true, true⟩ 63 exPacket := by
  have hA : IsUtf8 [104, 105] := ⟨['h', 'i'], by decide +kernel⟩
  have hE : IsUtf8 [] := ⟨[], by decide +kernel⟩
  refine ⟨?_, ?_, by decide, by decide, by decide, by decide⟩
  · simp only [exPacket, exQuestion, List.mem_singleton, forall_eq]
    refine ⟨by decide, ?_, by decide⟩
    simp [QReadable, Readable]
  · simp only [records, exPacket, exRecord, List.cons_append, List.nil_append, List.forall_mem_cons]
    refine ⟨⟨by decide, by simp [Readable], rfl, trivial, by decide, by decide, trivial, ?_⟩,
      ⟨by decide, by simp [Readable], rfl, trivial, by decide, by decide, ?_, ?_⟩,
      ⟨by decide, by simp [Readable], rfl, trivial, by decide, by decide, ⟨by decide, by simp [TypesOk, typeNumber, Readable]⟩, ?_⟩,
      ⟨by decide, by simp [Readable], rfl, by simp [classOk], by decide, by decide, by simp only [Writable]; decide, ?_⟩,
      by simp⟩
    · intro b h; cases h; decide
    · simp [Writable, hA, hE]
    · intro b h; cases h; decide
    · intro b h
      have : RecordData.toBytes ⟨true, true, true⟩ (.NSEC ⟨[[97], [98]], [.A, .MX, .CAA]⟩) =
        .ok [1, 97, 1, 98, 0, 0, 2, 0x40, 0x01, 1, 1, 0x40] := by decide +kernel
      rw [this] at h; cases h; decide
    · intro b h; cases h; decide

/-- C27: the packet of the example is read back. -/
example : (exPacket.toBytes ⟨true, true, true⟩).bind (Packet.parse ⟨true, true, true⟩) = .ok exPacket := by
  decide +kernel

/-- The packet with one answer. -/
def onePacket (r : ResourceRecord) : Packet := ⟨⟨1, ⟨0x80, 0⟩, 0, 1, 0, 0⟩, [], [r], [], []⟩

/-- C27 is false for SSHFP, OPT, RRSIG, CAA and SVCB records: a packet with one such record, which can
be represented on the wire, is written to octets that are not read back as the packet. -/
theorem C27_counterexamples : ∀ r ∈ ([
      ⟨[[97]], .SSHFP, false, .IN, 5, .SSHFP ⟨.RSA, .SHA1, [1, 2, 3]⟩⟩,
      ⟨[], .OPT, false, .udpPayloadSize 1232, 0, .OPT ⟨[(10, [1, 2, 3, 4])]⟩⟩,
      ⟨[[97]], .RRSIG, false, .IN, 5, .RRSIG ⟨.A, .ED25519, 1, 5, 2, 1, 7, [[97]], [1, 2, 3]⟩⟩,
      ⟨[[97]], .CAA, false, .IN, 5, .CAA ⟨false, [105], [99, 97]⟩⟩,
      ⟨[[97]], .SVCB, false, .IN, 5, .SVCB ⟨1, [[98]], [.port 443]⟩⟩] : List ResourceRecord),
    PacketOk ⟨true, true, true⟩ 63 (onePacket r) ∧ CountsOk (onePacket r) ∧
      ∃ b, (onePacket r).toBytes ⟨true, true, true⟩ = .ok b ∧
      Packet.parse ⟨true, true, true⟩ b ≠ .ok (onePacket r) := by
  intro r hr
  simp only [List.mem_cons, List.not_mem_nil, or_false] at hr
  have one : ∀ x, RecordOk ⟨true, true, true⟩ 63 x → PacketOk ⟨true, true, true⟩ 63 (onePacket x) := by
    intro x hx
    refine ⟨by simp [onePacket], ?_, by simp [onePacket], by simp [onePacket], by simp [onePacket], by simp [onePacket]⟩
    intro y hy
    simp only [records, onePacket, List.append_nil, List.mem_singleton] at hy
    rw [hy]; exact hx
  have hi : IsUtf8 [105] := ⟨['i'], by decide +kernel⟩
  refine ⟨one r ?_, ⟨rfl, rfl, rfl, rfl⟩, ?_⟩
  · rcases hr with rfl | rfl | rfl | rfl | rfl
    · exact ⟨by decide, by simp [Readable], rfl, trivial, by decide, by decide, trivial, fun b hb => by cases hb; decide⟩
    · exact ⟨by decide, by simp [Readable], rfl, by simp [classOk], by decide, by decide, by simp [Writable],
        fun b hb => by cases hb; decide⟩
    · exact ⟨by decide, by simp [Readable], rfl, trivial, by decide, by decide,
        ⟨by simp [Readable], by decide⟩, fun b hb => by cases hb; decide⟩
    · exact ⟨by decide, by simp [Readable], rfl, trivial, by decide, by decide,
        ⟨by decide, by decide, hi⟩, fun b hb => by cases hb; decide⟩
    · refine ⟨by decide, by simp [Readable], rfl, trivial, by decide, by decide,
        ⟨by decide, by simp, by simp [ParamFits, paramOk, paramValue, Items.octets, Item.octets, octets16]⟩, fun b hb => ?_⟩
      have : RecordData.toBytes ⟨true, true, true⟩ (.SVCB ⟨1, [[98]], [.port 443]⟩) =
        .ok [0, 1, 1, 98, 0, 0, 3, 0, 2, 1, 187] := by decide +kernel
      rw [this] at hb; cases hb; decide
  · rcases hr with rfl | rfl | rfl | rfl | rfl
    all_goals exact ⟨_, rfl, by decide +kernel⟩

/-! ## C28 -/

/-- C28 (partial): a packet that can be represented on the wire, with right header counts, is written
with name compression, and if the message has at most 16384 octets, it is read back (whatever
follows) as the same packet; for every hash function without collisions on the suffixes of the names of
the packet.  What is missing: packets with SSHFP records (false, see the counterexample). -/
theorem C28_compressed_round_trip_partial (cfg : Cfg) (h : Hash) (p : Packet) (hp : PacketOk cfg 191 p)
    (hc : CountsOk p) (hs : ∀ r ∈ records p, r.rdata.type ≠ .SSHFP)
    (hh : NoCollision h (packetNames p)) :
    ∃ b, p.toBytesCompressed cfg h = .ok b ∧
      (b.length ≤ 16384 → ∀ rest, Packet.parse cfg (b ++ rest) = .ok p ∧
        (Packet.parseBuf cfg (b ++ rest) 0).2 = b.length) := by
  obtain ⟨b, h1, h2⟩ := Packet.read_back_compressed (Nat.le_refl 191)
    (suffixOf_tailClosed (packetNames p)) hh hp hc
    (fun r hr x hx => hs r hr (by rw [hx]; rfl)) (fun n hn => ⟨n, hn, List.suffix_refl _⟩)
  exact ⟨b, h1, fun hl rest => by unfold Packet.parse; rw [h2 hl]; exact ⟨rfl, rfl⟩⟩

/-- A hash function without collisions on names of at most three labels of one octet. -/
def exHash : Hash := fun n => UInt64.ofNat (n.foldl (fun a l => 1000 * a + 1 + ofBE l) 0)

/-- C28: the hypotheses hold for the packet of the example, and it is indeed compressed. -/
example : CountsOk exPacket ∧ (∀ r ∈ records exPacket, r.rdata.type ≠ .SSHFP) ∧
    (exPacket.toBytesCompressed ⟨true, true, true⟩ exHash).bind (Packet.parse ⟨true, true, true⟩)
      = .ok exPacket := by
  refine ⟨⟨rfl, rfl, rfl, rfl⟩, by decide, by decide +kernel⟩

theorem suffix_mem_tails {a n : Fqdn} (h : a <:+ n) : a ∈ n.tails := (List.mem_tails _ _).mpr h

example : NoCollision exHash (packetNames exPacket) := by
  have key : ∀ a ∈ (packetNames exPacket).flatMap List.tails, ∀ b ∈ (packetNames exPacket).flatMap List.tails,
      exHash a = exHash b → a = b := by decide +kernel
  rintro a b ⟨n, hn, ha⟩ ⟨m, hm, hb⟩ h
  exact key a (List.mem_flatMap.mpr ⟨n, hn, (List.mem_tails _ _).mpr ha⟩) b
    (List.mem_flatMap.mpr ⟨m, hm, (List.mem_tails _ _).mpr hb⟩) h

/-- C28: records whose size the crate gets wrong are read back from the compressed form. -/
example : ∀ d ∈ ([.OPT ⟨[(10, [1, 2, 3, 4])]⟩, .RRSIG ⟨.A, .ED25519, 1, 5, 2, 1, 7, [[97]], [1, 2, 3]⟩,
      .CAA ⟨false, [105], [99, 97]⟩, .SVCB ⟨1, [[98]], [.port 443]⟩] : List RecordData),
    ((onePacket ⟨[[97]], d.type, false, .IN, 5, d⟩).toBytesCompressed ⟨true, true, true⟩ exHash).bind
      (Packet.parse ⟨true, true, true⟩) = .ok (onePacket ⟨[[97]], d.type, false, .IN, 5, d⟩) := by
  decide +kernel

/-- C28 is false for SSHFP records: the fingerprint is written without the length octet the reader
expects. -/
theorem C28_counterexample : ∃ p : Packet, PacketOk ⟨true, true, true⟩ 63 p ∧ CountsOk p ∧ ∀ h : Hash, ∃ b,
    p.toBytesCompressed ⟨true, true, true⟩ h = .ok b ∧ b.length ≤ 16384 ∧
      Packet.parse ⟨true, true, true⟩ b ≠ .ok p := by
  refine ⟨onePacket ⟨[], .SSHFP, false, .IN, 5, .SSHFP ⟨.RSA, .SHA1, [1, 2, 3]⟩⟩, ?_, ⟨rfl, rfl, rfl, rfl⟩, ?_⟩
  · refine ⟨by simp [onePacket], ?_, by decide, by simp [onePacket], by decide, by decide⟩
    intro y hy
    simp only [records, onePacket, List.append_nil, List.mem_singleton] at hy
    rw [hy]
    exact ⟨by decide, by simp [Readable], rfl, trivial, by decide, by decide, trivial, fun b hb => by cases hb; decide⟩
  intro h
  refine ⟨[0, 1, 0x80, 0, 0, 0, 0, 1, 0, 0, 0, 0, 0, 0, 44, 0, 1, 0, 0, 0, 5, 0, 5, 1, 1, 1, 2, 3], ?_, by decide,
    by decide +kernel⟩
  show (onePacket ⟨[], .SSHFP, false, .IN, 5, .SSHFP ⟨.RSA, .SHA1, [1, 2, 3]⟩⟩).toBytesCompressed ⟨true, true, true⟩ (fun _ => 0) = _
  decide +kernel

/-! ## C29 -/

/-- C29: when a packet is parsed, each count of its header is the number of elements of the section. -/
theorem C29_parsed_counts (cfg : Cfg) (d : Bytes) (p : Packet) (h : Packet.parse cfg d = .ok p) :
    p.header.quesCount.toNat = p.questions.length ∧ p.header.ansCount.toNat = p.answers.length ∧
    p.header.authCount.toNat = p.authorities.length ∧ p.header.addCount.toNat = p.additional.length := by
  obtain ⟨e, h1, h2, h3, h4, _⟩ := Packet.parse_ok.mp h
  exact ⟨h1.symm, h2.symm, h3.symm, h4.symm⟩

/-- C29: an octet string that parses. -/
example : Packet.parse ⟨true, false, false⟩
    ([0, 7, 1, 0, 0, 1, 0, 0, 0, 0, 0, 0, 1, 97, 1, 98, 0, 0, 1, 0, 1] : Bytes) =
    .ok ⟨⟨7, ⟨1, 0⟩, 1, 0, 0, 0⟩, [exQuestion], [], [], []⟩ := by decide +kernel

end Dns
