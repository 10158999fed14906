import Verif.Lemmas.Forward
import Verif.Props.Receive
import Verif.Props.Build

/-!
Reading a message and writing what was read (C101): a message without compression pointers comes out as
the octets that came in.  `SentMessage PlainName` is the message of RFC 1035 as a sender has to write it
(the class fields with the bits of RFC 6762).
-/

namespace Dns
open Spec

/-- A packet has at most one encoding without compression: RFC 1035 and the RFCs of the types leave the
sender no choice. -/
theorem C101_one_encoding (cfg : Cfg) (hm : cfg.mdns = true) (p : Packet) (d b : Bytes)
    (h1 : SentMessage PlainName cfg d p) (h2 : SentMessage PlainName cfg b p) : d = b := sent_one hm h1 h2
example : ∃ d, SentMessage PlainName ⟨true, true, true⟩ d exPacket ∧
    ∀ b, SentMessage PlainName ⟨true, true, true⟩ b exPacket → d = b := by
  obtain ⟨d, -, h⟩ := C97_plain_partial _ _ exPacket_ok exPacket_well
  exact ⟨d, h, fun b hb => C101_one_encoding _ rfl _ _ _ h hb⟩

/-- C101 (partial): such a message is read as what it says, and what was read is written as the same
octets.  What is missing: the mDNS bits in a build without the feature `mdns`, SSHFP records, and data
that the crate does not write as the RFCs demand or of which it gets the size wrong (false, see the
counterexamples and `C101_forward_exact`). -/
theorem C101_forward_partial (cfg : Cfg) (d : Bytes) (p : Packet)
    (h : SentMessage PlainName { cfg with mdns := true } d p) (hb : cfg.mdns = true ∨ withoutBits p = p)
    (hv : ∀ r ∈ records p, Writable cfg 63 r.rdata)
    (hs : ∀ r ∈ records p, WrittenWell r.rdata ∧ sizeError r.rdata = 0 ∧ r.rdata.type ≠ .SSHFP) :
    Packet.parse cfg d = .ok p ∧ p.toBytes cfg = .ok d := by
  have hv' : ∀ r ∈ records p, Writable { cfg with mdns := true } 63 r.rdata := hv
  have h1 : Packet.parse { cfg with mdns := true } d = .ok p :=
    (C99_received_partial _ d p _ (C99_of_sent _ d p h) hv'
      (fun r hr => written_read (hs r hr).1 (hs r hr).2.2)).1
  have h2 : p.toBytes { cfg with mdns := true } = .ok d := by
    obtain ⟨b, b1, b2⟩ := C97_plain_partial _ p (sent_ok h hv' (fun r hr => (hs r hr).1))
      (fun r hr => ⟨(hs r hr).1, (hs r hr).2.1⟩)
    obtain ⟨c1, c2, c3, c4, -⟩ := id h
    rw [C27_counts p ⟨c1.symm, c2.symm, c3.symm, c4.symm⟩] at b2
    rw [b1, sent_one rfl h b2]
  obtain ⟨o, m, s⟩ := cfg
  cases m with
  | true => exact ⟨h1, h2⟩
  | false =>
    rcases hb with hb | hb
    · cases hb
    · refine ⟨?_, ?_⟩
      · have := C86_parse ⟨o, false, s⟩ d
        rw [h1] at this
        rw [this]
        exact congrArg Res.ok hb
      · rw [← (C86_write ⟨o, false, s⟩ (fun _ => 0) p hb).1]
        exact h2

/-- C101, exactly, for builds with the feature `mdns` and packets that can be represented on the wire. -/
theorem C101_forward_exact (cfg : Cfg) (hm : cfg.mdns = true) (d : Bytes) (p : Packet) (hp : PacketOk cfg 63 p)
    (h : SentMessage PlainName cfg d p) :
    (Packet.parse cfg d = .ok p ∧ p.toBytes cfg = .ok d) ↔
      ∀ r ∈ records p, WrittenWell r.rdata ∧ sizeError r.rdata = 0 ∧ r.rdata.type ≠ .SSHFP := by
  obtain ⟨o, m, s⟩ := cfg
  cases hm
  have hv : ∀ r ∈ records p, Writable ⟨o, true, s⟩ 63 r.rdata := fun r hr => (hp.2.1 r hr).2.2.2.2.2.2.1
  constructor
  · rintro ⟨h1, h2⟩ r hr
    obtain ⟨c1, c2, c3, c4, -⟩ := id h
    have h3 := (C97_plain_exact _ p hp).mp
      ⟨d, h2, by rw [C27_counts p ⟨c1.symm, c2.symm, c3.symm, c4.symm⟩]; exact h⟩ r hr
    have h4 := (C99_exact _ d p _ (C99_of_sent _ d p h) hv).mp h1 r hr
    refine ⟨h3.1, h3.2, fun e => ?_⟩
    cases hd : r.rdata <;> rw [hd] at e h4 <;> first | (cases e; done) | exact h4
  · exact fun hs => C101_forward_partial _ d p h (.inl rfl) hv hs

/-! ## Examples and counterexamples -/

/-- C101: what the packet of the examples is written to is such a message. -/
example : ∃ d, SentMessage PlainName ⟨true, true, true⟩ d exPacket ∧
    (∀ r ∈ records exPacket, WrittenWell r.rdata ∧ sizeError r.rdata = 0 ∧ r.rdata.type ≠ .SSHFP) ∧
    Packet.parse ⟨true, true, true⟩ d = .ok exPacket ∧ exPacket.toBytes ⟨true, true, true⟩ = .ok d := by
  obtain ⟨d, h1, h2⟩ := C97_plain_partial _ _ exPacket_ok exPacket_well
  have hs : ∀ r ∈ records exPacket, WrittenWell r.rdata ∧ sizeError r.rdata = 0 ∧ r.rdata.type ≠ .SSHFP :=
    fun r hr => ⟨(exPacket_well r hr).1, (exPacket_well r hr).2, by
      simp only [records, exPacket, exRecord, List.cons_append, List.nil_append, List.mem_cons, List.not_mem_nil,
        or_false] at hr
      rcases hr with rfl | rfl | rfl | rfl <;> simp [RecordData.type]⟩
  exact ⟨d, h2, hs, C101_forward_partial ⟨true, true, true⟩ d exPacket h2 (.inl rfl)
    (fun r hr => (exPacket_ok.2.1 r hr).2.2.2.2.2.2.1) hs⟩

/-- A message with one record and no compression, given the items of its data. -/
theorem sent_one_record {cfg : Cfg} {r : ResourceRecord} (h : RecordOk cfg 63 r) {its : List Item}
    (ht : r.rdata.type = r.type) (hs : RDataStrict cfg r.rdata its) (hf : ∀ it ∈ its, it.Fits 63)
    (ho : ∀ it ∈ its.dropLast, it.Open) (hl : (Items.octets its).length < 65536) (d : Bytes)
    (hd : d = Items.octets (headerItems (onePacket r).header) ++
      Items.octets (recordHead r (r.classBits cfg) (UInt16.ofNat (Items.octets its).length)) ++ Items.octets its) :
    SentMessage PlainName cfg d (onePacket r) := by
  subst hd
  have hN : Extends PlainName := nameWith_extends _ _
  have hp : ∀ pre n, Good 63 n → PlainName (pre ++ nameOctets n) pre.length n (pre ++ nameOctets n).length :=
    fun pre n h => nameWith_plain_end (max := 63) (by omega) _ pre n h
  refine ⟨rfl, rfl, rfl, rfl, (Items.octets (headerItems (onePacket r).header)).length, _, _, _, ?_, rfl,
    ⟨_, recordAt_parts hN h hl ?_ ⟨ht, its, hs, ?_⟩, rfl⟩, rfl, rfl⟩
  · have := items_plain hN hp (headerItems (onePacket r).header) [] (by simp [headerItems, Item.Fits])
      (by simp [headerItems, Item.Open])
    rw [List.append_assoc]
    exact items_extend hN (by simp [headerItems, Item.Open]) (by simpa using this) _
  · exact items_plain hN hp _ _ (by simp only [recordHead, List.forall_mem_cons]; exact ⟨h.1, by simp [Item.Fits, o16]⟩)
      (by simp [recordHead, Item.Open, o16])
  · exact items_plain hN hp _ _ hf ho

/-- C101 is false: a message with an OPT record without options comes out with another RDLENGTH. -/
theorem C101_counterexample_opt : ∃ (d b : Bytes) (p : Packet),
    d = [0, 1, 0x80, 0, 0, 0, 0, 1, 0, 0, 0, 0, 0, 0, 41, 4, 208, 0, 0, 0, 0, 0, 0] ∧
    b = [0, 1, 0x80, 0, 0, 0, 0, 1, 0, 0, 0, 0, 0, 0, 41, 4, 208, 0, 0, 0, 0, 0, 2] ∧
    SentMessage PlainName ⟨true, true, true⟩ d p ∧ Packet.parse ⟨true, true, true⟩ d = .ok p ∧
    p.toBytes ⟨true, true, true⟩ = .ok b := by
  refine ⟨_, _, onePacket ⟨[], .OPT, false, .udpPayloadSize 1232, 0, .OPT ⟨[]⟩⟩, rfl, rfl,
    sent_one_record (its := [.eof]) ?_ rfl ?_ ?_ ?_ ?_ _ ?_, by decide +kernel, by decide +kernel⟩
  · exact ⟨by decide, by simp [Readable], rfl, by simp [classOk], by decide, by decide, by simp [Writable],
      fun b hb => by cases hb; decide⟩
  · exact rfl
  · simp [Item.Fits]
  · simp
  · decide
  · decide

/-- C101 is false in builds without the feature `mdns`: the bit of RFC 6762 is lost. -/
theorem C101_counterexample_mdns : ∃ (d b : Bytes) (p q : Packet),
    SentMessage PlainName ⟨true, true, true⟩ d p ∧ Packet.parse ⟨true, false, true⟩ d = .ok q ∧
    q.toBytes ⟨true, false, true⟩ = .ok b ∧ b ≠ d := by
  refine ⟨[0, 1, 0x80, 0, 0, 0, 0, 1, 0, 0, 0, 0, 0, 0, 1, 128, 1, 0, 0, 0, 5, 0, 4, 127, 0, 0, 1],
    [0, 1, 0x80, 0, 0, 0, 0, 1, 0, 0, 0, 0, 0, 0, 1, 0, 1, 0, 0, 0, 5, 0, 4, 127, 0, 0, 1],
    onePacket ⟨[], .A, true, .IN, 5, .A ⟨0x7F000001⟩⟩, onePacket ⟨[], .A, false, .IN, 5, .A ⟨0x7F000001⟩⟩,
    sent_one_record (its := [.u32 0x7F000001]) ?_ rfl ?_ ?_ ?_ ?_ _ ?_, by decide +kernel, by decide +kernel,
    by decide⟩
  · exact ⟨by decide, by simp [Readable], rfl, by simp [classOk], by decide, by decide, by simp [Writable],
      fun b hb => by cases hb; decide⟩
  · exact rfl
  · simp [Item.Fits]
  · simp
  · decide
  · decide

end Dns
