import Verif.Props.Exchange
import Verif.Props.Represented

/-! C82: exactly which messages built with the API arrive as they were built. -/

namespace Dns
open Spec

/-- The records added, of all sections. -/
def addedRecords (cs : List PacketCall) : List ResourceRecord :=
  addedAnswers cs ++ addedAuthorities cs ++ addedAdditionals cs

theorem filled_records {p0 p : Packet} {cs : List PacketCall} (h : Arrived p0 cs p) : records p = addedRecords cs := by
  rw [records, h.2.2.1, h.2.2.2.1, h.2.2.2.2, addedRecords]

theorem filled_ok {cfg : Cfg} {p0 p : Packet} {cs : List PacketCall} (h : Arrived p0 cs p) (hp : PacketOk cfg 191 p) :
    AddsOk cfg cs := by
  refine ⟨?_, ?_⟩
  · rw [← h.2.1]; exact hp.1
  · have := filled_records h
    unfold addedRecords at this
    rw [← this]; exact hp.2.1

/-- C82, exactly: what a program fills into a new packet and `to_bytes_compressed()` writes in at most 16384 octets is
read by the receiver, whatever follows, as it was built, if and only if all questions and records added can be
represented on the wire and none is an SSHFP record. -/
theorem C82_compressed_exact (cfg : Cfg) (hash : Hash) (p0 p : Packet) (cs : List PacketCall)
    (h0 : FreshPacket p0) (hf : ∀ c ∈ cs, c.Fills) (hfit : Fit cs) (h : History cfg p0 cs p)
    (hh : NoCollision hash (packetNames p)) (b rest : Bytes) (hb : p.toBytesCompressed cfg hash = .ok b)
    (hl : b.length ≤ 16384) :
    (∃ c, Packet.parse cfg (b ++ rest) = .ok c ∧ Arrived p0 cs c) ↔
      (AddsOk cfg cs ∧ ∀ r ∈ addedRecords cs, r.rdata.type ≠ .SSHFP) := by
  obtain ⟨h1, h2⟩ := filled_any h0 hf hfit h
  have key := C28_any_packet_exact cfg hash p hh b rest hb hl
  rw [filled_records h2] at key
  constructor
  · rintro ⟨c, hc, ha⟩
    have hd := (C80_header_arrives_compressed cfg cfg hash p c b rest hb hc).2
    have e : c = p := by
      obtain ⟨_, a1, a2, a3, a4⟩ := ha
      obtain ⟨_, b1, b2, b3, b4⟩ := h2
      cases c; cases p
      simp_all
    rw [e] at hc
    obtain ⟨k1, _, k3⟩ := key.mp hc
    exact ⟨filled_ok h2 k1, k3⟩
  · rintro ⟨k1, k2⟩
    exact ⟨p, key.mpr ⟨(filled h0 hf hfit k1 h).1, h1, k2⟩, h2⟩

/-- C82, exactly, for `to_bytes()` and less than 65536 octets: as it was built, if and only if all questions and records
added can be represented on the wire and none is an SSHFP, OPT, RRSIG or CAA record or an SVCB record with parameters.
(Excepted are messages with an SVCB record followed by a record of the root, see `C27_coincidence`.) -/
theorem C82_plain_exact (cfg : Cfg) (p0 p : Packet) (cs : List PacketCall)
    (h0 : FreshPacket p0) (hf : ∀ c ∈ cs, c.Fills) (hfit : Fit cs) (h : History cfg p0 cs p)
    (hv : Apart (addedRecords cs)) (b : Bytes) (hb : p.toBytes cfg = .ok b) (hl : b.length < 65536) :
    (∃ c, Packet.parse cfg b = .ok c ∧ Arrived p0 cs c) ↔
      (AddsOk cfg cs ∧ ∀ r ∈ addedRecords cs, r.rdata.type ∉ [RecordType.SSHFP, .OPT, .RRSIG, .CAA] ∧
        ∀ s, r.rdata = .SVCB s → s.params = []) := by
  obtain ⟨h1, h2⟩ := filled_any h0 hf hfit h
  have key := C27_any_packet_exact cfg p (by rw [filled_records h2]; exact hv) b hb hl
  rw [filled_records h2, C27_counts p h1] at key
  constructor
  · rintro ⟨c, hc, ha⟩
    have hd : c.header = p.header := by
      obtain ⟨e, rfl⟩ := toBytes_prefix hb
      rw [headerBytes_withCounts, C27_counts p h1] at hc
      exact parsed_header hc
    have e : c = p := by
      obtain ⟨_, a1, a2, a3, a4⟩ := ha
      obtain ⟨_, b1, b2, b3, b4⟩ := h2
      cases c; cases p
      simp_all
    rw [e] at hc
    obtain ⟨k1, k3⟩ := key.mp hc
    exact ⟨filled_ok h2 k1, k3⟩
  · rintro ⟨k1, k2⟩
    exact ⟨p, key.mpr ⟨(filled h0 hf hfit k1 h).1, k2⟩, h2⟩

/-- C82, false without exceptions: a reply with an SSHFP record that can be represented is built and written, and the
receiver does not read it as it was built. -/
theorem C82_counterexample : ∃ (cs : List PacketCall) (p : Packet) (b : Bytes),
    (∀ c ∈ cs, c.Fills) ∧ Fit cs ∧ AddsOk ⟨true, true, true⟩ cs ∧ History ⟨true, true, true⟩ (.newReply 1) cs p ∧
    p.toBytes ⟨true, true, true⟩ = .ok b ∧ ∀ hash, p.toBytesCompressed ⟨true, true, true⟩ hash = .ok b ∧
    ¬ ∃ c, Packet.parse ⟨true, true, true⟩ b = .ok c ∧ Arrived (.newReply 1) cs c := by
  refine ⟨[.addAnswer ⟨[], .SSHFP, false, .IN, 5, .SSHFP ⟨.RSA, .SHA1, [1, 2, 3]⟩⟩], _, _, ?_, by unfold Fit; decide,
    ⟨by simp [addedQuestions], ?_⟩, .cons rfl (.nil _), rfl, fun hash => ⟨rfl, ?_⟩⟩
  · simp only [List.forall_mem_cons]; exact ⟨trivial, by simp⟩
  · simp only [addedAnswers, addedAuthorities, addedAdditionals, List.filterMap, List.cons_append, List.nil_append,
      List.forall_mem_cons]
    refine ⟨⟨by decide, by simp [Readable], rfl, trivial, by decide, by decide, ?_, ?_⟩, by simp⟩
    · simp [Writable]
    · intro b h; cases h; decide
  · rintro ⟨c, hc, ha⟩
    have h1 := congrArg (fun x : Res Packet => x.bind (fun c => .ok c.answers)) hc
    have h2 : c.answers = _ := ha.2.2.1
    have h3 := h1.trans (congrArg Res.ok h2)
    revert h3
    decide +kernel

/-- C82: a program that adds a record with a class that is no canonical value (`OtherClass(1)`, which is written as `IN`):
the hypotheses are met, and it does not arrive. -/
def exOtherCalls : List PacketCall :=
  [.addAnswer ⟨[[97]], .A, false, .udpPayloadSize 1, 5, .A ⟨0x01020304⟩⟩]

example : ∃ p b, History ⟨true, true, true⟩ (.newReply 1) exOtherCalls p ∧ Fit exOtherCalls ∧
    (∀ c ∈ exOtherCalls, c.Fills) ∧ Apart (addedRecords exOtherCalls) ∧ p.toBytes ⟨true, true, true⟩ = .ok b ∧
    b.length = 29 ∧ ¬ ∃ c, Packet.parse ⟨true, true, true⟩ b = .ok c ∧ Arrived (.newReply 1) exOtherCalls c := by
  have hf : ∀ c ∈ exOtherCalls, c.Fills := by
    simp only [exOtherCalls, List.forall_mem_cons]; exact ⟨trivial, by simp⟩
  have ha : Apart (addedRecords exOtherCalls) := by
    intro a r r' c h
    have := congrArg List.length h
    simp [addedRecords, addedAnswers, addedAuthorities, addedAdditionals, exOtherCalls] at this
    omega
  refine ⟨_, _, .cons rfl (.nil _), by unfold Fit; decide, hf, ha, rfl, by decide +kernel, ?_⟩
  rw [C82_plain_exact ⟨true, true, true⟩ (.newReply 1) _ exOtherCalls (.newReply 1) hf (by unfold Fit; decide)
    (.cons rfl (.nil _)) ha _ rfl (by decide +kernel)]
  rintro ⟨h, -⟩
  have := (h.2 _ List.mem_cons_self).2.2.2.1
  simp [classOk] at this

end Dns
