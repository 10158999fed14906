import Verif.Lemmas.ConformOnly

/-! C97: what is written for a packet is a message of RFC 1035 that says what the packet says. -/

namespace Dns
open Spec Buf

/-! ## Without compression -/

/-- C97 (partial): for a packet that can be represented on the wire, `to_bytes` writes a message without
compression pointers that says what the packet says: header with the right counts, questions, and records
with an RDLENGTH that is the number of octets of the RDATA, which are one of the encodings a sender may
use for the data.  What is missing: packets with data that are not `WrittenWell`, and with OPT and RRSIG
records, CAA records and SVCB records with parameters (`sizeError`); for them the claim is false, see
`C97_plain_exact`. -/
theorem C97_plain_partial (cfg : Cfg) (p : Packet) (hp : PacketOk cfg 63 p)
    (hs : ∀ r ∈ records p, WrittenWell r.rdata ∧ sizeError r.rdata = 0) :
    ∃ b, p.toBytes cfg = .ok b ∧ SentMessage PlainName cfg b (withCounts p) :=
  Packet.sent (nameWith_extends _ _) (nameWith_plain_end (by omega) _) hp
    (fun r hr => ⟨(hs r hr).1, (hs r hr).2, writable_sets (hp.2.1 r hr).2.2.2.2.2.2.1⟩)

/-- C97, exactly: what `to_bytes` writes is such a message if and only if all data are `WrittenWell` and
the crate gets their size right. -/
theorem C97_plain_exact (cfg : Cfg) (p : Packet) (hp : PacketOk cfg 63 p) :
    (∃ b, p.toBytes cfg = .ok b ∧ SentMessage PlainName cfg b (withCounts p)) ↔
      ∀ r ∈ records p, WrittenWell r.rdata ∧ sizeError r.rdata = 0 :=
  ⟨fun ⟨_, h1, h2⟩ => Packet.sent_only hp h1 h2, C97_plain_partial cfg p hp⟩

/-- C97: the packet of the examples satisfies the hypotheses, and so does one with an SSHFP record
(which the crate cannot read). -/
theorem exPacket_well : ∀ r ∈ records exPacket, WrittenWell r.rdata ∧ sizeError r.rdata = 0 := by
  simp only [records, exPacket, exRecord, List.cons_append, List.nil_append, List.forall_mem_cons]
  refine ⟨⟨trivial, rfl⟩, ⟨trivial, rfl⟩, ⟨⟨.A, by simp, by decide⟩, rfl⟩, ⟨trivial, rfl⟩, by simp⟩

example : ∃ b, exPacket.toBytes ⟨true, true, true⟩ = .ok b ∧
    SentMessage PlainName ⟨true, true, true⟩ b (withCounts exPacket) :=
  C97_plain_partial _ _ exPacket_ok exPacket_well

example : WrittenWell (.SSHFP ⟨.RSA, .SHA1, [1, 2, 3]⟩) ∧ sizeError (.SSHFP ⟨.RSA, .SHA1, [1, 2, 3]⟩) = 0 :=
  ⟨trivial, rfl⟩

theorem onePacket_ok {cfg : Cfg} {x : ResourceRecord} (hx : RecordOk cfg 63 x) : PacketOk cfg 63 (onePacket x) := by
  refine ⟨by simp [onePacket], ?_, by simp [onePacket], by simp [onePacket], by simp [onePacket], by simp [onePacket]⟩
  intro y hy
  simp only [records, onePacket, List.append_nil, List.mem_singleton] at hy
  rw [hy]; exact hx

/-- C97 is false: the OPT record of RFC 6891 without options is written with an RDLENGTH of two, but
without the two octets. -/
theorem C97_counterexample_opt : ∃ (r : ResourceRecord) (b : Bytes),
    r = ⟨[], .OPT, false, .udpPayloadSize 1232, 0, .OPT ⟨[]⟩⟩ ∧
    PacketOk ⟨true, true, true⟩ 63 (onePacket r) ∧ (onePacket r).toBytes ⟨true, true, true⟩ = .ok b ∧
    b = [0, 1, 0x80, 0, 0, 0, 0, 1, 0, 0, 0, 0, 0, 0, 41, 4, 208, 0, 0, 0, 0, 0, 2] ∧
    ¬ SentMessage PlainName ⟨true, true, true⟩ b (withCounts (onePacket r)) := by
  have hok : PacketOk ⟨true, true, true⟩ 63 (onePacket ⟨[], .OPT, false, .udpPayloadSize 1232, 0, .OPT ⟨[]⟩⟩) :=
    onePacket_ok ⟨by decide, by simp [Readable], rfl, by simp [classOk], by decide, by decide, by simp [Writable],
      fun b hb => by cases hb; decide⟩
  have hb : (onePacket ⟨[], .OPT, false, .udpPayloadSize 1232, 0, .OPT ⟨[]⟩⟩).toBytes ⟨true, true, true⟩ =
    .ok [0, 1, 0x80, 0, 0, 0, 0, 1, 0, 0, 0, 0, 0, 0, 41, 4, 208, 0, 0, 0, 0, 0, 2] := by decide +kernel
  refine ⟨_, _, rfl, hok, hb, rfl, fun h => ?_⟩
  have := ((C97_plain_exact _ _ hok).mp ⟨_, hb, h⟩ _
    (by simp only [records, onePacket]; exact List.mem_singleton.mpr rfl)).2
  simp [sizeError] at this

/-! ## With compression -/

/-- C97 (partial): for a packet that can be represented on the wire, with right header counts,
`to_bytes_compressed` writes octets that, if there are at most 16384 of them, are a message that says what
the packet says, with pointers that lead to smaller offsets only; for every hash function without
collisions on the suffixes of the names of the packet.  What is missing: packets with data that are not
`WrittenWell` (false, see `C97_compressed_exact`).  (In which data names may be compressed is C63.) -/
theorem C97_compressed_partial (cfg : Cfg) (h : Hash) (p : Packet) (hp : PacketOk cfg 63 p) (hc : CountsOk p)
    (hh : NoCollision h (packetNames p)) (hs : ∀ r ∈ records p, WrittenWell r.rdata) :
    ∃ b, p.toBytesCompressed cfg h = .ok b ∧ (b.length ≤ 16384 → SentMessage BackwardName cfg b p) :=
  Packet.sent_compressed (nameWith_extends _ _) (by omega) (suffixOf_tailClosed (packetNames p)) hh
    (nameWith_plain_end (by omega) _) (backward_compressed (suffixOf_tailClosed (packetNames p)) hh)
    hp hc hs (fun n hn => ⟨n, hn, List.suffix_refl _⟩)

/-- C97, exactly: octets (at most 16384) written by `to_bytes_compressed` are such a message if and only
if all data are `WrittenWell`. -/
theorem C97_compressed_exact (cfg : Cfg) (h : Hash) (p : Packet) (hp : PacketOk cfg 63 p) (hc : CountsOk p)
    (hh : NoCollision h (packetNames p)) (b : Bytes) (hb : p.toBytesCompressed cfg h = .ok b)
    (hl : b.length ≤ 16384) :
    SentMessage BackwardName cfg b p ↔ ∀ r ∈ records p, WrittenWell r.rdata := by
  constructor
  · exact Packet.sent_only_compressed (suffixOf_tailClosed (packetNames p)) hh hp
      (fun n hn => ⟨n, hn, List.suffix_refl _⟩) hb hl
  · intro hs
    obtain ⟨b', h1, h2⟩ := C97_compressed_partial cfg h p hp hc hh hs
    rw [hb] at h1
    cases h1
    exact h2 hl

theorem exPacket_noCollision : NoCollision exHash (packetNames exPacket) := by
  have key : ∀ a ∈ (packetNames exPacket).flatMap List.tails, ∀ b ∈ (packetNames exPacket).flatMap List.tails,
      exHash a = exHash b → a = b := by decide +kernel
  rintro a b ⟨n, hn, ha⟩ ⟨m, hm, hb⟩ h
  exact key a (List.mem_flatMap.mpr ⟨n, hn, (List.mem_tails _ _).mpr ha⟩) b
    (List.mem_flatMap.mpr ⟨m, hm, (List.mem_tails _ _).mpr hb⟩) h

/-- C97: the packet of the examples satisfies the hypotheses. -/
example : ∃ b, exPacket.toBytesCompressed ⟨true, true, true⟩ exHash = .ok b ∧
    (b.length ≤ 16384 → SentMessage BackwardName ⟨true, true, true⟩ b exPacket) :=
  C97_compressed_partial _ _ _ exPacket_ok ⟨rfl, rfl, rfl, rfl⟩ exPacket_noCollision
    (fun r hr => (exPacket_well r hr).1)

example : ∀ b, exPacket.toBytesCompressed ⟨true, true, true⟩ exHash = .ok b → b.length ≤ 16384 := by
  have : (match exPacket.toBytesCompressed ⟨true, true, true⟩ exHash with
    | .ok b => decide (b.length ≤ 16384) | _ => true) = true := by decide +kernel
  intro b hb
  rw [hb] at this
  simpa using this

/-- C97 is false with compression, too: an NSEC record of a name that only has types beyond the first
window (CAA) is written with an empty block. -/
theorem C97_counterexample_nsec : ∃ (r : ResourceRecord) (b : Bytes),
    r = ⟨[], .NSEC, false, .IN, 5, .NSEC ⟨[], [.CAA]⟩⟩ ∧
    PacketOk ⟨true, true, true⟩ 63 (onePacket r) ∧ CountsOk (onePacket r) ∧
    (onePacket r).toBytesCompressed ⟨true, true, true⟩ exHash = .ok b ∧
    ¬ SentMessage BackwardName ⟨true, true, true⟩ b (onePacket r) := by
  have hd : RecordData.toBytes ⟨true, true, true⟩ (.NSEC ⟨[], [.CAA]⟩) = .ok [0, 0, 1, 0, 1, 1, 0x40] := by
    decide +kernel
  have hok : PacketOk ⟨true, true, true⟩ 63 (onePacket ⟨[], .NSEC, false, .IN, 5, .NSEC ⟨[], [.CAA]⟩⟩) :=
    onePacket_ok ⟨by decide, by simp [Readable], rfl, trivial, by decide, by decide,
      ⟨by decide, by simp [TypesOk, typeNumber, Readable]⟩, fun b hb => by rw [hd] at hb; cases hb; decide⟩
  have hb : (onePacket ⟨[], .NSEC, false, .IN, 5, .NSEC ⟨[], [.CAA]⟩⟩).toBytesCompressed ⟨true, true, true⟩ exHash =
    .ok [0, 1, 0x80, 0, 0, 0, 0, 1, 0, 0, 0, 0, 0, 0, 47, 0, 1, 0, 0, 0, 5, 0, 7, 0, 0, 1, 0, 1, 1, 0x40] := by
    decide +kernel
  have hn : NoCollision exHash (packetNames (onePacket ⟨[], .NSEC, false, .IN, 5, .NSEC ⟨[], [.CAA]⟩⟩)) := by
    rintro a b ⟨n, hn, ha⟩ ⟨m, hm, hb⟩ _
    simp [packetNames, onePacket, records, rdataNames] at hn hm
    subst hn hm
    rw [List.suffix_nil.mp ha, List.suffix_nil.mp hb]
  refine ⟨_, _, rfl, hok, ⟨rfl, rfl, rfl, rfl⟩, hb, fun h => ?_⟩
  obtain ⟨t, ht, hlt⟩ := (C97_compressed_exact _ _ _ hok ⟨rfl, rfl, rfl, rfl⟩ hn _ hb (by decide)).mp h _
    (by simp only [records, onePacket]; exact List.mem_singleton.mpr rfl)
  simp only [List.mem_singleton] at ht
  subst ht
  revert hlt
  decide

end Dns
