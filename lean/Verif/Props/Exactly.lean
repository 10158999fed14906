import Verif.Lemmas.Fails
import Verif.Props.Write
import Verif.Props.Stable

/-! C27, C28, C56: exactly which records and packets are read back from what is written. -/

namespace Dns
open Spec Buf

theorem faithful_iff {cfg : Cfg} {max : Nat} {r : RecordData} (h : Writable cfg max r) :
    (r.type ≠ .SSHFP ∧ sizeError r = 0) ↔
      (r.type ∉ [RecordType.SSHFP, .OPT, .RRSIG, .CAA] ∧ ∀ s, r = .SVCB s → s.params = []) := by
  cases r
  case SVCB s =>
    simp only [RecordData.type, sizeError, RecordData.SVCB.injEq, forall_eq']
    rw [← List.length_eq_zero_iff]
    simp
  case CAA s =>
    have : s.tag.length ≠ 0 := fun h0 => h.1 (List.length_eq_zero_iff.mp h0)
    simp only [RecordData.type, sizeError]
    simp
    exact h.1
  case OPT s =>
    simp only [RecordData.type, sizeError]
    constructor
    · rintro ⟨_, h⟩; omega
    · simp
  all_goals simp [RecordData.type, sizeError]

/-- C27, exactly for records: a record that can be represented on the wire is read back from what is
written, wherever it is in the message and whatever follows, as the same record and up to its end, if
and only if it is no SSHFP, OPT, RRSIG or CAA record and no SVCB record with parameters. -/
theorem C27_record_exact (cfg : Cfg) (r : ResourceRecord) (h : RecordOk cfg 191 r) (b pre post : Bytes)
    (hb : r.toBytes cfg = .ok b) :
    ResourceRecord.parse cfg (pre ++ b ++ post) pre.length = (.ok r, pre.length + b.length) ↔
      (r.rdata.type ∉ [RecordType.SSHFP, .OPT, .RRSIG, .CAA] ∧ ∀ s, r.rdata = .SVCB s → s.params = []) := by
  rw [← faithful_iff h.2.2.2.2.2.2.1]
  constructor
  · intro hj
    have h1 := record_fails (Nat.le_refl 191) h hb hj
    exact ⟨h1.1, h1.2 (.inr rfl)⟩
  · rintro ⟨h1, h2⟩
    obtain ⟨b', h3, h4⟩ := ResourceRecord.read_back (Nat.le_refl 191) h (fun x hx => h1 (by rw [hx]; rfl)) h2
      h.2.2.2.2.2.2.1.sets pre
    rw [hb] at h3
    cases h3
    rw [← List.length_append]
    exact ResourceRecord.parse_ok.mpr (recordAt_extend decodes_extends h4 post)

/-- C27: the record of the example, and an SVCB record that is read up to a wrong place. -/
example : RecordOk ⟨true, true, true⟩ 191 exRecord ∧
    exRecord.toBytes ⟨true, true, true⟩ = .ok [1, 97, 1, 98, 0, 0, 1, 0, 1, 0, 0, 1, 44, 0, 4, 1, 2, 3, 4] :=
  ⟨⟨by decide, by decide, rfl, trivial, by decide, fun _ => rfl, trivial, fun b hb => by cases hb; decide⟩,
    by decide +kernel⟩
example : (ResourceRecord.mk [[97]] .SVCB false .IN 5 (.SVCB ⟨1, [[98]], [.port 443]⟩)).toBytes ⟨true, true, true⟩ =
      .ok [1, 97, 0, 0, 64, 0, 1, 0, 0, 0, 5, 0, 15, 0, 1, 1, 98, 0, 0, 3, 0, 2, 1, 187] ∧
    ResourceRecord.parse ⟨true, true, true⟩
      ([1, 97, 0, 0, 64, 0, 1, 0, 0, 0, 5, 0, 15, 0, 1, 1, 98, 0, 0, 3, 0, 2, 1, 187] ++ [0, 3, 0, 0]) 0 ≠
      (.ok ⟨[[97]], .SVCB, false, .IN, 5, .SVCB ⟨1, [[98]], [.port 443]⟩⟩, 24) := by
  constructor <;> decide +kernel

/-- C27, exactly for packets without SVCB records that have parameters: such a packet, when it can be
represented on the wire, is read back (with right counts) from what is written, whatever follows, if and
only if it has no SSHFP, OPT, RRSIG and CAA records. -/
theorem C27_packet_exact (cfg : Cfg) (p : Packet) (hp : PacketOk cfg 191 p)
    (hv : ∀ r ∈ records p, ∀ s, r.rdata = .SVCB s → s.params = []) (b rest : Bytes) (hb : p.toBytes cfg = .ok b) :
    Packet.parse cfg (b ++ rest) = .ok (withCounts p) ↔
      ∀ r ∈ records p, r.rdata.type ∉ [RecordType.SSHFP, .OPT, .RRSIG, .CAA] := by
  have hw : ∀ r ∈ records p, Writable cfg 191 r.rdata := fun r hr => (hp.2.1 r hr).2.2.2.2.2.2.1
  constructor
  · intro hj
    have h1 := Packet.not_read_back (Nat.le_refl 191) hp (fun r hr ht => by
      cases hx : r.rdata <;> rw [hx] at ht <;> first | (simp [RecordData.type] at ht; done) | skip
      rename_i s
      simp [sizeError, hv r hr s hx]) hb hj
    intro r hr
    exact ((faithful_iff (hw r hr)).mp (h1 r hr)).1
  · intro h1
    have h2 : ∀ r ∈ records p, r.rdata.type ≠ .SSHFP ∧ sizeError r.rdata = 0 := fun r hr =>
      (faithful_iff (hw r hr)).mpr ⟨h1 r hr, hv r hr⟩
    obtain ⟨b', h3, h4⟩ := Packet.read_back (Nat.le_refl 191) hp
      (fun r hr => ⟨fun x hx => (h2 r hr).1 (by rw [hx]; rfl), (h2 r hr).2, (hw r hr).sets⟩)
    rw [hb] at h3
    cases h3
    unfold Packet.parse
    rw [h4]

/-- C27: the packet of the example satisfies the hypotheses. -/
example : PacketOk ⟨true, true, true⟩ 191 exPacket ∧ (∀ r ∈ records exPacket, ∀ s, r.rdata = .SVCB s → s.params = []) ∧
    ∃ b, exPacket.toBytes ⟨true, true, true⟩ = .ok b :=
  ⟨exPacket_ok.mono (by decide), by simp [records, exPacket, exRecord], _, rfl⟩

/-- C28, exactly: a packet that can be represented on the wire, with right header counts, is read back
from its compressed form of at most 16384 octets, whatever follows, if and only if it has no SSHFP
records; for every hash function without collisions on the suffixes of the names of the packet. -/
theorem C28_packet_exact (cfg : Cfg) (h : Hash) (p : Packet) (hp : PacketOk cfg 191 p) (hc : CountsOk p)
    (hh : NoCollision h (packetNames p)) (b rest : Bytes) (hb : p.toBytesCompressed cfg h = .ok b)
    (hl : b.length ≤ 16384) :
    Packet.parse cfg (b ++ rest) = .ok p ↔ ∀ r ∈ records p, r.rdata.type ≠ .SSHFP := by
  constructor
  · intro hj
    exact Packet.not_read_back_compressed (Nat.le_refl 191) (suffixOf_tailClosed (packetNames p)) hh hp
      (fun n hn => ⟨n, hn, List.suffix_refl _⟩) hb hl hj
  · intro hs
    obtain ⟨b', h1, h2⟩ := C28_compressed_round_trip_partial cfg h p hp hc hs hh
    rw [hb] at h1
    cases h1
    exact (h2 hl rest).1

/-- C28: the packet of the example (see above for the hash function). -/
example : PacketOk ⟨true, true, true⟩ 191 exPacket ∧ CountsOk exPacket ∧
    ∃ b, exPacket.toBytesCompressed ⟨true, true, true⟩ exHash = .ok b ∧ b.length ≤ 16384 :=
  ⟨exPacket_ok.mono (by decide), ⟨rfl, rfl, rfl, rfl⟩, _, rfl, by decide +kernel⟩

/-- C56, exactly: a packet that was read (without SVCB parameters) and whose records do not become too
long is read again from what is written if and only if it has no SSHFP, OPT, RRSIG and CAA records. -/
theorem C56_stable_exact (cfg : Cfg) (d : Bytes) (p : Packet) (h : Packet.parse cfg d = .ok p)
    (hf : ∀ r ∈ records p, Rewritable cfg r)
    (hv : ∀ r ∈ records p, ∀ s, r.rdata = .SVCB s → s.params = []) :
    (∃ b, p.toBytes cfg = .ok b ∧ Packet.parse cfg b = .ok p) ↔
      ∀ r ∈ records p, r.rdata.type ∉ [RecordType.SSHFP, .OPT, .RRSIG, .CAA] := by
  obtain ⟨hp, hc⟩ := Packet.parsed h hf
  have hw := C27_counts p hc
  constructor
  · rintro ⟨b, hb, h1⟩
    have := C27_packet_exact cfg p hp hv b [] hb
    rw [List.append_nil, hw] at this
    exact this.mp h1
  · intro h1
    refine C56_stable_partial cfg d p h hf fun r hr => ?_
    exact (faithful_iff (hp.2.1 r hr).2.2.2.2.2.2.1).mpr ⟨h1 r hr, hv r hr⟩

/-- C56, exactly for `to_bytes_compressed()`: the packet is read again if and only if it has no SSHFP
records. -/
theorem C56_stable_compressed_exact (cfg : Cfg) (hash : Hash) (d : Bytes) (p : Packet)
    (h : Packet.parse cfg d = .ok p) (hf : ∀ r ∈ records p, Rewritable cfg r)
    (hh : NoCollision hash (packetNames p)) (b : Bytes) (hb : p.toBytesCompressed cfg hash = .ok b)
    (hl : b.length ≤ 16384) : Packet.parse cfg b = .ok p ↔ ∀ r ∈ records p, r.rdata.type ≠ .SSHFP := by
  obtain ⟨hp, hc⟩ := Packet.parsed h hf
  have := C28_packet_exact cfg hash p hp hc hh b [] hb hl
  rwa [List.append_nil] at this

/-- C56: the response of the example, which has no SVCB record. -/
example : Packet.parse ⟨true, true, true⟩ exMx = .ok exMxPacket ∧
    (∀ r ∈ records exMxPacket, ∀ s, r.rdata = .SVCB s → s.params = []) ∧
    ∃ b, exMxPacket.toBytesCompressed ⟨true, true, true⟩ exHash = .ok b ∧ b.length ≤ 16384 :=
  ⟨by decide +kernel, by simp [records, exMxPacket], _, rfl, by decide +kernel⟩

end Dns
