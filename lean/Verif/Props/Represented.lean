import Verif.Lemmas.Needed
import Verif.Lemmas.NameLength
import Verif.Props.Coincidence

/-! C27, C28: exactly which records and packets, of all there are, are read back from what is written. -/

namespace Dns
open Spec Buf

/-- C27, exactly for all records: a record that is written with less than 65536 octets is read back,
wherever it is in the message and whatever follows, as the same record and up to its end, if and only
if it can be represented on the wire and is no SSHFP, OPT, RRSIG or CAA record and no SVCB record with
parameters.  Values that do not fit their fields are never read back by accident. -/
theorem C27_any_record_exact (cfg : Cfg) (r : ResourceRecord) (b pre post : Bytes)
    (hb : r.toBytes cfg = .ok b) (hl : b.length < 65536) :
    ResourceRecord.parse cfg (pre ++ b ++ post) pre.length = (.ok r, pre.length + b.length) ↔
      (RecordOk cfg 191 r ∧ r.rdata.type ∉ [RecordType.SSHFP, .OPT, .RRSIG, .CAA] ∧
        ∀ s, r.rdata = .SVCB s → s.params = []) := by
  constructor
  · intro h
    have hok : RecordOk cfg 191 r := by
      refine record_needs ?_ hb hl h
      obtain ⟨h5, h6, v, len, k, ⟨h7, h8⟩, h9, hj, _, e, h10⟩ := ResourceRecord.parse_ok.mp h
      have hn : NameOk 191 r.name := name_mem h9 (by simp [recordHead])
      refine ⟨hn, fun f1 f2 => ⟨hn, h5, RecordData.parse_type h10, h6, by omega, ?_, 
        RecordData.parsed h10 (by have := len.toNat_lt; simp only [List.length_take]; omega) f1, f2⟩⟩
      intro h11
      rw [h8] at h11
      exact (Bool.and_eq_true_iff.mp h11).1
    exact ⟨hok, (C27_record_exact cfg r hok b pre post hb).mp h⟩
  · rintro ⟨hok, h⟩
    exact (C27_record_exact cfg r hok b pre post hb).mpr h

/-- C27: a TXT record with a string of 256 octets is written, as an empty string and whatever the octets
then mean; it is not read back. -/
example : (ResourceRecord.mk [] .TXT false .IN 5 (.TXT ⟨[List.replicate 256 1]⟩)).toBytes ⟨true, true, true⟩ =
      .ok ([0, 0, 16, 0, 1, 0, 0, 0, 5, 1, 1, 0] ++ List.replicate 256 1) ∧
    ResourceRecord.parse ⟨true, true, true⟩ ([] ++ ([0, 0, 16, 0, 1, 0, 0, 0, 5, 1, 1, 0] ++ List.replicate 256 1) ++ []) 0 =
      (.ok ⟨[], .TXT, false, .IN, 5, .TXT ⟨[] :: List.replicate 128 [1]⟩⟩, 268) ∧
    ¬ RecordOk ⟨true, true, true⟩ 191 ⟨[], .TXT, false, .IN, 5, .TXT ⟨[List.replicate 256 1]⟩⟩ := by
  refine ⟨by decide +kernel, by decide +kernel, ?_⟩
  intro h
  have := (h.2.2.2.2.2.2.1 (List.replicate 256 1) List.mem_cons_self).1
  rw [List.length_replicate] at this
  omega

/-- C27, exactly for all packets: a packet that is written with less than 65536 octets is read back (with
the counts corrected) if and only if it can be represented on the wire and has no SSHFP, OPT, RRSIG or
CAA records and no SVCB records with parameters.  (Excepted are packets with an SVCB record followed by a
record of the root, see `C27_coincidence`.) -/
theorem C27_any_packet_exact (cfg : Cfg) (p : Packet) (hv : Apart (records p)) (b : Bytes)
    (hb : p.toBytes cfg = .ok b) (hl : b.length < 65536) :
    Packet.parse cfg b = .ok (withCounts p) ↔
      (PacketOk cfg 191 p ∧ ∀ r ∈ records p, r.rdata.type ∉ [RecordType.SSHFP, .OPT, .RRSIG, .CAA] ∧
        ∀ s, r.rdata = .SVCB s → s.params = []) := by
  constructor
  · intro h
    have hp := Packet.needs hv hb hl h
    exact ⟨hp, (C27_apart_exact cfg p hp hv b hb).mp h⟩
  · rintro ⟨hp, h⟩
    exact (C27_apart_exact cfg p hp hv b hb).mpr h

/-- C28, exactly for all packets: a packet whose compressed form has at most 16384 octets, on the names of
which the hash function has no collisions, is read back from its compressed form, whatever follows, if and
only if it can be represented on the wire, the counts of its header are the numbers of its elements, and it
has no SSHFP records. -/
theorem C28_any_packet_exact (cfg : Cfg) (h : Hash) (p : Packet) (hh : NoCollision h (packetNames p))
    (b rest : Bytes) (hb : p.toBytesCompressed cfg h = .ok b) (hl : b.length ≤ 16384) :
    Packet.parse cfg (b ++ rest) = .ok p ↔
      (PacketOk cfg 191 p ∧ CountsOk p ∧ ∀ r ∈ records p, r.rdata.type ≠ .SSHFP) := by
  have hn : ∀ n ∈ packetNames p, SuffixOf (packetNames p) n := fun n hn => ⟨n, hn, List.suffix_refl _⟩
  constructor
  · intro hj
    have hd : ∀ r ∈ records p, ∀ d, r.rdata.toBytes cfg = .ok d → d.length < 65536 := fun r hr d hd => by
      have := Packet.data_length_compressed (suffixOf_tailClosed (packetNames p)) hh hn hb r hr d hd
      omega
    obtain ⟨hp, hc⟩ := Packet.needs_compressed (suffixOf_tailClosed (packetNames p)) hh hd hn hb hl hj
    exact ⟨hp, hc, (C28_packet_exact cfg h p hp hc hh b rest hb hl).mp hj⟩
  · rintro ⟨hp, hc, hs⟩
    exact (C28_packet_exact cfg h p hp hc hh b rest hb hl).mpr hs

/-- C27, C28: a reply with a class that is no canonical value (`OtherClass(1)`, which is written as `IN`) is
written, and the reader sees another packet. -/
def exOther : Packet := ⟨⟨1, ⟨0x80, 0⟩, 0, 1, 0, 0⟩, [],
  [⟨[[97]], .A, false, .udpPayloadSize 1, 5, .A ⟨0x01020304⟩⟩], [], []⟩

example : Apart (records exOther) ∧ NoCollision (fun n => UInt64.ofNat n.length) (packetNames exOther) ∧
    exOther.toBytes ⟨true, true, true⟩ =
      .ok [0, 1, 0x80, 0, 0, 0, 0, 1, 0, 0, 0, 0, 1, 97, 0, 0, 1, 0, 1, 0, 0, 0, 5, 0, 4, 1, 2, 3, 4] ∧
    exOther.toBytesCompressed ⟨true, true, true⟩ (fun n => UInt64.ofNat n.length) =
      .ok [0, 1, 0x80, 0, 0, 0, 0, 1, 0, 0, 0, 0, 1, 97, 0, 0, 1, 0, 1, 0, 0, 0, 5, 0, 4, 1, 2, 3, 4] ∧
    ¬ PacketOk ⟨true, true, true⟩ 191 exOther := by
  refine ⟨?_, ?_, by decide +kernel, by decide +kernel, ?_⟩
  · intro a r r' c h
    have := congrArg List.length h
    simp [records, exOther] at this
    omega
  · rintro a b ⟨n, hn, ha⟩ ⟨m, hm, hb⟩ h
    simp [packetNames, exOther, records, rdataNames] at hn hm
    subst hn; subst hm
    rcases List.suffix_cons_iff.mp ha with rfl | ha <;> rcases List.suffix_cons_iff.mp hb with rfl | hb
    · rfl
    · rw [List.suffix_nil.mp hb] at h; simp at h
    · rw [List.suffix_nil.mp ha] at h; simp at h
    · rw [List.suffix_nil.mp hb, List.suffix_nil.mp ha]
  · intro h
    have := (h.2.1 _ List.mem_cons_self).2.2.2.1
    simp [classOk] at this

end Dns
