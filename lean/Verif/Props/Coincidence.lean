import Verif.Lemmas.Swallow
import Verif.Props.Dnssec
import Verif.Props.Exactly

/-! C27, C56, C88: packets with SVCB records that have parameters. -/

namespace Dns
open Spec Buf

/-- The target of a URI record that begins as it goes on: 43 times the same 12 octets. -/
def exTarget : Bytes := ([0, 0, 2, 27, 7, 0, 2, 11, 9, 0, 1, 0] : Bytes) ++
  (List.replicate 42 ([0, 0, 2, 27, 7, 0, 2, 11, 9, 0, 1, 0] : Bytes)).flatten ++ [0, 0, 2]

/-- An SVCB record with three parameters, a URI record whose first octets look like three further
parameters of the same keys, and a record with a label that looks like the record itself. -/
def exCoincidence : Packet := ⟨⟨1, ⟨0x80, 0⟩, 0, 3, 0, 0⟩, [], [
    ⟨[], .SVCB, false, .IN, 5, .SVCB ⟨1, [], [.alpn [[104, 50]], .noDefaultAlpn, .port 443]⟩⟩,
    ⟨[], .URI, false, .udpPayloadSize 0, 0x021b0700, .URI ⟨0x0900, 0x0100, exTarget⟩⟩,
    ⟨[[7, 0, 2, 11, 9, 0, 1, 0, 0, 0, 2, 194, 65, 0, 1, 0, 1, 0, 0, 0, 5, 0, 4, 1, 2, 3, 4]], .A, false, .IN, 5,
      .A ⟨0x01020304⟩⟩], [], []⟩

theorem exCoincidence_ok : PacketOk ⟨true, true, true⟩ 63 exCoincidence := by
  refine ⟨by simp [exCoincidence], ?_, by decide, by decide, by decide, by decide⟩
  simp only [records, exCoincidence, List.append_nil, List.forall_mem_cons]
  refine ⟨⟨by decide, by simp [Readable], rfl, trivial, by decide, by decide,
      ⟨by decide, by simp [paramKeyNumber, Param.key],
        by simp [ParamFits, paramOk, paramValue, Items.octets, Item.octets, octets16]⟩, fun b hb => ?_⟩,
    ⟨by decide, by simp [Readable], rfl, by simp [classOk], by decide, by decide, trivial, fun b hb => ?_⟩,
    ⟨by decide, by simp [Readable], rfl, trivial, by decide, by decide, trivial, fun b hb => ?_⟩, by simp⟩
  · have : RecordData.toBytes ⟨true, true, true⟩ (.SVCB ⟨1, [], [.alpn [[104, 50]], .noDefaultAlpn, .port 443]⟩) =
      .ok [0, 1, 0, 0, 1, 0, 3, 2, 104, 50, 0, 2, 0, 0, 0, 3, 0, 2, 1, 187] := by decide +kernel
    rw [this] at hb; cases hb; decide
  · cases hb; decide +kernel
  · cases hb; decide

/-- C27, C56: a packet with an SVCB record that has parameters can be read back by coincidence, and not only
because of what follows it: the record takes in the beginning of the next record, and the others are read
from the inside of what was written.  (This is why the exact theorems say something about the records
behind SVCB records.) -/
theorem C27_coincidence : ∃ (p : Packet) (b : Bytes), PacketOk ⟨true, true, true⟩ 63 p ∧ CountsOk p ∧
    (∃ r ∈ records p, ∃ s, r.rdata = .SVCB s ∧ s.params ≠ []) ∧
    p.toBytes ⟨true, true, true⟩ = .ok b ∧ Packet.parse ⟨true, true, true⟩ b = .ok p := by
  refine ⟨exCoincidence, _, exCoincidence_ok, ⟨rfl, rfl, rfl, rfl⟩, ⟨_, List.mem_cons_self, _, rfl, by simp⟩, rfl, ?_⟩
  decide +kernel

/-- C27, exactly for packets in which no SVCB record with parameters is followed directly by a record of
the root: such a packet, when it can be represented on the wire, is read back (with right counts) from what
is written if and only if it has no SSHFP, OPT, RRSIG and CAA records and no SVCB records with parameters. -/
theorem C27_apart_exact (cfg : Cfg) (p : Packet) (hp : PacketOk cfg 191 p) (hv : Apart (records p))
    (b : Bytes) (hb : p.toBytes cfg = .ok b) :
    Packet.parse cfg b = .ok (withCounts p) ↔
      ∀ r ∈ records p, r.rdata.type ∉ [RecordType.SSHFP, .OPT, .RRSIG, .CAA] ∧
        ∀ s, r.rdata = .SVCB s → s.params = [] := by
  have hw : ∀ r ∈ records p, Writable cfg 191 r.rdata := fun r hr => (hp.2.1 r hr).2.2.2.2.2.2.1
  constructor
  · intro hj r hr
    exact (faithful_iff (hw r hr)).mp (Packet.not_read_back_apart hp hv hb hj r hr)
  · intro h1
    have := (C27_packet_exact cfg p hp (fun r hr => (h1 r hr).2) b [] hb).mpr (fun r hr => (h1 r hr).1)
    rwa [List.append_nil] at this

/-- C56, exactly for such packets: a packet that was read, and whose records do not become too long, is read
again from what is written if and only if it has no SSHFP, OPT, RRSIG and CAA records and no SVCB records
with parameters. -/
theorem C56_apart_exact (cfg : Cfg) (d : Bytes) (p : Packet) (h : Packet.parse cfg d = .ok p)
    (hf : ∀ r ∈ records p, Rewritable cfg r) (hv : Apart (records p)) :
    (∃ b, p.toBytes cfg = .ok b ∧ Packet.parse cfg b = .ok p) ↔
      ∀ r ∈ records p, r.rdata.type ∉ [RecordType.SSHFP, .OPT, .RRSIG, .CAA] ∧
        ∀ s, r.rdata = .SVCB s → s.params = [] := by
  obtain ⟨hp, hc⟩ := Packet.parsed h hf
  have hw := C27_counts p hc
  constructor
  · rintro ⟨b, hb, h1⟩
    have := C27_apart_exact cfg p hp hv b hb
    rw [hw] at this
    exact this.mp h1
  · intro h1
    exact (C56_stable_exact cfg d p h hf (fun r hr => (h1 r hr).2)).mpr (fun r hr => (h1 r hr).1)

/-- C88, exactly for such packets without SSHFP records: the two encodings are read as the same packet if
and only if there are no OPT, RRSIG and CAA records and no SVCB records with parameters. -/
theorem C88_apart_exact (cfg : Cfg) (h : Hash) (p : Packet) (hp : PacketOk cfg 191 p) (hc : CountsOk p)
    (hs : ∀ r ∈ records p, r.rdata.type ≠ .SSHFP) (hv : Apart (records p)) (hh : NoCollision h (packetNames p))
    (plain compressed : Bytes) (h1 : p.toBytes cfg = .ok plain) (h2 : p.toBytesCompressed cfg h = .ok compressed)
    (hl : compressed.length ≤ 16384) :
    Packet.parse cfg compressed = Packet.parse cfg plain ↔
      ∀ r ∈ records p, r.rdata.type ∉ [RecordType.OPT, .RRSIG, .CAA] ∧ ∀ s, r.rdata = .SVCB s → s.params = [] := by
  have h3 := (C28_packet_exact cfg h p hp hc hh compressed [] h2 hl).mpr hs
  rw [List.append_nil] at h3
  have h4 := C27_apart_exact cfg p hp hv plain h1
  rw [C27_counts p hc] at h4
  rw [h3]
  constructor
  · intro h5 r hr
    obtain ⟨h6, h7⟩ := h4.mp h5.symm r hr
    exact ⟨fun h8 => h6 (List.mem_cons_of_mem _ h8), h7⟩
  · intro h5
    refine (h4.mpr fun r hr => ⟨?_, (h5 r hr).2⟩).symm
    rw [List.mem_cons, not_or]
    exact ⟨hs r hr, (h5 r hr).1⟩

/-- C27, C56, C88: a packet with an SVCB record that has parameters, followed by a record that does not belong
to the root. -/
def exApart : Packet := ⟨⟨1, ⟨0x80, 0⟩, 0, 2, 0, 0⟩, [], [
    ⟨[[97]], .SVCB, false, .IN, 5, .SVCB ⟨1, [[98]], [.port 443]⟩⟩,
    ⟨[[97]], .A, false, .IN, 5, .A ⟨0x01020304⟩⟩], [], []⟩

theorem exApart_apart : Apart (records exApart) := by
  intro a r r' c h
  simp only [records, exApart, List.append_nil] at h
  match a, h with
  | [], h => cases h; right; decide
  | [_], h => cases h
  | _ :: _ :: _, h => simp at h

example : PacketOk ⟨true, true, true⟩ 191 exApart ∧ CountsOk exApart ∧ Apart (records exApart) ∧
    (∀ r ∈ records exApart, r.rdata.type ≠ .SSHFP) ∧
    (∃ b, exApart.toBytes ⟨true, true, true⟩ = .ok b ∧ Packet.parse ⟨true, true, true⟩ b ≠ .ok exApart) ∧
    ∃ b, exApart.toBytesCompressed ⟨true, true, true⟩ exHash = .ok b ∧ b.length ≤ 16384 ∧
      Packet.parse ⟨true, true, true⟩ b = .ok exApart := by
  refine ⟨⟨by simp [exApart], ?_, by decide, by decide, by decide, by decide⟩, ⟨rfl, rfl, rfl, rfl⟩, exApart_apart,
    by decide, ⟨_, rfl, by decide +kernel⟩, Res.exists_ok (by decide +kernel)⟩
  simp only [records, exApart, List.append_nil, List.forall_mem_cons]
  refine ⟨⟨by decide, by simp [Readable], rfl, trivial, by decide, by decide,
      ⟨by decide, by simp, by simp [ParamFits, paramOk, paramValue, Items.octets, Item.octets, octets16]⟩,
      fun b hb => ?_⟩,
    ⟨by decide, by simp [Readable], rfl, trivial, by decide, by decide, trivial, fun b hb => ?_⟩, by simp⟩
  · have : RecordData.toBytes ⟨true, true, true⟩ (.SVCB ⟨1, [[98]], [.port 443]⟩) =
      .ok [0, 1, 1, 98, 0, 0, 3, 0, 2, 1, 187] := by decide +kernel
    rw [this] at hb; cases hb; decide
  · cases hb; decide

end Dns
