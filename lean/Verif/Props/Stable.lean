import Verif.Lemmas.Parsed
import Verif.Props.PacketWire
import Verif.Props.Robust

/-
C56: reading, writing and reading again.
-/

namespace Dns
open Spec

/-- C56 (partial): if a message is read, then the packet can be written, and reading what was written
gives the same packet.  What is missing: packets with SSHFP records, and with records whose size the
crate gets wrong (OPT, RRSIG, CAA, SVCB with parameters), for which the claim is false; and records that
become too long (`Rewritable`: texts that are not UTF-8 and grow when they are read, and data that have
65536 or more octets when the names are not compressed). -/
theorem C56_stable_partial (cfg : Cfg) (d : Bytes) (p : Packet) (h : Packet.parse cfg d = .ok p)
    (hf : ∀ r ∈ records p, Rewritable cfg r)
    (hs : ∀ r ∈ records p, r.rdata.type ≠ .SSHFP ∧ sizeError r.rdata = 0) :
    ∃ b, p.toBytes cfg = .ok b ∧ Packet.parse cfg b = .ok p := by
  obtain ⟨hp, hc⟩ := Packet.parsed h hf
  obtain ⟨b, h1, h2⟩ := C27_packet_round_trip_partial cfg p hp hs
  refine ⟨b, h1, ?_⟩
  have := (h2 []).1
  rwa [List.append_nil, C27_counts p hc] at this

/-- C56 (partial): the same with `to_bytes_compressed()`.  Here only SSHFP records are excluded (and
records that become too long); the hashes of the names must not collide, and the result must not be
longer than a compression pointer reaches. -/
theorem C56_stable_compressed_partial (cfg : Cfg) (hash : Hash) (d : Bytes) (p : Packet)
    (h : Packet.parse cfg d = .ok p) (hf : ∀ r ∈ records p, Rewritable cfg r)
    (hs : ∀ r ∈ records p, r.rdata.type ≠ .SSHFP) (hh : NoCollision hash (packetNames p)) :
    ∃ b, p.toBytesCompressed cfg hash = .ok b ∧ (b.length ≤ 16384 → Packet.parse cfg b = .ok p) := by
  obtain ⟨hp, hc⟩ := Packet.parsed h hf
  obtain ⟨b, h1, h2⟩ := C28_compressed_round_trip_partial cfg hash p hp hc hs hh
  refine ⟨b, h1, fun hl => ?_⟩
  have := (h2 hl []).1
  rwa [List.append_nil] at this

/-- A response with a compressed name in the RDATA, for the examples. -/
def exMx : Bytes :=
  [0, 7, 0x81, 0x80, 0, 1, 0, 1, 0, 0, 0, 0, 1, 97, 0, 0, 15, 0, 1,
    0xC0, 12, 0, 15, 0, 1, 0, 0, 0, 9, 0, 6, 0, 10, 1, 98, 0xC0, 12]

/-- The packet in `exMx`. -/
def exMxPacket : Packet :=
  ⟨⟨7, ⟨0x81, 0x80⟩, 1, 1, 0, 0⟩, [⟨[[97]], .rr .MX, .IN, false⟩],
    [⟨[[97]], .MX, false, .IN, 9, .MX ⟨10, [[98], [97]]⟩⟩], [], []⟩

/-- C56: the hypotheses hold for a response with compressed names. -/
example : Packet.parse ⟨true, true, true⟩ exMx = .ok exMxPacket ∧
    (∀ r ∈ records exMxPacket, Rewritable ⟨true, true, true⟩ r) ∧
    (∀ r ∈ records exMxPacket, r.rdata.type ≠ .SSHFP ∧ sizeError r.rdata = 0) ∧
    exMxPacket.toBytes ⟨true, true, true⟩ ≠ .ok exMx := by
  refine ⟨by decide +kernel, ?_, by decide, by decide +kernel⟩
  intro r hr
  obtain rfl : r = ⟨[[97]], .MX, false, .IN, 9, .MX ⟨10, [[98], [97]]⟩⟩ := by simpa [records, exMxPacket] using hr
  refine ⟨trivial, fun b hb => ?_⟩
  cases hb
  decide +kernel

/-- C56 is false for records of the types SSHFP, OPT, RRSIG, CAA and SVCB: each of these messages is
read, and the packet is written to octets that are not read as the same packet. -/
theorem C56_counterexamples (cfg : Cfg) (hd : cfg.dnssec = true) : ∀ d ∈ [
      exOne 44 [1, 1, 1, 2, 3],
      exOne 41 [0, 10, 0, 1, 7],
      exOne 46 [0, 1, 15, 1, 0, 0, 0, 5, 0, 0, 0, 9, 0, 0, 0, 3, 0, 7, 0, 1, 2, 3],
      [0, 1, 0x80, 0, 0, 0, 0, 1, 0, 0, 0, 0, 0, 1, 1, 0, 1, 0, 0, 0, 0, 0, 5, 0, 1, 105, 99, 97],
      exOne 64 [0, 1, 0, 0, 3, 0, 2, 1, 187]],
    ∃ p b, Packet.parse cfg d = .ok p ∧ p.toBytes cfg = .ok b ∧ Packet.parse cfg b ≠ .ok p := by
  have key : ∀ d : Bytes, (match Packet.parse cfg d with
      | .ok p => match p.toBytes cfg with
        | .ok b => decide (Packet.parse cfg b ≠ .ok p)
        | _ => false
      | _ => false) = true → ∃ p b, Packet.parse cfg d = .ok p ∧ p.toBytes cfg = .ok b ∧
        Packet.parse cfg b ≠ .ok p := by
    intro d h
    split at h
    · rename_i p hp
      split at h
      · rename_i b hb
        exact ⟨p, b, hp, hb, of_decide_eq_true h⟩
      · cases h
    · cases h
  intro d hm
  apply key
  obtain ⟨a, b, c⟩ := cfg
  cases hd
  simp only [List.mem_cons, List.not_mem_nil, or_false] at hm
  rcases hm with rfl | rfl | rfl | rfl | rfl <;> cases a <;> cases b <;> decide +kernel
example := C56_counterexamples ⟨true, true, true⟩ rfl

end Dns
