import Verif.Props.Conform
import Verif.Props.Receive

/-! C18 for packets. -/

namespace Dns
open Spec Buf

/-- C18: in the message `to_bytes_compressed()` writes for a packet, every pointer in the names of questions,
of records and in the data leads to a smaller offset, where the remaining labels are encoded: read with names
of which the pointers have this property, the message says the packet.  (For data that the crate writes as the
RFCs demand, see C97.) -/
theorem C18_packet (cfg : Cfg) (h : Hash) (p : Packet) (hp : PacketOk cfg 63 p) (hc : CountsOk p)
    (hh : NoCollision h (packetNames p)) (hs : ∀ r ∈ records p, WrittenWell r.rdata) :
    ∃ b, p.toBytesCompressed cfg h = .ok b ∧
      (b.length ≤ 16384 → MessageAt (NameWith 63 (fun pointer target => target < pointer)) cfg b p b.length) := by
  obtain ⟨b, h1, h2⟩ := C97_compressed_partial cfg h p hp hc hh hs
  refine ⟨b, h1, fun hl => ?_⟩
  obtain ⟨c1, c2, c3, c4, i1, i2, i3, i4, h0, l1, l2, l3, l4⟩ := h2 hl
  have key : ∀ i x j, Writable cfg 63 x.rdata → RecordAtWith (RDataWritten BackwardName cfg) BackwardName cfg b i x j →
      RecordAtWith (RDataAt BackwardName cfg) BackwardName cfg b i x j := by
    rintro i x j hx ⟨a1, a2, v, len, k, a3, a4, a5, a6, a7, its, a8, a9⟩
    exact ⟨a1, a2, v, len, k, a3, a4, a5, a6, a7, its, _, strict_means hx a8, a9⟩
  have hv : ∀ r ∈ records p, Writable cfg 63 r.rdata := fun r hr => (hp.2.1 r hr).2.2.2.2.2.2.1
  exact ⟨c1, c2, c3, c4, i1, i2, i3, i4, h0, l1,
    listAt_mono_mem key _ _ _ (fun x hx => hv x (by simp [records, hx])) l2,
    listAt_mono_mem key _ _ _ (fun x hx => hv x (by simp [records, hx])) l3,
    listAt_mono_mem key _ _ _ (fun x hx => hv x (by simp [records, hx])) l4⟩

/-- C18: the hypotheses hold for the packet of the examples. -/
example : PacketOk ⟨true, true, true⟩ 63 exPacket ∧ CountsOk exPacket ∧
    (∀ r ∈ records exPacket, WrittenWell r.rdata) ∧ NoCollision exHash (packetNames exPacket) :=
  ⟨exPacket_ok, ⟨rfl, rfl, rfl, rfl⟩, fun r hr => (exPacket_well r hr).1, exPacket_noCollision⟩

end Dns
