import Verif.Props.Write
import Verif.Props.Chain

/-! C66: every packet that was read can be written. -/

namespace Dns
open Spec Buf

theorem record_read_written {cfg : Cfg} {d : Bytes} {p : Packet} (h : Packet.parse cfg d = .ok p)
    {r : ResourceRecord} (hm : r ∈ records p) : SetsOk r.rdata ∧ ¬ LongSvcb r.rdata := by
  have hw := (record_parsed h hm).2.2
  by_cases hf : TextFits r.rdata
  · have hw := hw hf
    refine ⟨hw.sets, ?_⟩
    intro hl
    cases hr : r.rdata <;> rw [hr] at hl hw <;> try exact hl
    obtain ⟨q, hq, hq'⟩ := hl
    have := (hw.2.2 q hq).2
    unfold LongParam at hq'
    rw [Param.valueBytes_eq] at hq'
    omega
  · cases hr : r.rdata <;> rw [hr] at hf <;>
      first | exact ⟨trivial, id⟩ | exact absurd trivial hf

/-- C66: every packet that was read from received octets is written by both writers, in every build:
re-writing what was received never fails. -/
theorem C66_received (cfg : Cfg) (h : Hash) (d : Bytes) (p : Packet) (hp : Packet.parse cfg d = .ok p) :
    (∃ b, p.toBytes cfg = .ok b) ∧ ∃ b, p.toBytesCompressed cfg h = .ok b :=
  C66_written_partial cfg h p (fun _ hr => (record_read_written hp hr).1)
    (fun _ hr => (record_read_written hp hr).2)

/-- C66: octets with a SVCB record, as another server writes them, that are read and written again (longer, see C36). -/
example : (do
      let p ← Packet.parse ⟨true, true, true⟩ [0, 1, 132, 0, 0, 0, 0, 1, 0, 0, 0, 0, 0, 0, 64, 0, 1, 0, 0, 0, 0,
        0, 9, 0, 1, 0, 0, 5, 0, 2, 7, 8]
      let b ← p.toBytes ⟨true, true, true⟩
      pure ((records p).map ResourceRecord.rdata, b)) =
    .ok ([RecordData.SVCB ⟨1, [], [.ech [7, 8]]⟩], [0, 1, 132, 0, 0, 0, 0, 1, 0, 0, 0, 0, 0, 0, 64, 0, 1, 0, 0, 0, 0,
        0, 13, 0, 1, 0, 0, 5, 0, 2, 7, 8]) := by
  decide +kernel

end Dns
