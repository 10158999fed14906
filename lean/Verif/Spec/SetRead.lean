import Verif.Model.Packet
import Verif.Model.RRSet
import Verif.Spec.Message

/-
Records that stand one behind the other in a buffer.
-/

namespace Dns.Spec

/-- `ResourceRecord::try_from(&mut buffer)` is called again and again, first with the position `i`: it returns the
records, and the buffer is then at the position `j`. -/
def ReadOneByOne (cfg : Cfg) (d : Bytes) : Nat → List ResourceRecord → Nat → Prop :=
  ListAt (fun i r j => ResourceRecord.parse cfg d i = (.ok r, j))

/-- A record of a set. -/
def setRecord (s : RRSet) (r : RecordData) : ResourceRecord := ⟨s.name, s.type, false, s.class_, s.ttl, r⟩

end Dns.Spec
