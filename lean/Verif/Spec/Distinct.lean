import Verif.Spec.Writable

/-
Data whose end `to_bytes()` marks.
-/

namespace Dns.Spec

/-- Data whose end can be found from the RDLENGTH that `to_bytes()` writes although it is not always their
length: for OPT there must be no options without data, and for SVCB the number must fit its field. -/
def Framed (cfg : Cfg) : RecordData → Prop
  | .OPT r => ∀ o ∈ r.options, o.2 ≠ []
  | .SVCB r => ∀ n, (RecordData.SVCB r).byteSize cfg = .ok n → n < 65536
  | _ => True

end Dns.Spec
