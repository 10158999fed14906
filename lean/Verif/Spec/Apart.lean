import Verif.Spec.Writable

namespace Dns.Spec

/-- No SVCB record with parameters is followed directly by a record of the root: the length that is
written for such a record is too large, and what follows is taken for further parameters, the keys of
which begin with the octet 0 or 255, whereas a name begins with the octet 0 only if it is the root. -/
def Apart (rs : List ResourceRecord) : Prop :=
  ∀ a r r' c, rs = a ++ r :: r' :: c → (∀ s, r.rdata = .SVCB s → s.params = []) ∨ r'.name ≠ []

end Dns.Spec
