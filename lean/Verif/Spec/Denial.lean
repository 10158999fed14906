import Verif.Spec.Canonical

/-
Denial of existence (RFC 4034, section 4; RFC 4035, section 5.4), without regard to the crate.
-/

namespace Dns.Spec

/-- What an NSEC record says (RFC 4034, section 4.1): the owner has these types, and the next name of the zone is `next`. -/
structure Denial where
  owner : Fqdn
  next : Fqdn
  types : List RecordType

/-- The records for names in their order; the last one leads back to `apex`. -/
def denialsFrom (apex : Fqdn) : List (Fqdn × List RecordType) → List Denial
  | [] => []
  | [x] => [⟨x.1, apex, x.2⟩]
  | x :: y :: rest => ⟨x.1, y.1, x.2⟩ :: denialsFrom apex (y :: rest)

/-- RFC 4034, section 4.1.1: the NSEC records of a zone whose names, with their types, are `zone` and then `rest`, in
order; the name of the zone is the first. -/
def denials (apex : Fqdn × List RecordType) (rest : List (Fqdn × List RecordType)) : List Denial :=
  denialsFrom apex.1 (apex :: rest)

/-- RFC 4035, section 5.4: the record denies that the name exists, with names compared by `lt`: the name is behind the
owner and before the next name, or the owner is the last name of the zone. -/
def Denial.Denies (lt : Fqdn → Fqdn → Prop) (apex : Fqdn) (x : Denial) (q : Fqdn) : Prop :=
  lt x.owner q ∧ (lt q x.next ∨ x.next = apex)

end Dns.Spec
