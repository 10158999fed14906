import Verif.Spec.Size

/-
Specification of the ways to compress names (RFC 1035, section 4.1.4): how many octets they need.
-/

namespace Dns.Spec

/-- After the names `seen`, the name `n` can be encoded in `k` octets: its labels and the zero octet, or its first
labels and a pointer (two octets) to a prior occurrence of the others, at the end of one of the names `seen`. -/
def EncodedIn (seen : List Fqdn) (n : Fqdn) (k : Nat) : Prop :=
  k = nameSize n + 1 ∨
    ∃ front rest, n = front ++ rest ∧ rest ≠ [] ∧ (∃ m ∈ seen, rest <:+ m) ∧ k = nameSize front + 2

/-- After the names `seen`, the names of the first list can be encoded, one after the other, in the numbers of octets of
the second list. -/
def Encodings (seen : List Fqdn) : List Fqdn → List Nat → Prop
  | [], ks => ks = []
  | n :: ns, ks => ∃ k ks', ks = k :: ks' ∧ EncodedIn seen n k ∧ Encodings (seen ++ [n]) ns ks'

/-- Octets of the names if each is written out: its labels and the zero octet. -/
def plainSize (ns : List Fqdn) : Nat := (ns.map (fun n => nameSize n + 1)).sum

end Dns.Spec
