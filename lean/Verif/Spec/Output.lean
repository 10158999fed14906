import Verif.Spec.Writable
import Verif.Model.Output

/-! What appears on the standard output (C102). -/

namespace Dns.Spec

/-- `cs` is the number `n` in decimal, without leading zeros. -/
def Decimal (cs : List Char) (n : Nat) : Prop :=
  cs ≠ [] ∧ (∀ c ∈ cs, '0' ≤ c ∧ c ≤ '9') ∧ (cs.head? = some '0' → cs = ['0']) ∧
    cs.foldl (fun v c => v * 10 + (c.toNat - 48)) 0 = n

/-- The line for a TSIG record: `Test: [8, 72, 77, ...]`, the octets of the name of the algorithm. -/
def LineOf (r : Tsig) (l : Line) : Prop :=
  ∃ texts, List.Forall₂ (fun t (b : UInt8) => Decimal t b.toNat) texts (nameOctets r.algorithm) ∧
    l = "Test: [".toList ++ List.intercalate ", ".toList texts ++ "]".toList

/-- The TSIG data among `ds`, in order. -/
def tsigs (ds : List RecordData) : List Tsig :=
  ds.filterMap (fun d => match d with | .TSIG r => some r | _ => none)

/-- The standard output accepts `lines` one after the other. -/
def Takes (o : Stdout) (lines : List Line) : Prop :=
  ∀ k l, lines[k]? = some l → o (lines.take k) l = true

/-- The first line that the standard output refuses is line `k`. -/
def RefusesAt (o : Stdout) (lines : List Line) (k : Nat) : Prop :=
  Takes o (lines.take k) ∧ ∃ l, lines[k]? = some l ∧ o (lines.take k) l = false

end Dns.Spec
