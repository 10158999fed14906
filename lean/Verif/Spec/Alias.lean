import Verif.Spec.Canonical
import Verif.Spec.Writable
import Verif.Model.Accessors

/-
Aliases (RFC 1034, sections 3.6.2 and 5.2.2).  A client asks for the records of a name; the answer has CNAME records that
say the name is another name for a second one, and so on, and the records of the last name.
-/

namespace Dns.Spec

/-- The program of a client, written with the API (`name()`, `data()`, `==` of names): the name for which `n` is an alias. -/
def aliasOf (rs : List ResourceRecord) (n : Fqdn) : Option Fqdn :=
  rs.findSome? fun r => match r.rdata with
    | .CNAME c => if r.name = n then some c.cname else none
    | _ => none

/-- It goes on with that name, at most as many times as there are records. -/
def follow (rs : List ResourceRecord) : Nat → Fqdn → Fqdn
  | 0, n => n
  | k + 1, n => match aliasOf rs n with
    | some m => follow rs k m
    | none => n

/-- What it finds in the answer to the question for records of type `t` of the name `n`. -/
def lookUp (cfg : Cfg) (t : RecordType) (n : Fqdn) (d : Bytes) : Res (List ResourceRecord) := do
  let p ← Packet.parse cfg d
  return p.answers.filter fun r => decide (r.name = follow p.answers p.answers.length n) && decide (r.type = t)

instance (n m : Fqdn) : Decidable (SameName n m) := by unfold SameName; infer_instance

/-- What the answer says: `n` is `m` in another spelling, or an alias of a name that leads to `m`. -/
inductive Leads (rs : List ResourceRecord) : Fqdn → Fqdn → Prop
  | same {n m : Fqdn} : SameName n m → Leads rs n m
  | next {n m : Fqdn} {r : ResourceRecord} {c : Cname} :
      r ∈ rs → SameName r.name n → r.rdata = .CNAME c → Leads rs c.cname m → Leads rs n m

/-- The records of type `t` the answer gives for the name `n`. -/
def Answers (rs : List ResourceRecord) (t : RecordType) (n : Fqdn) (r : ResourceRecord) : Prop :=
  r ∈ rs ∧ r.type = t ∧ Leads rs n r.name

/-- RFC 1034, section 3.6.2: a name that is an alias has no other data (of the type `t`) and is the alias of one name only;
no name leads to itself. -/
def ProperAliases (rs : List ResourceRecord) (t : RecordType) : Prop :=
  ∀ r ∈ rs, ∀ c, r.rdata = .CNAME c →
    (∀ r' ∈ rs, SameName r.name r'.name →
      r'.type ≠ t ∧ ∀ c', r'.rdata = .CNAME c' → SameName c.cname c'.cname) ∧
    ¬ Leads rs c.cname r.name

/-- The names in the question and in the records. -/
def aliasNames (rs : List ResourceRecord) (n : Fqdn) : List Fqdn :=
  n :: rs.flatMap fun r => r.name :: rdataNames r.rdata

/-- Every name is spelled in one way. -/
def OneSpelling (rs : List ResourceRecord) (n : Fqdn) : Prop :=
  ∀ a ∈ aliasNames rs n, ∀ b ∈ aliasNames rs n, SameName a b → a = b

end Dns.Spec
