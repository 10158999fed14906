import Verif.Spec.Wire
import Verif.Spec.Canonical

/-
The attributes of a service (RFC 6763, section 6): each string of a TXT record is an attribute, "key" or "key=value", where the
value may be any octets.
-/

namespace Dns.Spec

/-- A key, and a value if it has one. -/
abbrev Attribute := Bytes × Option Bytes

/-- The string of the attribute. -/
def Attribute.text (a : Attribute) : Bytes :=
  a.1 ++ match a.2 with
    | none => []
    | some v => 0x3D :: v

/-- Section 6.4: the characters of a key are printable ASCII (0x20-0x7E) but not "="; there is at least one. -/
def KeyOk (k : Bytes) : Prop := k ≠ [] ∧ ∀ b ∈ k, 0x20 ≤ b ∧ b ≤ 0x7E ∧ b ≠ 0x3D

instance (k : Bytes) : Decidable (KeyOk k) := by unfold KeyOk; infer_instance

/-- Keys are told apart without regard to case. -/
def SameKey (k l : Bytes) : Prop := k.map lowerOctet = l.map lowerOctet

instance (k l : Bytes) : Decidable (SameKey k l) := by unfold SameKey; infer_instance

/-- Attributes that a service may have: no key occurs twice, and each attribute fits into a string. -/
def AttributesOk (as : List Attribute) : Prop :=
  (∀ a ∈ as, KeyOk a.1 ∧ a.text.length < 256) ∧ as.Pairwise fun a b => ¬ SameKey a.1 b.1

instance (as : List Attribute) : Decidable (AttributesOk as) := by unfold AttributesOk; infer_instance

/-- What a client makes of a string: what is before the first "=" is the key; strings without a key are ignored. -/
def attributeOf (s : Bytes) : Option Attribute :=
  match s.takeWhile (· ≠ 0x3D), s.dropWhile (· ≠ 0x3D) with
  | [], _ => none
  | k, [] => some (k, none)
  | k, _ :: v => some (k, some v)

/-- What a client finds for a key: the first attribute counts. -/
def lookupAttribute (strings : List Bytes) (k : Bytes) : Option (Option Bytes) :=
  ((strings.filterMap attributeOf).find? fun a => decide (SameKey a.1 k)).map fun a => a.2

/-- The octets of a TXT record of RFC 1035 (sections 3.2.1 and 3.3.14) with these strings, of the class IN. -/
def txtRecord (n : Fqdn) (ttl : UInt32) (strings : List Bytes) : Bytes :=
  nameOctets n ++ [0, 16, 0, 1] ++ octets32 ttl ++ octets16 (UInt16.ofNat (strings.map fun s => s.length + 1).sum) ++
    strings.flatMap fun s => UInt8.ofNat s.length :: s

end Dns.Spec
