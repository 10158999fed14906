import Verif.Spec.Writable

/-
Equality of values (`==`) as the derived implementations of `PartialEq` decide it.  It is equality of all
fields, except that the options of OPT records are in a `HashMap`, for which the order of the entries does
not count.
-/

namespace Dns.Spec

/-- Equality of record data: OPT data are equal if every code has the same value, or none, in both. -/
def SameData : RecordData → RecordData → Prop
  | .OPT a, .OPT b => ∀ k, a.options.lookup k = b.options.lookup k
  | a, b => a = b

/-- Equality of records. -/
def SameRecord (r s : ResourceRecord) : Prop :=
  r.name = s.name ∧ r.type = s.type ∧ r.cacheFlush = s.cacheFlush ∧ r.class_ = s.class_ ∧ r.ttl = s.ttl ∧
    SameData r.rdata s.rdata

/-- Equality of packets. -/
def SamePacket (p q : Packet) : Prop :=
  p.header = q.header ∧ p.questions = q.questions ∧ List.Forall₂ SameRecord p.answers q.answers ∧
    List.Forall₂ SameRecord p.authorities q.authorities ∧ List.Forall₂ SameRecord p.additional q.additional

/-- The options of every OPT record are a map: no code has two values. -/
def MapsOk (p : Packet) : Prop :=
  ∀ r ∈ records p, ∀ o, r.rdata = .OPT o → (o.options.map Prod.fst).Nodup

/-- The octets of options (RFC 6891, section 6.1.2): code, length and value of each. -/
def optionOctets (kvs : List (UInt16 × Bytes)) : Bytes :=
  kvs.flatMap fun o => octets16 o.1 ++ octets16 (UInt16.ofNat o.2.length) ++ o.2

/-- The same octets, apart from the order of options. -/
inductive Reordered : Bytes → Bytes → Prop
  | nil : Reordered [] []
  | same (a : Bytes) {x y : Bytes} : Reordered x y → Reordered (a ++ x) (a ++ y)
  | options {kvs kvs' : List (UInt16 × Bytes)} {x y : Bytes} : kvs.Perm kvs' → Reordered x y →
      Reordered (optionOctets kvs ++ x) (optionOctets kvs' ++ y)

end Dns.Spec
