import Verif.Spec.RData

/-
RFC 9460: which SVCB records are legal, as a list of keys and values.  Independent of the way the crate
represents parameters.
-/

namespace Dns.Spec

/-- The value of `mandatory`: 16-bit keys. -/
def keyListOctets (ks : List Nat) : Bytes := (ks.map (fun k => octets16 (UInt16.ofNat k))).flatten

/-- The value of `alpn`: strings with a length octet. -/
def idListOctets (ids : List Bytes) : Bytes := (ids.map (fun a => UInt8.ofNat a.length :: a)).flatten

/-- RFC 9460, sections 7 and 8: the values allowed for a key.  Other keys have any value. -/
def LegalParam (k : Nat) (v : Bytes) : Prop :=
  (k = 0 → v ≠ [] ∧ ∃ ks, v = keyListOctets ks ∧ ks.Pairwise (· < ·) ∧ ∀ m ∈ ks, 1 ≤ m ∧ m < 65536) ∧
  (k = 1 → v ≠ [] ∧ ∃ ids, v = idListOctets ids ∧ ∀ a ∈ ids, 1 ≤ a.length ∧ a.length < 256) ∧
  (k = 2 → v = []) ∧
  (k = 3 → v.length = 2) ∧
  (k = 4 → v ≠ [] ∧ v.length % 4 = 0) ∧
  (k = 6 → v ≠ [] ∧ v.length % 16 = 0)

/-- RFC 9460, section 2.2: priority, target and parameters in strictly increasing order of the keys. -/
def LegalSvcb (kvs : List (Nat × Bytes)) : Prop :=
  kvs.Pairwise (fun a b => a.1 < b.1) ∧ ∀ kv ∈ kvs, kv.1 < 65536 ∧ LegalParam kv.1 kv.2

/-- The record data of a SVCB record. -/
def svcbItems (priority : UInt16) (target : Fqdn) (kvs : List (Nat × Bytes)) : List Item :=
  [.u16 priority, .name target] ++ kvs.flatMap (fun kv => [o16 kv.1, .str16 kv.2]) ++ [.eof]

/-- The keys of RFC 9460 and the private keys. -/
def KnownKey (k : Nat) : Prop := k ≤ 6 ∨ 65280 ≤ k ∧ k ≤ 65535

/-- What the crate can represent: known keys only, one address in a hint, no value for the key 65535. -/
def SupportedParam (k : Nat) (v : Bytes) : Prop :=
  KnownKey k ∧
  (k = 0 → ∀ ks, (∀ m ∈ ks, m < 65536) → v = keyListOctets ks → ∀ m ∈ ks, KnownKey m) ∧
  (k = 4 → v.length = 4) ∧ (k = 6 → v.length = 16) ∧ (k = 65535 → v = [])

/-- Key and value of a parameter. -/
def paramPair (p : Param) : Nat × Bytes := (paramKeyNumber p.key, Items.octets (paramValue p))

end Dns.Spec
