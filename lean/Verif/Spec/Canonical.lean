import Verif.Spec.Dnssec

/-
Canonical forms (RFC 4034, sections 3.1.3 and 6; RFC 4343; RFC 4701; RFC 6840, section 5.1), the
checks of RFC 4035, section 5.3.1, and the printed form of digests.
-/

namespace Dns.Spec

/-! ### Case of ASCII letters -/

/-- RFC 4343, section 3: the octets 0x41 to 0x5A are the same as 0x61 to 0x7A. -/
def lowerOctet (b : UInt8) : UInt8 := if 0x41 ≤ b.toNat ∧ b.toNat ≤ 0x5A then UInt8.ofNat (b.toNat + 32) else b

/-- The name with all upper case ASCII letters replaced by lower case letters. -/
def lowerName (n : Fqdn) : Fqdn := n.map (·.map lowerOctet)

/-- RFC 4343: the names are the same. -/
def SameName (n m : Fqdn) : Prop := lowerName n = lowerName m

/-- RFC 4034, section 6.2, item 3, with RFC 6840, section 5.1: the types whose names in the RDATA are
converted, as far as the crate has them. -/
def lowerRecord : RecordData → RecordData
  | .NS r => .NS { r with nsdname := lowerName r.nsdname }
  | .CNAME r => .CNAME { r with cname := lowerName r.cname }
  | .SOA r => .SOA { r with mname := lowerName r.mname, rname := lowerName r.rname }
  | .PTR r => .PTR { r with ptrdname := lowerName r.ptrdname }
  | .MINFO r => .MINFO { r with rmailbx := lowerName r.rmailbx, emailbx := lowerName r.emailbx }
  | .MX r => .MX { r with exchange := lowerName r.exchange }
  | .NAPTR r => .NAPTR { r with replacement := lowerName r.replacement }
  | .SRV r => .SRV { r with target := lowerName r.target }
  | .RRSIG r => .RRSIG { r with signersName := lowerName r.signersName }
  | r => r

/-- RFC 4034, section 6: the set in canonical form.  The RDATA of the records are in strictly
ascending order (6.3: a record occurs only once), names are in lower case (6.2). -/
def CanonicalForm (cfg : Cfg) (s : RRSet) (out : Bytes) : Prop :=
  ∃ rdatas : List Bytes, rdatas.Pairwise (List.Lex (· < ·)) ∧
    (∀ b, b ∈ rdatas ↔ ∃ r ∈ s.records, (lowerRecord r).toBytes cfg = .ok b) ∧
    out = (rdatas.map (rrOctets { s with name := lowerName s.name })).flatten

/-- RFC 4034, section 6.1: names are compared label by label from the right, labels as octet strings in
lower case; a name that ends first is the smaller one. -/
def CanonicalLt (n m : Fqdn) : Prop :=
  List.Lex (List.Lex (· < ·)) (lowerName n).reverse (lowerName m).reverse

/-! ### RRSIG fields -/

/-- RFC 4034, section 3.1.3: the number of labels of the owner, not counting the root label and not
counting the leftmost label if it is a wildcard. -/
def rrsigLabels : Fqdn → Nat
  | [] => 0
  | l :: ls => if l = [0x2A] then ls.length else ls.length + 1

/-- RFC 4035, section 5.3.1: what a validator checks beside the signature itself.  `zone` is the name
of the zone that contains the set and the key, `now` the current time in seconds. -/
structure SignatureUsable (r : Rrsig) (k : DnsKey) (set : RRSet) (zone : Fqdn) (now : Nat) : Prop where
  signer : SameName r.signersName zone
  type : r.typeCovered = set.type
  labels : r.labels.toNat ≤ rrsigLabels set.name
  notExpired : now ≤ r.sigExpiration.toNat
  notEarly : r.sigInception.toNat ≤ now
  algorithm : r.algorithm = k.algorithm
  keyTag : r.keyTag.toNat = keyTag k
  zoneKey : k.zoneKey = true
  protocol : k.protocol = 3

/-! ### Digests as text -/

/-- The digits 0-9 and A-F in ASCII. -/
def hexDigits : List UInt8 := [0x30, 0x31, 0x32, 0x33, 0x34, 0x35, 0x36, 0x37, 0x38, 0x39, 0x41, 0x42, 0x43, 0x44, 0x45, 0x46]

/-- Reads pairs of hexadecimal digits. -/
def unhex : Bytes → Option Bytes
  | [] => some []
  | a :: b :: rest => do
    let x ← hexDigits.idxOf? a
    let y ← hexDigits.idxOf? b
    let r ← unhex rest
    return UInt8.ofNat (16 * x + y) :: r
  | _ => none

end Dns.Spec
