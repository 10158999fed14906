import Verif.Spec.Dnssec
import Verif.Spec.Signed

/-
A chain of trust (RFC 4035, section 5): the parent zone says with a DS record which key the zone has, and the key
signs the records of the zone.
-/

namespace Dns.Spec

/-- RFC 4034, section 5.1.4, and RFC 4509: what the digest of a DS record is made of. -/
def dsInput (owner : Fqdn) (k : DnsKey) : Bytes := nameOctets owner ++ dnskeyOctets k

/-- The hash function of a digest type. -/
def digestOf (c : Crypto) : DigestType → Bytes → Bytes
  | .SHA1 => c.sha1
  | .SHA256 => c.sha256
  | .SHA384 => c.sha384
  | .SHA512 => c.sha512

/-- Nothing but `m` has the digest that the DS record has. -/
def OnlyPreimage (c : Crypto) (ds : Ds) (m : Bytes) : Prop :=
  ∀ m', digestOf c ds.digestType m' = ds.digest → m' = m

/-- The DNSKEY record `y` is the one that the DS record stands for: its DS record is made and compared. -/
def KeyTrusted (cfg : Cfg) (c : Crypto) (ds : Ds) (y : ResourceRecord) : Prop :=
  ∃ k, y.rdata = .DNSKEY k ∧ Ds.ofDnsKey cfg c y.name k ds.digestType = .ok ds

/-- What somebody does who trusts the DS record and got the packet: see `Validates`; and the key has to be the one
that the DS record stands for. -/
def ChainValidates (cfg : Cfg) (c : Crypto) (search : Search) (ds : Ds) (p : Packet) (x y : ResourceRecord) : Prop :=
  Validates cfg c search p x y ∧ KeyTrusted cfg c ds y

/-- Signatures cannot be forged: those that are accepted with the key are for octets that have been signed: those of one
of the given signatures without the signature itself, and of the set that was signed. -/
def NoForgery (cfg : Cfg) (c : Crypto) (k : DnsKey) (signed : List (Rrsig × RRSet)) : Prop :=
  ∀ m sig, Accepts c k.algorithm k.publicKey m sig →
    ∃ s ∈ signed, ∃ out, SortedRecords cfg s.2 out ∧ m = rrsigOctets s.1 ++ out

/-- A set of records that can be sent: there are records, they are of the type of the set and can be represented. -/
def SetOk (cfg : Cfg) (s : RRSet) : Prop :=
  s.records ≠ [] ∧ NameOk 191 s.name ∧ ∀ r ∈ s.records, r.type = s.type ∧ Writable cfg 191 r ∧
    ∀ b, r.toBytes cfg = .ok b → b.length < 65536

end Dns.Spec
