import Verif.Model.RDataSvcb

/-
src/rdata/dnssec.rs: DNSKEY, DS and RRSIG records (wire format; signing and verification are in
`Dnssec.lean`).
-/

namespace Dns
open Buf

/-- src/rdata/dnssec.rs:730-748 `enum Algorithm`. -/
inductive SecAlgorithm where
  | RSA_MD5 | DSA_SHA1 | RSA_SHA1 | RSA_SHA256 | RSA_SHA512 | ECDSA_P256 | ECDSA_P384
  | ED25519 | ED448 | indirect | privateDns | privateOid
  deriving DecidableEq, Repr
namespace SecAlgorithm
/-- src/rdata/dnssec.rs:895-915 -/
def ofU8 (v : UInt8) : Res SecAlgorithm :=
  match v with
  | 1 => .ok .RSA_MD5
  | 3 => .ok .DSA_SHA1
  | 5 => .ok .RSA_SHA1
  | 8 => .ok .RSA_SHA256
  | 10 => .ok .RSA_SHA512
  | 13 => .ok .ECDSA_P256
  | 14 => .ok .ECDSA_P384
  | 15 => .ok .ED25519
  | 16 => .ok .ED448
  | 252 => .ok .indirect
  | 253 => .ok .privateDns
  | 254 => .ok .privateOid
  | v => .err (.invalidDnsSecAlgorithm v)
/-- src/rdata/dnssec.rs:917-934 -/
def toU8 : SecAlgorithm → UInt8
  | .RSA_MD5 => 1
  | .DSA_SHA1 => 3
  | .RSA_SHA1 => 5
  | .RSA_SHA256 => 8
  | .RSA_SHA512 => 10
  | .ECDSA_P256 => 13
  | .ECDSA_P384 => 14
  | .ED25519 => 15
  | .ED448 => 16
  | .indirect => 252
  | .privateDns => 253
  | .privateOid => 254
end SecAlgorithm

/-- src/rdata/dnssec.rs:937-942 `enum DigestType`. -/
inductive DigestType where
  | SHA1 | SHA256 | SHA384 | SHA512
  deriving DecidableEq, Repr
namespace DigestType
/-- src/rdata/dnssec.rs:960-972 -/
def ofU8 (v : UInt8) : Res DigestType :=
  match v with
  | 1 => .ok .SHA1
  | 2 => .ok .SHA256
  | 4 => .ok .SHA384
  | 5 => .ok .SHA512
  | v => .err (.invalidDigestType v)
/-- src/rdata/dnssec.rs:974-983 -/
def toU8 : DigestType → UInt8
  | .SHA1 => 1
  | .SHA256 => 2
  | .SHA384 => 4
  | .SHA512 => 5
end DigestType

/-- src/rdata/dnssec.rs:218-224 `struct DnsKey`. -/
structure DnsKey where
  zoneKey : Bool
  secureEntryPoint : Bool
  protocol : UInt8
  algorithm : SecAlgorithm
  publicKey : Bytes
  deriving DecidableEq, Repr
namespace DnsKey
/-- src/rdata/dnssec.rs:227-235 `new` -/
def new (a : SecAlgorithm) (k : Bytes) : DnsKey := ⟨false, false, 3, a, k⟩
/-- src/rdata/dnssec.rs:277-290 -/
def parse : Parser DnsKey := do
  let flags ← extractU16
  let p ← extractU8
  let a ← extractU8
  let a ← Parser.lift (SecAlgorithm.ofU8 a)
  let k ← extractRest
  return ⟨flags &&& 0x0100 != 0, flags &&& 0x0001 != 0, p, a, k⟩
/-- src/rdata/dnssec.rs:305-307 -/
def byteSize (r : DnsKey) : Nat := 4 + r.publicKey.length
/-- src/rdata/dnssec.rs:311 -/
def flags (r : DnsKey) : UInt16 :=
  ((if r.zoneKey then 1 else 0 : UInt16) <<< 8) ||| (if r.secureEntryPoint then 1 else 0)
/-- src/rdata/dnssec.rs:309-317 -/
def toBytes (r : DnsKey) : Bytes :=
  u16be r.flags ++ [r.protocol] ++ [r.algorithm.toU8] ++ r.publicKey
end DnsKey

/-- src/rdata/dnssec.rs:330-335 `struct Ds`. -/
structure Ds where
  keyTag : UInt16
  algorithm : SecAlgorithm
  digestType : DigestType
  digest : Bytes
  deriving DecidableEq, Repr
namespace Ds
/-- src/rdata/dnssec.rs:384-391 -/
def parse : Parser Ds := do
  let k ← extractU16
  let a ← extractU8
  let a ← Parser.lift (SecAlgorithm.ofU8 a)
  let t ← extractU8
  let t ← Parser.lift (DigestType.ofU8 t)
  let d ← extractRest
  return ⟨k, a, t, d⟩
/-- src/rdata/dnssec.rs:406-408 -/
def byteSize (r : Ds) : Nat := 4 + r.digest.length
/-- src/rdata/dnssec.rs:410-417 -/
def toBytes (r : Ds) : Bytes :=
  u16be r.keyTag ++ [r.algorithm.toU8] ++ [r.digestType.toU8] ++ r.digest
end Ds

/-- src/rdata/dnssec.rs:426-436 `struct Rrsig`. -/
structure Rrsig where
  typeCovered : RecordType
  algorithm : SecAlgorithm
  labels : UInt8
  originalTtl : UInt32
  sigExpiration : UInt32
  sigInception : UInt32
  keyTag : UInt16
  signersName : Fqdn
  signature : Bytes
  deriving DecidableEq, Repr
namespace Rrsig
/-- src/rdata/dnssec.rs:682-694 -/
def parse (cfg : Cfg) : Parser Rrsig := do
  let t ← extractU16
  let t ← Parser.lift (RecordType.ofU16 cfg t)
  let a ← extractU8
  let a ← Parser.lift (SecAlgorithm.ofU8 a)
  let l ← extractU8
  let ttl ← extractU32
  let e ← extractU32
  let i ← extractU32
  let k ← extractU16
  let n ← extractFqdn
  let s ← extractRest
  return ⟨t, a, l, ttl, e, i, k, n, s⟩
/-- src/rdata/dnssec.rs:709-711 -/
def byteSize (r : Rrsig) : Nat := 17 + r.signersName.len + r.signature.length
/-- src/rdata/dnssec.rs:713-725 -/
def toBytes (r : Rrsig) : Bytes :=
  u16be r.typeCovered.toU16 ++ [r.algorithm.toU8] ++ [r.labels] ++ u32be r.originalTtl
    ++ u32be r.sigExpiration ++ u32be r.sigInception ++ u16be r.keyTag ++ r.signersName.toBytes
    ++ r.signature
end Rrsig

end Dns
