import Verif.Model.RRSet

/-
src/rdata/dnssec.rs: key tags, DS digests, signing and verification.  The cryptographic libraries
(md5, sha1, ring, rsa, dsa, crrl) are not in /repo; they are parameters of the model.
-/

namespace Dns
open Buf

/-- The calls into the cryptographic libraries.
They are at src/rdata/dnssec.rs:511-663, src/rdata/dnssec.rs:761-892 and src/rdata/dnssec.rs:945-957. -/
structure Crypto where
  md5 : Bytes → Bytes
  sha1 : Bytes → Bytes
  sha256 : Bytes → Bytes
  sha384 : Bytes → Bytes
  sha512 : Bytes → Bytes
  /-- PKCS#1 v1.5 signature over the encoded message `t` (`DigestInfo` prefix and digest). -/
  rsaSign : (priv : Bytes) → (t : Bytes) → Res Bytes
  /-- `ring::rsa::KeyPair::from_pkcs8(private_key)` succeeds. -/
  ringRsaPrivOk : (priv : Bytes) → Bool
  /-- `RsaPublicKey::new(modulus, exponent)` succeeds. -/
  rsaKeyOk : (n e : Nat) → Bool
  /-- PKCS#1 v1.5 verification of the signature over the encoded message `t`. -/
  rsaVerify : (n e : Nat) → (t sig : Bytes) → Bool
  /-- DSA signature of a SHA-1 digest: `r` and `s` as minimal big-endian octets. -/
  dsaSign : (priv : Bytes) → (digest : Bytes) → Res (Bytes × Bytes)
  /-- `Components::from_components` and `VerifyingKey::from_components` succeed. -/
  dsaKeyOk : (p q g y : Nat) → Bool
  /-- `dsa::Signature::try_from` (DER). -/
  dsaSigOk : Bytes → Bool
  /-- `Verifier::verify` on a message (which it hashes itself) and a DER signature. -/
  dsaVerify : (p q g y : Nat) → (msg sig : Bytes) → Bool
  ecdsa256Sign : (priv msg : Bytes) → Res Bytes
  ecdsa256Verify : (pub msg sig : Bytes) → Bool
  ecdsa384Sign : (priv msg : Bytes) → Res Bytes
  ecdsa384Verify : (pub msg sig : Bytes) → Bool
  ed25519Sign : (priv msg : Bytes) → Res Bytes
  ed25519Verify : (pub msg sig : Bytes) → Bool
  ed448Sign : (priv msg : Bytes) → Res Bytes
  /-- `crrl::ed448::PublicKey::decode` succeeds. -/
  ed448KeyOk : (pub : Bytes) → Bool
  ed448Verify : (pub msg sig : Bytes) → Bool

/-- DER prefix `DigestInfo` for SHA-256 (RFC 8017, section 9.2), added by `ring` for
`RSA_PKCS1_SHA256`.  Used at src/rdata/dnssec.rs:761-892. -/
def digestInfoSha256 : Bytes :=
  [0x30, 0x31, 0x30, 0x0d, 0x06, 0x09, 0x60, 0x86, 0x48, 0x01, 0x65, 0x03, 0x04, 0x02, 0x01, 0x05,
   0x00, 0x04, 0x20]

/-- DER prefix `DigestInfo` for SHA-512 (RFC 8017, section 9.2), added by `ring` for
`RSA_PKCS1_SHA512`.  Used at src/rdata/dnssec.rs:761-892. -/
def digestInfoSha512 : Bytes :=
  [0x30, 0x51, 0x30, 0x0d, 0x06, 0x09, 0x60, 0x86, 0x48, 0x01, 0x65, 0x03, 0x04, 0x02, 0x03, 0x05,
   0x00, 0x04, 0x40]

namespace SecAlgorithm

/-- src/rdata/dnssec.rs:751-759 `len` -/
def len : SecAlgorithm → Option Nat
  | .RSA_MD5 => some 16
  | .DSA_SHA1 | .RSA_SHA1 => some 20
  | .RSA_SHA256 | .ED25519 => some 32
  | .RSA_SHA512 | .ED448 => some 64
  | _ => none

/-- `ring` failing to sign runs into `todo!()` (src/rdata/dnssec.rs:826, 840). -/
def orTodo : Res Bytes → Res Bytes
  | .err _ => .panic .unwrap
  | r => r

/-- src/rdata/dnssec.rs:761-892 `sign_data` -/
def signData (c : Crypto) (a : SecAlgorithm) (data priv : Bytes) : Res Bytes :=
  match a with
  | .RSA_MD5 => c.rsaSign priv (c.md5 data)
  | .DSA_SHA1 => do
    let rs ← c.dsaSign priv (c.sha1 data)
    return rs.1 ++ rs.2
  | .RSA_SHA1 => c.rsaSign priv (c.sha1 data)
  | .RSA_SHA256 =>
    if c.ringRsaPrivOk priv then orTodo (c.rsaSign priv (digestInfoSha256 ++ c.sha256 data))
    else .err .dnsSecSigningError
  | .RSA_SHA512 =>
    if c.ringRsaPrivOk priv then orTodo (c.rsaSign priv (digestInfoSha512 ++ c.sha512 data))
    else .err .dnsSecSigningError
  | .ECDSA_P256 => c.ecdsa256Sign priv data
  | .ECDSA_P384 => c.ecdsa384Sign priv data
  | .ED25519 => c.ed25519Sign priv data
  | .ED448 => c.ed448Sign priv data
  | .indirect => .err (.invalidDnsSecAlgorithm 9)
  | .privateDns => .err (.invalidDnsSecAlgorithm 10)
  | .privateOid => .err (.invalidDnsSecAlgorithm 11)

end SecAlgorithm

namespace DigestType
/-- src/rdata/dnssec.rs:945-957 `hash_data` -/
def hashData (c : Crypto) : DigestType → Bytes → Bytes
  | .SHA1 => c.sha1
  | .SHA256 => c.sha256
  | .SHA384 => c.sha384
  | .SHA512 => c.sha512
end DigestType

namespace DnsKey

/-- src/rdata/dnssec.rs:242-245 `valid_protocol` -/
def validProtocol (k : DnsKey) : Bool := k.protocol == 3

/-- src/rdata/dnssec.rs:258-268: the fold, `i` is the index of the next octet. -/
def keyTagLoop (cfg : Cfg) : Nat → Nat → Bytes → Res Nat
  | _, acc, [] => return acc
  | i, acc, b :: bs => do
    let acc ← addU32 cfg acc (if i % 2 ≠ 0 then b.toNat else b.toNat * 256)
    keyTagLoop cfg (i + 1) acc bs

/-- src/rdata/dnssec.rs:257-271 `compute_key_tag` -/
def computeKeyTag (cfg : Cfg) (k : DnsKey) : Res UInt16 := do
  let t ← keyTagLoop cfg 0 0 k.toBytes
  let t ← addU32 cfg t (t / 65536 % 65536)
  return UInt16.ofNat (t % 65536)

end DnsKey

namespace Ds
/-- src/rdata/dnssec.rs:352-367 `try_from_dnskey` -/
def ofDnsKey (cfg : Cfg) (c : Crypto) (owner : Fqdn) (k : DnsKey) (t : DigestType) : Res Ds := do
  let tag ← k.computeKeyTag cfg
  return ⟨tag, k.algorithm, t, t.hashData c (owner.toBytes ++ k.toBytes)⟩

/-- `{:02X}` of an octet: ASCII of the two digits.  Used at src/rdata/dnssec.rs:370-378. -/
def hexDigit (n : Nat) : UInt8 := if n < 10 then UInt8.ofNat (48 + n) else UInt8.ofNat (55 + n)

/-- src/rdata/dnssec.rs:370-378 `hex_digest` -/
def hexDigest (r : Ds) : Bytes :=
  r.digest.foldl (fun out b => out ++ [hexDigit (b.toNat / 16), hexDigit (b.toNat % 16)]) []
end Ds

/-- `SystemTime` relative to the Unix epoch, in nanoseconds.  Used at src/rdata/dnssec.rs:464-495. -/
abbrev SysTime := Int

/-- src/rdata/dnssec.rs:471-474: `duration_since(UNIX_EPOCH)?.as_millis() as u32` -/
def SysTime.toField (t : SysTime) : Res UInt32 :=
  if t < 0 then .err .invalidDnsSecSignatureTimespan
  else .ok (UInt32.ofNat (t.toNat / 1000000))

namespace Rrsig

/-- src/rdata/dnssec.rs:665-676 `calculate_signature` -/
def calculateSignature (cfg : Cfg) (c : Crypto) (search : Search) (r : Rrsig) (set : RRSet)
    (priv : Bytes) : Res Rrsig := do
  let s ← set.toBytes cfg search
  let sig ← r.algorithm.signData c (r.toBytes ++ s) priv
  return { r with signature := sig }

/-- src/rdata/dnssec.rs:464-495 `from_dnskey` -/
def fromDnsKey (cfg : Cfg) (c : Crypto) (search : Search) (k : DnsKey) (set : RRSet)
    (inception expiration : SysTime) (priv : Bytes) : Res Rrsig := do
  let expiration ← expiration.toField
  let inception ← inception.toField
  let tag ← k.computeKeyTag cfg
  calculateSignature cfg c search
    ⟨set.type, k.algorithm, set.name.labelCount, set.ttl, expiration, inception, tag, set.name, []⟩
    set priv

/-- src/rdata/dnssec.rs:523-532: the octets that are verified, before hashing. -/
def verifyMessage (r : Rrsig) (set : Bytes) : Bytes :=
  u16be r.typeCovered.toU16 ++ [r.algorithm.toU8] ++ [r.labels] ++ u32be r.originalTtl
    ++ u32be r.sigExpiration ++ u32be r.sigInception ++ u16be r.keyTag ++ r.signersName.toBytes ++ set

/-- src/rdata/dnssec.rs:535-556: the hash that is computed before the verification. -/
def prehash (c : Crypto) : SecAlgorithm → Bytes → Bytes
  | .RSA_MD5, m => c.md5 m
  | .RSA_SHA1, m => c.sha1 m
  | .DSA_SHA1, m => c.sha1 m
  | .RSA_SHA256, m => c.sha256 m
  | .RSA_SHA512, m => c.sha512 m
  | _, m => m

/-- src/rdata/dnssec.rs:569-583: exponent and modulus of an RSA key. -/
def parseRsaKey : Parser (Nat × Nat) := do
  let first ← extractU8
  let len ← if first = 0 then extractU16 else (return UInt16.ofNat first.toNat : Parser UInt16)
  let e ← extractBytes len.toNat
  let n ← extractRest
  return (ofBE e, ofBE n)

/-- src/rdata/dnssec.rs:604-608: `t`, `q`, `p`, `g`, `y` of a DSA key. -/
def parseDsaKey : Parser (Nat × Nat × Nat × Nat) := do
  let t ← extractU8
  let q ← extractBytes 20
  let p ← extractBytes (64 + t.toNat * 8)
  let g ← extractBytes (64 + t.toNat * 8)
  let y ← extractBytes (64 + t.toNat * 8)
  return (ofBE p, ofBE q, ofBE g, ofBE y)

/-- src/rdata/dnssec.rs:558-662: the verification proper. -/
def verifyWith (c : Crypto) (a : SecAlgorithm) (pub msg sig : Bytes) : Res Bool :=
  match a with
  | .RSA_MD5 | .RSA_SHA1 | .RSA_SHA256 | .RSA_SHA512 => do
    let k ← (parseRsaKey pub 0).1
    if c.rsaKeyOk k.2 k.1 then return c.rsaVerify k.2 k.1 msg sig
    else .err .dnsSecVerificationError
  | .DSA_SHA1 => do
    let k ← (parseDsaKey pub 0).1
    if c.dsaKeyOk k.1 k.2.1 k.2.2.1 k.2.2.2 then
      if c.dsaSigOk sig then return c.dsaVerify k.1 k.2.1 k.2.2.1 k.2.2.2 msg sig
      else .err .dnsSecVerificationError
    else .err .dnsSecVerificationError
  | .ECDSA_P256 => return c.ecdsa256Verify pub msg sig
  | .ECDSA_P384 => return c.ecdsa384Verify pub msg sig
  | .ED25519 => return c.ed25519Verify pub msg sig
  | .ED448 =>
    if c.ed448KeyOk pub then return c.ed448Verify pub msg sig else .err .dnsSecVerificationError
  | .indirect | .privateDns | .privateOid => return false

/-- src/rdata/dnssec.rs:511-663 `verify` -/
def verify (cfg : Cfg) (c : Crypto) (search : Search) (r : Rrsig) (k : DnsKey) (set : RRSet) :
    Res Bool :=
  if r.algorithm ≠ k.algorithm then .err .dnsSecVerificationError
  else do
    let s ← set.toBytes cfg search
    verifyWith c r.algorithm k.publicKey (prehash c r.algorithm (r.verifyMessage s)) r.signature

end Rrsig
end Dns
