import Verif.Spec.Strict
import Verif.Model.Dnssec

/-
Specification of the parts of DNSSEC the crate implements (RFC 4034, RFC 3110, RFC 2536).
-/

namespace Dns.Spec

/-! ### Record sets -/

/-- RFC 4034, section 6.3: RDATA are ordered as left-justified unsigned octet sequences, where the
absence of an octet sorts before a zero octet. -/
def OctetLe (a b : Bytes) : Prop := List.Lex (· < ·) a b ∨ a = b

/-- RFC 4034, section 3.1.8.1: `RR(i) = owner | type | class | TTL | RDATA length | RDATA`. -/
def rrOctets (s : RRSet) (rdata : Bytes) : Bytes :=
  Items.octets [.name s.name, o16 (typeNumber s.type), o16 (classNumber s.class_), .u32 s.ttl,
    .str16 rdata]

/-- `out` consists of the records of the set, one after the other, ordered by their RDATA. -/
def SortedRecords (cfg : Cfg) (s : RRSet) (out : Bytes) : Prop :=
  ∃ rdatas : List Bytes, (rdatas.map Res.ok).Perm (s.records.map (RecordData.toBytes cfg)) ∧
    rdatas.Pairwise OctetLe ∧ out = (rdatas.map (rrOctets s)).flatten

/-! ### Keys -/

/-- The octets of a DNSKEY (RFC 4034, section 2.1). -/
def dnskeyOctets (k : DnsKey) : Bytes :=
  Items.octets [o16 (dnskeyFlags k), .u8 k.protocol, o8 (secAlgorithmNumber k.algorithm),
    .raw k.publicKey]

/-- The sum of RFC 4034, appendix B: octets at even positions count as the high octet of a 16-bit
number. -/
def keyTagSum (rdata : Bytes) : Nat :=
  (rdata.zipIdx.map (fun x => if x.2 % 2 = 0 then x.1.toNat * 256 else x.1.toNat)).sum

/-- RFC 4034, appendix B: the key tag of all algorithms but RSA/MD5. -/
def keyTagOf (rdata : Bytes) : Nat :=
  (keyTagSum rdata + keyTagSum rdata / 65536 % 65536) % 65536

/-- RFC 4034, appendix B.1: the key tag of RSA/MD5 keys is the most significant 16 of the least
significant 24 bits of the modulus, which is at the end of the key. -/
def keyTagMd5 (publicKey : Bytes) : Nat := valueOf publicKey / 256 % 65536

/-- RFC 4034, appendix B. -/
def keyTag (k : DnsKey) : Nat :=
  if k.algorithm = .RSA_MD5 then keyTagMd5 k.publicKey else keyTagOf (dnskeyOctets k)

/-- RFC 3110, section 2: an RSA key with modulus `n` and exponent `e`. -/
def RsaKey (pub : Bytes) (n e : Nat) : Prop :=
  ∃ exponent modulus : Bytes, valueOf exponent = e ∧ valueOf modulus = n ∧
    (1 ≤ exponent.length ∧ exponent.length < 256 ∧
        pub = UInt8.ofNat exponent.length :: exponent ++ modulus ∨
      exponent.length < 65536 ∧
        pub = 0 :: octets16 (UInt16.ofNat exponent.length) ++ exponent ++ modulus)

/-- RFC 2536, section 2: a DSA key. -/
def DsaKey (pub : Bytes) (p q g y : Nat) : Prop :=
  ∃ (t : UInt8) (qo po go yo : Bytes), pub = t :: qo ++ po ++ go ++ yo ∧ qo.length = 20 ∧
    po.length = 64 + 8 * t.toNat ∧ go.length = 64 + 8 * t.toNat ∧ yo.length = 64 + 8 * t.toNat ∧
    valueOf qo = q ∧ valueOf po = p ∧ valueOf go = g ∧ valueOf yo = y

/-! ### Signatures -/

/-- RFC 4034, section 3.1.8.1: the RRSIG RDATA without the signature. -/
def rrsigOctets (r : Rrsig) : Bytes :=
  Items.octets [o16 (typeNumber r.typeCovered), o8 (secAlgorithmNumber r.algorithm), .u8 r.labels,
    .u32 r.originalTtl, .u32 r.sigExpiration, .u32 r.sigInception, .u16 r.keyTag,
    .name r.signersName]

/-- A correct signature library: what `priv` signs, `pub` verifies (for the algorithms whose
signatures the crate passes to the library as they are; `False` for the others). -/
def KeyPair (c : Crypto) (a : SecAlgorithm) (priv pub : Bytes) : Prop :=
  match a with
  | .RSA_MD5 | .RSA_SHA1 | .RSA_SHA256 | .RSA_SHA512 => ∃ n e, RsaKey pub n e ∧
      c.rsaKeyOk n e = true ∧ c.ringRsaPrivOk priv = true ∧
      ∀ t sig, c.rsaSign priv t = .ok sig → c.rsaVerify n e t sig = true
  | .ECDSA_P256 => ∀ m sig, c.ecdsa256Sign priv m = .ok sig → c.ecdsa256Verify pub m sig = true
  | .ECDSA_P384 => ∀ m sig, c.ecdsa384Sign priv m = .ok sig → c.ecdsa384Verify pub m sig = true
  | .ED25519 => ∀ m sig, c.ed25519Sign priv m = .ok sig → c.ed25519Verify pub m sig = true
  | .ED448 => c.ed448KeyOk pub = true ∧
      ∀ m sig, c.ed448Sign priv m = .ok sig → c.ed448Verify pub m sig = true
  | _ => False

/-- The library accepts the signature for the message.  (What follows the fields of a DSA key is
ignored.) -/
def Accepts (c : Crypto) (a : SecAlgorithm) (pub m sig : Bytes) : Prop :=
  match a with
  | .RSA_MD5 => ∃ n e, RsaKey pub n e ∧ c.rsaKeyOk n e = true ∧ c.rsaVerify n e (c.md5 m) sig = true
  | .RSA_SHA1 => ∃ n e, RsaKey pub n e ∧ c.rsaKeyOk n e = true ∧ c.rsaVerify n e (c.sha1 m) sig = true
  | .RSA_SHA256 => ∃ n e, RsaKey pub n e ∧ c.rsaKeyOk n e = true ∧ c.rsaVerify n e (c.sha256 m) sig = true
  | .RSA_SHA512 => ∃ n e, RsaKey pub n e ∧ c.rsaKeyOk n e = true ∧ c.rsaVerify n e (c.sha512 m) sig = true
  | .DSA_SHA1 => ∃ key rest p q g y, pub = key ++ rest ∧ DsaKey key p q g y ∧
      c.dsaKeyOk p q g y = true ∧ c.dsaSigOk sig = true ∧ c.dsaVerify p q g y (c.sha1 m) sig = true
  | .ECDSA_P256 => c.ecdsa256Verify pub m sig = true
  | .ECDSA_P384 => c.ecdsa384Verify pub m sig = true
  | .ED25519 => c.ed25519Verify pub m sig = true
  | .ED448 => c.ed448KeyOk pub = true ∧ c.ed448Verify pub m sig = true
  | .indirect | .privateDns | .privateOid => False

/-- The signature is good for the message `m` only. -/
def Binding (c : Crypto) (a : SecAlgorithm) (pub m sig : Bytes) : Prop :=
  ∀ m', Accepts c a pub m' sig → m' = m

end Dns.Spec
