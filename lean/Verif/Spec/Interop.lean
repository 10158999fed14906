import Verif.Spec.Canonical
import Verif.Spec.Signed

/-
Signatures as the RFCs define them, without regard to the crate and the libraries it uses: which octets are signed
(RFC 4034, section 3.1.8.1; RFC 4035, section 5.3.2), and how keys and signatures are written (RFC 2536, 2537, 3110, 5702,
6605 and 8080).
-/

namespace Dns.Spec

/-! ### The signature schemes -/

/-- The mathematics of the signature schemes: which keys belong to each other, and which signatures are valid. -/
structure Schemes where
  md5 : Bytes → Bytes
  sha1 : Bytes → Bytes
  sha256 : Bytes → Bytes
  sha512 : Bytes → Bytes
  /-- The private key belongs to the modulus `n` and the exponent `e`. -/
  rsaKey : (priv : Bytes) → (n e : Nat) → Prop
  /-- RFC 8017, section 8.2: `sig` to the power of `e` modulo `n` is the padding followed by `t`. -/
  rsa : (n e : Nat) → (t sig : Bytes) → Prop
  dsaKey : (priv : Bytes) → (p q g y : Nat) → Prop
  /-- FIPS 186: `(r, s)` is a signature of the digest. -/
  dsa : (p q g y : Nat) → (digest : Bytes) → (r s : Nat) → Prop
  ecdsa256Key : (priv x y : Bytes) → Prop
  /-- FIPS 186: `(r, s)` is a signature of the message (with SHA-256) with the point `(x, y)` of P-256. -/
  ecdsa256 : (x y msg r s : Bytes) → Prop
  ecdsa384Key : (priv x y : Bytes) → Prop
  /-- FIPS 186: `(r, s)` is a signature of the message (with SHA-384) with the point `(x, y)` of P-384. -/
  ecdsa384 : (x y msg r s : Bytes) → Prop
  ed25519Key : (priv pub : Bytes) → Prop
  /-- RFC 8032 -/
  ed25519 : (pub msg sig : Bytes) → Prop
  ed448Key : (priv pub : Bytes) → Prop
  /-- RFC 8032 -/
  ed448 : (pub msg sig : Bytes) → Prop

/-- RFC 8017, section 9.2, note 1: what stands before a digest of MD5. -/
def infoMd5 : Bytes :=
  [0x30, 0x20, 0x30, 0x0c, 0x06, 0x08, 0x2a, 0x86, 0x48, 0x86, 0xf7, 0x0d, 0x02, 0x05, 0x05, 0x00, 0x04, 0x10]
/-- Of SHA-1. -/
def infoSha1 : Bytes := [0x30, 0x21, 0x30, 0x09, 0x06, 0x05, 0x2b, 0x0e, 0x03, 0x02, 0x1a, 0x05, 0x00, 0x04, 0x14]
/-- Of SHA-256. -/
def infoSha256 : Bytes :=
  [0x30, 0x31, 0x30, 0x0d, 0x06, 0x09, 0x60, 0x86, 0x48, 0x01, 0x65, 0x03, 0x04, 0x02, 0x01, 0x05, 0x00, 0x04, 0x20]
/-- Of SHA-512. -/
def infoSha512 : Bytes :=
  [0x30, 0x51, 0x30, 0x0d, 0x06, 0x09, 0x60, 0x86, 0x48, 0x01, 0x65, 0x03, 0x04, 0x02, 0x03, 0x05, 0x00, 0x04, 0x40]

/-- The signature in an RRSIG record is one of the octets `m` with the key in a DNSKEY record. -/
def RfcValid (S : Schemes) (a : SecAlgorithm) (pub m sig : Bytes) : Prop :=
  match a with
  -- RFC 2537, section 3
  | .RSA_MD5 => ∃ n e, RsaKey pub n e ∧ S.rsa n e (infoMd5 ++ S.md5 m) sig
  -- RFC 3110, section 3
  | .RSA_SHA1 => ∃ n e, RsaKey pub n e ∧ S.rsa n e (infoSha1 ++ S.sha1 m) sig
  -- RFC 5702, section 3
  | .RSA_SHA256 => ∃ n e, RsaKey pub n e ∧ S.rsa n e (infoSha256 ++ S.sha256 m) sig
  | .RSA_SHA512 => ∃ n e, RsaKey pub n e ∧ S.rsa n e (infoSha512 ++ S.sha512 m) sig
  -- RFC 2536, section 3: the octet T of the key, which is at most 8, and 20 octets each for r and s
  | .DSA_SHA1 => ∃ p q g y t r s, DsaKey pub p q g y ∧ pub.head? = some t ∧ t.toNat ≤ 8 ∧ sig = t :: r ++ s ∧
      r.length = 20 ∧ s.length = 20 ∧ S.dsa p q g y (S.sha1 m) (valueOf r) (valueOf s)
  -- RFC 6605, section 4: the coordinates one behind the other, and r and s
  | .ECDSA_P256 => ∃ x y r s, pub = x ++ y ∧ x.length = 32 ∧ y.length = 32 ∧ sig = r ++ s ∧ r.length = 32 ∧
      s.length = 32 ∧ S.ecdsa256 x y m r s
  | .ECDSA_P384 => ∃ x y r s, pub = x ++ y ∧ x.length = 48 ∧ y.length = 48 ∧ sig = r ++ s ∧ r.length = 48 ∧
      s.length = 48 ∧ S.ecdsa384 x y m r s
  -- RFC 8080, sections 3 and 4
  | .ED25519 => pub.length = 32 ∧ sig.length = 64 ∧ S.ed25519 pub m sig
  | .ED448 => pub.length = 57 ∧ sig.length = 114 ∧ S.ed448 pub m sig
  | _ => False

/-- The key in a DNSKEY record belongs to a private key. -/
def RfcPair (S : Schemes) (a : SecAlgorithm) (priv pub : Bytes) : Prop :=
  match a with
  | .RSA_MD5 | .RSA_SHA1 | .RSA_SHA256 | .RSA_SHA512 => ∃ n e, RsaKey pub n e ∧ S.rsaKey priv n e
  | .DSA_SHA1 => ∃ p q g y, DsaKey pub p q g y ∧ S.dsaKey priv p q g y
  | .ECDSA_P256 => ∃ x y, pub = x ++ y ∧ x.length = 32 ∧ y.length = 32 ∧ S.ecdsa256Key priv x y
  | .ECDSA_P384 => ∃ x y, pub = x ++ y ∧ x.length = 48 ∧ y.length = 48 ∧ S.ecdsa384Key priv x y
  | .ED25519 => pub.length = 32 ∧ S.ed25519Key priv pub
  | .ED448 => pub.length = 57 ∧ S.ed448Key priv pub
  | _ => False

/-! ### The libraries -/

/-- What the documentation of the libraries (`ring`, `rsa`, `dsa`, `crrl`) says of them: the keys and signatures that
they take and give. -/
structure Implements (c : Crypto) (S : Schemes) : Prop where
  md5 : c.md5 = S.md5
  sha1 : c.sha1 = S.sha1
  sha256 : c.sha256 = S.sha256
  sha512 : c.sha512 = S.sha512
  /-- `rsa`: without prefix (`new_unprefixed`). -/
  rsaVerify : ∀ n e t sig, c.rsaKeyOk n e = true → (c.rsaVerify n e t sig = true ↔ S.rsa n e t sig)
  rsaSign : ∀ priv n e t sig, S.rsaKey priv n e → c.rsaSign priv t = .ok sig → S.rsa n e t sig
  /-- `dsa`: signatures are sequences in DER. -/
  dsaSig : ∀ sig, c.dsaSigOk sig = true → ∃ rest, sig = 0x30 :: rest
  /-- `dsa`: `r` and `s` are less than `q`, which has 160 bits. -/
  dsaSign : ∀ priv p q g y m rs, S.dsaKey priv p q g y → c.dsaSign priv m = .ok rs → rs.1.length ≤ 20 ∧ rs.2.length ≤ 20
  /-- `ring`: the public key is an uncompressed point (SEC 1, section 2.3.3), the signature is `r` and `s`. -/
  ecdsa256Verify : ∀ pub msg sig, c.ecdsa256Verify pub msg sig = true ↔ ∃ x y r s, pub = 4 :: x ++ y ∧
    x.length = 32 ∧ y.length = 32 ∧ sig = r ++ s ∧ r.length = 32 ∧ s.length = 32 ∧ S.ecdsa256 x y msg r s
  ecdsa256Sign : ∀ priv x y msg sig, S.ecdsa256Key priv x y → c.ecdsa256Sign priv msg = .ok sig →
    ∃ r s, sig = r ++ s ∧ r.length = 32 ∧ s.length = 32 ∧ S.ecdsa256 x y msg r s
  ecdsa384Verify : ∀ pub msg sig, c.ecdsa384Verify pub msg sig = true ↔ ∃ x y r s, pub = 4 :: x ++ y ∧
    x.length = 48 ∧ y.length = 48 ∧ sig = r ++ s ∧ r.length = 48 ∧ s.length = 48 ∧ S.ecdsa384 x y msg r s
  ecdsa384Sign : ∀ priv x y msg sig, S.ecdsa384Key priv x y → c.ecdsa384Sign priv msg = .ok sig →
    ∃ r s, sig = r ++ s ∧ r.length = 48 ∧ s.length = 48 ∧ S.ecdsa384 x y msg r s
  ed25519Verify : ∀ pub msg sig, c.ed25519Verify pub msg sig = true ↔
    pub.length = 32 ∧ sig.length = 64 ∧ S.ed25519 pub msg sig
  ed25519Sign : ∀ priv pub msg sig, S.ed25519Key priv pub → c.ed25519Sign priv msg = .ok sig →
    sig.length = 64 ∧ S.ed25519 pub msg sig
  ed448Verify : ∀ pub msg sig, (c.ed448KeyOk pub = true ∧ c.ed448Verify pub msg sig = true) ↔
    pub.length = 57 ∧ sig.length = 114 ∧ S.ed448 pub msg sig
  ed448Sign : ∀ priv pub msg sig, S.ed448Key priv pub → c.ed448Sign priv msg = .ok sig →
    sig.length = 114 ∧ S.ed448 pub msg sig

/-- A signature of RSA is one of a single digest: the power of it is the padding with this digest. -/
def RsaDetermines (S : Schemes) : Prop := ∀ n e t t' sig, S.rsa n e t sig → S.rsa n e t' sig → t = t'

/-! ### What is signed -/

/-- The algorithms of RFC 8080. -/
def edAlgorithms : List SecAlgorithm := [.ED25519, .ED448]

/-- RFC 4035, section 5.3.2: the owner name in the signed data, for a set with the name `n` and the number of labels in
the RRSIG record: the name itself, or the wildcard that it was made of. -/
def SignedName (labels : Nat) (n owner : Fqdn) : Prop :=
  labels = n.length ∧ owner = n ∨ labels < n.length ∧ owner = [0x2A] :: n.drop (n.length - labels)

/-- RFC 4035, section 5.3.2: the octets that are signed: those of the RRSIG without the signature, with the signer's name
in lower case, and those of the records of the set in canonical form and order, each once, with the original TTL. -/
def RfcOctets (cfg : Cfg) (r : Rrsig) (n : Fqdn) (c : RecordClass) (records : List RecordData) (m : Bytes) : Prop :=
  ∃ (owner : Fqdn) (rdatas : List Bytes), SignedName r.labels.toNat (lowerName n) owner ∧ rdatas.Pairwise (List.Lex (· < ·)) ∧
    (∀ b, b ∈ rdatas ↔ ∃ d ∈ records, ∃ its, RDataStrict cfg (lowerRecord d) its ∧ b = Items.octets its) ∧
    m = rrsigOctets { r with signersName := lowerName r.signersName } ++
      (rdatas.map (rrOctets ⟨owner, r.typeCovered, c, r.originalTtl, records⟩)).flatten

/-- The RRSIG is a signature, as the RFCs define it, of the records with the name `n`. -/
def RfcSigned (S : Schemes) (cfg : Cfg) (r : Rrsig) (k : DnsKey) (n : Fqdn) (c : RecordClass)
    (records : List RecordData) : Prop :=
  r.algorithm = k.algorithm ∧ ∃ m, RfcOctets cfg r n c records m ∧ RfcValid S r.algorithm k.publicKey m r.signature

/-- The names are in lower case, the set is not made of a wildcard, no record is there twice, and all of them can be
written as the RFCs demand. -/
structure CanonicalSet (cfg : Cfg) (r : Rrsig) (n : Fqdn) (records : List RecordData) : Prop where
  owner : NameOk 63 n ∧ lowerName n = n
  signer : NameOk 63 r.signersName ∧ lowerName r.signersName = r.signersName
  wildcard : SignedName r.labels.toNat n n
  once : records.Nodup
  data : ∀ d ∈ records, d.type = r.typeCovered ∧ Writable cfg 191 d ∧ WrittenWell d ∧ lowerRecord d = d

end Dns.Spec
