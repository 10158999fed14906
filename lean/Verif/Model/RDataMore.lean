import Verif.Model.RDataBasic

/-
RDATA types OPT, APL, CAA, SSHFP, TLSA, IPSECKEY, HIP, DHCID, TKEY, TSIG.
-/

namespace Dns
open Buf

/-- `HashMap::insert`: overwrite the value of an existing key, otherwise add the pair.  A
`HashMap` is an association list with distinct keys in its iteration order, which is arbitrary.
Used at src/rdata/opt.rs:34-39. -/
def mapInsert (k : UInt16) (v : Bytes) : List (UInt16 × Bytes) → List (UInt16 × Bytes)
  | [] => [(k, v)]
  | (k', v') :: m => if k' = k then (k, v) :: m else (k', v') :: mapInsert k v m

/-- src/rdata/opt.rs:27 `struct Opt(HashMap<u16, Vec<u8>>)`. -/
structure Opt where
  options : List (UInt16 × Bytes)
  deriving DecidableEq, Repr
namespace Opt
/-- src/rdata/opt.rs:34-39, the body of the loop -/
def step (m : List (UInt16 × Bytes)) : Parser (List (UInt16 × Bytes)) := do
  let c ← extractU16
  let n ← extractU16
  let b ← extractBytes n.toNat
  return mapInsert c b m
/-- src/rdata/opt.rs:32-41 -/
def parse : Parser Opt := do
  let m ← whileRemaining [] step
  return ⟨m⟩
/-- src/rdata/opt.rs:55-57 -/
def byteSize (r : Opt) : Nat := 2 * 1 + r.options.foldl (fun acc e => acc + e.2.length) 0
/-- src/rdata/opt.rs:59-67 -/
def toBytes (r : Opt) : Bytes :=
  r.options.foldl (fun buff e => buff ++ u16be e.1 ++ u16be (lenU16 e.2.length) ++ e.2) []
end Opt

/-- src/rdata/apl.rs:110-113 `enum Afd`. -/
inductive Afd where
  | ipV4 (a : UInt32)
  | ipV6 (a : BitVec 128)
  deriving DecidableEq, Repr
namespace Afd
/-- src/rdata/apl.rs:116-121 -/
def family : Afd → UInt16
  | .ipV4 _ => 1
  | .ipV6 _ => 2
/-- src/rdata/apl.rs:125-130 -/
def byteSize : Afd → Nat
  | .ipV4 _ => 4
  | .ipV6 _ => 16
/-- src/rdata/apl.rs:132-139 -/
def toBytes : Afd → Bytes
  | .ipV4 a => u32be a
  | .ipV6 a => toBE 16 a.toNat
end Afd

/-- `Vec::resize(n, 0)`.  Used at src/rdata/apl.rs:59 and src/rdata/apl.rs:68. -/
def resize (n : Nat) (b : Bytes) : Bytes := b.take n ++ List.replicate (n - b.length) 0

/-- src/rdata/apl.rs:20-35 `struct Apl`. -/
structure Apl where
  «prefix» : UInt8
  n : Bool
  afd : Afd
  deriving DecidableEq, Repr
namespace Apl
/-- src/rdata/apl.rs:50-81 -/
def parse : Parser Apl := do
  let family ← extractU16
  let p ← extractU8
  let coded ← extractU8
  let afd ← extractBytes (coded &&& 0x7E).toNat
  match family with
  | 1 => return ⟨p, coded &&& 0x80 != 0, .ipV4 (UInt32.ofNat (ofBE (resize 4 afd)))⟩
  | 2 => return ⟨p, coded &&& 0x80 != 0, .ipV6 (BitVec.ofNat 128 (ofBE (resize 16 afd)))⟩
  | v => Parser.fail (.invalidAplFamily v)
/-- src/rdata/apl.rs:95-97 -/
def byteSize (r : Apl) : Nat := 2 * 2 + r.afd.byteSize
/-- src/rdata/apl.rs:99-106 -/
def toBytes (r : Apl) : Bytes :=
  u16be r.afd.family ++ [r.prefix]
    ++ [(((if r.n then 1 else 0 : UInt8)) <<< 7) ||| lenU8 r.afd.byteSize] ++ r.afd.toBytes
end Apl

/-- src/rdata/caa.rs:12-25 `struct Caa`. -/
structure Caa where
  issuerCritical : Bool
  tag : Bytes
  value : Bytes
  deriving DecidableEq, Repr
namespace Caa
/-- src/rdata/caa.rs:40-56 -/
def parse : Parser Caa := do
  let flags ← extractU8
  let tagLen ← extractU8
  if tagLen = 0 then Parser.fail .invalidPacketData
  else
    let tag ← extractBytes tagLen.toNat
    let value ← extractRest
    return ⟨flags &&& 0x80 != 0, utf8Lossy tag, value⟩
/-- src/rdata/caa.rs:70-72 -/
def byteSize (r : Caa) : Nat := 2 * 1 + r.value.length
/-- src/rdata/caa.rs:74-81 -/
def toBytes (r : Caa) : Bytes :=
  [(if r.issuerCritical then 1 else 0 : UInt8) <<< 7] ++ [lenU8 r.tag.length] ++ r.tag ++ r.value
end Caa

/-- src/rdata/mod.rs:90-97 `enum Algorithm`. -/
inductive Algorithm where
  | reserved | RSA | DSA | ECDSA | ed25519 | ed448
  deriving DecidableEq, Repr
namespace Algorithm
/-- src/rdata/mod.rs:99-113 `TryFrom<u8>` -/
def ofU8 (v : UInt8) : Res Algorithm :=
  match v with
  | 0 => .ok .reserved
  | 1 => .ok .RSA
  | 2 => .ok .DSA
  | 3 => .ok .ECDSA
  | 4 => .ok .ed25519
  | 5 => .ok .ed448
  | v => .err (.invalidSSHFPAlgorithm v)
/-- src/rdata/mod.rs:115-126 `From<Algorithm> for u8` -/
def toU8 : Algorithm → UInt8
  | .reserved => 0
  | .RSA => 1
  | .DSA => 2
  | .ECDSA => 3
  | .ed25519 => 4
  | .ed448 => 5
end Algorithm

/-- src/rdata/sshfp.rs:69-72 `enum FingerprintType`. -/
inductive FingerprintType where
  | reserved | SHA1
  deriving DecidableEq, Repr
namespace FingerprintType
/-- src/rdata/sshfp.rs:74-84 -/
def ofU8 (v : UInt8) : Res FingerprintType :=
  match v with
  | 0 => .ok .reserved
  | 1 => .ok .SHA1
  | v => .err (.invalidSSHFPFingerprintType v)
/-- src/rdata/sshfp.rs:86-93 -/
def toU8 : FingerprintType → UInt8
  | .reserved => 0
  | .SHA1 => 1
end FingerprintType

/-- src/rdata/sshfp.rs:12-16 `struct Sshfp`. -/
structure Sshfp where
  algorithm : Algorithm
  fingerprintType : FingerprintType
  fingerprint : Bytes
  deriving DecidableEq, Repr
namespace Sshfp
/-- src/rdata/sshfp.rs:35-41: the fingerprint is read as a character string. -/
def parse : Parser Sshfp := do
  let a ← extractU8
  let a ← Parser.lift (Algorithm.ofU8 a)
  let f ← extractU8
  let f ← Parser.lift (FingerprintType.ofU8 f)
  let p ← extractCharacterString
  return ⟨a, f, p⟩
/-- src/rdata/sshfp.rs:55-57 -/
def byteSize (r : Sshfp) : Nat := 1 + 1 + r.fingerprint.length
/-- src/rdata/sshfp.rs:59-65: the fingerprint is written without length octet. -/
def toBytes (r : Sshfp) : Bytes :=
  [r.algorithm.toU8] ++ [r.fingerprintType.toU8] ++ r.fingerprint
end Sshfp

/-- src/rdata/tlsa.rs:96-101 `enum CertUsage`. -/
inductive CertUsage where
  | ca | serviceCertificateConstraint | trustAnchor | domainIssuedCertificate
  deriving DecidableEq, Repr
namespace CertUsage
/-- src/rdata/tlsa.rs:103-115 -/
def ofU8 (v : UInt8) : Res CertUsage :=
  match v with
  | 0 => .ok .ca
  | 1 => .ok .serviceCertificateConstraint
  | 2 => .ok .trustAnchor
  | 3 => .ok .domainIssuedCertificate
  | v => .err (.invalidTLSACertUsage v)
/-- src/rdata/tlsa.rs:117-126 -/
def toU8 : CertUsage → UInt8
  | .ca => 0
  | .serviceCertificateConstraint => 1
  | .trustAnchor => 2
  | .domainIssuedCertificate => 3
end CertUsage

/-- src/rdata/tlsa.rs:129-132 `enum Selector`. -/
inductive Selector where
  | full | subjectPublicKeyInfo
  deriving DecidableEq, Repr
namespace Selector
/-- src/rdata/tlsa.rs:134-144 (the error variant is the one of SSHFP) -/
def ofU8 (v : UInt8) : Res Selector :=
  match v with
  | 0 => .ok .full
  | 1 => .ok .subjectPublicKeyInfo
  | v => .err (.invalidSSHFPAlgorithm v)
/-- src/rdata/tlsa.rs:146-153 -/
def toU8 : Selector → UInt8
  | .full => 0
  | .subjectPublicKeyInfo => 1
end Selector

/-- src/rdata/tlsa.rs:156-160 `enum MatchingType`. -/
inductive MatchingType where
  | exactMatch | SHA256 | SHA512
  deriving DecidableEq, Repr
namespace MatchingType
/-- src/rdata/tlsa.rs:162-173 (the error variant is the one of SSHFP) -/
def ofU8 (v : UInt8) : Res MatchingType :=
  match v with
  | 0 => .ok .exactMatch
  | 1 => .ok .SHA256
  | 2 => .ok .SHA512
  | v => .err (.invalidSSHFPAlgorithm v)
/-- src/rdata/tlsa.rs:175-183 -/
def toU8 : MatchingType → UInt8
  | .exactMatch => 0
  | .SHA256 => 1
  | .SHA512 => 2
end MatchingType

/-- src/rdata/tlsa.rs:13-39 `struct Tlsa`. -/
structure Tlsa where
  certUsage : CertUsage
  selector : Selector
  matchingType : MatchingType
  associatedData : Bytes
  deriving DecidableEq, Repr
namespace Tlsa
/-- src/rdata/tlsa.rs:60-67 -/
def parse : Parser Tlsa := do
  let c ← extractU8
  let c ← Parser.lift (CertUsage.ofU8 c)
  let s ← extractU8
  let s ← Parser.lift (Selector.ofU8 s)
  let m ← extractU8
  let m ← Parser.lift (MatchingType.ofU8 m)
  let d ← extractRest
  return ⟨c, s, m, d⟩
/-- src/rdata/tlsa.rs:81-83 -/
def byteSize (r : Tlsa) : Nat := 3 * 1 + r.associatedData.length
/-- src/rdata/tlsa.rs:85-92 -/
def toBytes (r : Tlsa) : Bytes :=
  [r.certUsage.toU8] ++ [r.selector.toU8] ++ [r.matchingType.toU8] ++ r.associatedData
end Tlsa

/-- src/rdata/ipseckey.rs:104-109 `enum Gateway`. -/
inductive Gateway where
  | none
  | ipV4 (a : UInt32)
  | ipV6 (a : BitVec 128)
  | domain (n : Fqdn)
  deriving DecidableEq, Repr
namespace Gateway
/-- src/rdata/ipseckey.rs:112-119 -/
def gatewayType : Gateway → UInt8
  | .none => 0
  | .ipV4 _ => 1
  | .ipV6 _ => 2
  | .domain _ => 3
/-- src/rdata/ipseckey.rs:123-130 -/
def byteSize : Gateway → Nat
  | .none => 1
  | .ipV4 _ => 4
  | .ipV6 _ => 16
  | .domain n => Fqdn.byteSize n
/-- src/rdata/ipseckey.rs:132-139: no gateway is written as the octet `.`. -/
def toBytes : Gateway → Bytes
  | .none => [0x2E]
  | .ipV4 a => u32be a
  | .ipV6 a => toBE 16 a.toNat
  | .domain n => Fqdn.toBytes n
/-- src/rdata/ipseckey.rs:39-52 -/
def parse (t : UInt8) : Parser Gateway :=
  match t with
  | 0 => do
    let _ ← extractU8
    return .none
  | 1 => do
    let a ← extractU32
    return .ipV4 a
  | 2 => do
    let a ← extractU128
    return .ipV6 a
  | 3 => do
    let n ← extractFqdn
    return .domain n
  | v => Parser.fail (.invalidIpSecKeyGatewayType v)
end Gateway

/-- src/rdata/ipseckey.rs:15-30 `struct IpSecKey`. -/
structure IpSecKey where
  precedence : UInt8
  algorithm : Algorithm
  gateway : Gateway
  publicKey : Bytes
  deriving DecidableEq, Repr
namespace IpSecKey
/-- src/rdata/ipseckey.rs:35-60 -/
def parse : Parser IpSecKey := do
  let p ← extractU8
  let t ← extractU8
  let a ← extractU8
  let a ← Parser.lift (Algorithm.ofU8 a)
  let g ← Gateway.parse t
  let k ← extractRest
  return ⟨p, a, g, k⟩
/-- src/rdata/ipseckey.rs:74-76 -/
def byteSize (r : IpSecKey) : Nat := 3 + r.gateway.byteSize + r.publicKey.length
/-- src/rdata/ipseckey.rs:78-86 -/
def toBytes (r : IpSecKey) : Bytes :=
  [r.precedence] ++ [r.gateway.gatewayType] ++ [r.algorithm.toU8] ++ r.gateway.toBytes
    ++ r.publicKey
end IpSecKey

/-- src/rdata/hip.rs:10-34 `struct Hip`. -/
structure Hip where
  publicKeyAlgorithm : Algorithm
  hit : Bytes
  publicKey : Bytes
  rendevousServer : Option (List Fqdn)
  deriving DecidableEq, Repr
namespace Hip
/-- src/rdata/hip.rs:48-50, the body of the loop -/
def step (acc : List Fqdn) : Parser (List Fqdn) := do
  let n ← extractFqdn
  return acc ++ [n]
/-- src/rdata/hip.rs:46-54 -/
def parseServers : Parser (Option (List Fqdn)) := do
  let r ← remaining
  if r > 0 then
    let l ← whileRemaining [] step
    return some l
  else return none
/-- src/rdata/hip.rs:39-62 -/
def parse : Parser Hip := do
  let hitLen ← extractU8
  let a ← extractU8
  let a ← Parser.lift (Algorithm.ofU8 a)
  let pkLen ← extractU16
  let hit ← extractBytes hitLen.toNat
  let pk ← extractBytes pkLen.toNat
  let rs ← parseServers
  return ⟨a, hit, pk, rs⟩
/-- src/rdata/hip.rs:76-84 -/
def byteSize (r : Hip) : Nat :=
  4 + r.hit.length + r.publicKey.length
    + (match r.rendevousServer with
       | some b => (b.map Fqdn.byteSize).foldl (· + ·) 0
       | none => 0)
/-- src/rdata/hip.rs:86-99 -/
def toBytes (r : Hip) : Bytes :=
  [lenU8 r.hit.length] ++ [r.publicKeyAlgorithm.toU8] ++ u16be (lenU16 r.publicKey.length)
    ++ r.hit ++ r.publicKey
    ++ (match r.rendevousServer with
        | some rs => rs.foldl (fun buf n => buf ++ Fqdn.toBytes n) []
        | none => [])
end Hip

/-- src/rdata/dhcid.rs:105-109 `enum IdentifierType`. -/
inductive IdentifierType where
  | chaddrOfDhcpRequest | clientIdentifierOption | DUID
  deriving DecidableEq, Repr
namespace IdentifierType
/-- src/rdata/dhcid.rs:111-122 -/
def ofU16 (v : UInt16) : Res IdentifierType :=
  match v with
  | 0 => .ok .chaddrOfDhcpRequest
  | 1 => .ok .clientIdentifierOption
  | 2 => .ok .DUID
  | v => .err (.invalidIdentifierTypeError v)
/-- src/rdata/dhcid.rs:124-132 -/
def toU16 : IdentifierType → UInt16
  | .chaddrOfDhcpRequest => 0
  | .clientIdentifierOption => 1
  | .DUID => 2
end IdentifierType

/-- src/rdata/dhcid.rs:28-44 `struct Dhcid`. -/
structure Dhcid where
  identifierCode : IdentifierType
  digest : Bytes
  deriving DecidableEq, Repr
namespace Dhcid
/-- src/rdata/dhcid.rs:48-59 `new`; SHA-256 is a parameter. -/
def new (sha256 : Bytes → Bytes) (code : IdentifierType) (identifier : Bytes) (fqdn : Fqdn) :
    Dhcid :=
  ⟨code, sha256 (identifier ++ Fqdn.toBytes fqdn)⟩
/-- src/rdata/dhcid.rs:65-77 -/
def parse : Parser Dhcid := do
  let c ← extractU16
  let c ← Parser.lift (IdentifierType.ofU16 c)
  let t ← extractU8
  if t ≠ 1 then Parser.fail (.invalidDigestType t)
  else
    let d ← extractRest
    return ⟨c, d⟩
/-- src/rdata/dhcid.rs:91-93 -/
def byteSize (r : Dhcid) : Nat := 2 + 1 + r.digest.length
/-- src/rdata/dhcid.rs:95-101 -/
def toBytes (r : Dhcid) : Bytes := u16be r.identifierCode.toU16 ++ [1] ++ r.digest
end Dhcid

/-- src/rdata/tkey.rs:105-112 `enum Mode`. -/
inductive TkeyMode where
  | serverAssignment | diffieHellmanExchange | gssApiNegotiation | resolverAssignment
  | keyDeletion
  | available (n : UInt16)
  deriving DecidableEq, Repr
namespace TkeyMode
/-- src/rdata/tkey.rs:114-128 -/
def ofU16 (v : UInt16) : Res TkeyMode :=
  match v with
  | 1 => .ok .serverAssignment
  | 2 => .ok .diffieHellmanExchange
  | 3 => .ok .gssApiNegotiation
  | 4 => .ok .resolverAssignment
  | 5 => .ok .keyDeletion
  | v => if 6 ≤ v ∧ v ≤ 65534 then .ok (.available v) else .err (.invalidTkeyMode v)
/-- src/rdata/tkey.rs:130-141 -/
def toU16 : TkeyMode → UInt16
  | .serverAssignment => 1
  | .diffieHellmanExchange => 2
  | .gssApiNegotiation => 3
  | .resolverAssignment => 4
  | .keyDeletion => 5
  | .available v => v
end TkeyMode

/-- src/rdata/tkey.rs:144-153 `enum Error`. -/
inductive TkeyError where
  | none
  | nonExtendedRcode (n : UInt16)
  | badSig | badKey | badTime | badMode | badName | badAlg
  deriving DecidableEq, Repr
namespace TkeyError
/-- src/rdata/tkey.rs:155-171 -/
def ofU16 (v : UInt16) : Res TkeyError :=
  match v with
  | 0 => .ok .none
  | 16 => .ok .badSig
  | 17 => .ok .badKey
  | 18 => .ok .badTime
  | 19 => .ok .badMode
  | 20 => .ok .badName
  | 21 => .ok .badAlg
  | v => if 1 ≤ v ∧ v ≤ 15 then .ok (.nonExtendedRcode v) else .err (.invalidTkeyError v)
/-- src/rdata/tkey.rs:173-186 -/
def toU16 : TkeyError → UInt16
  | .none => 0
  | .nonExtendedRcode v => v
  | .badSig => 16
  | .badKey => 17
  | .badTime => 18
  | .badMode => 19
  | .badName => 20
  | .badAlg => 21
end TkeyError

/-- src/rdata/tkey.rs:10-42 `struct Tkey`. -/
structure Tkey where
  algorithm : Fqdn
  inception : UInt32
  expiration : UInt32
  mode : TkeyMode
  error : TkeyError
  keyData : Bytes
  otherData : Bytes
  deriving DecidableEq, Repr
namespace Tkey
/-- src/rdata/tkey.rs:47-67 -/
def parse : Parser Tkey := do
  let n ← extractFqdn
  let i ← extractU32
  let e ← extractU32
  let m ← extractU16
  let m ← Parser.lift (TkeyMode.ofU16 m)
  let er ← extractU16
  let er ← Parser.lift (TkeyError.ofU16 er)
  let ks ← extractU16
  let k ← extractBytes ks.toNat
  let os ← extractU16
  let o ← extractBytes os.toNat
  return ⟨n, i, e, m, er, k, o⟩
/-- src/rdata/tkey.rs:81-87 -/
def byteSize (r : Tkey) : Nat :=
  r.algorithm.byteSize + 2 * 4 + 4 * 2 + r.keyData.length + r.otherData.length
/-- src/rdata/tkey.rs:89-101 -/
def toBytes (r : Tkey) : Bytes :=
  r.algorithm.toBytes ++ u32be r.inception ++ u32be r.expiration ++ u16be r.mode.toU16
    ++ u16be r.error.toU16 ++ u16be (lenU16 r.keyData.length) ++ r.keyData
    ++ u16be (lenU16 r.otherData.length) ++ r.otherData
end Tkey

/-- src/rdata/tsig.rs:124-130 `enum Error`. -/
inductive TsigError where
  | none | badSig | badKey | badTime | badTrunc
  deriving DecidableEq, Repr
namespace TsigError
/-- src/rdata/tsig.rs:132-145 (the error variant is the one of TKEY) -/
def ofU16 (v : UInt16) : Res TsigError :=
  match v with
  | 0 => .ok .none
  | 16 => .ok .badSig
  | 17 => .ok .badKey
  | 18 => .ok .badTime
  | 22 => .ok .badTrunc
  | v => .err (.invalidTkeyError v)
/-- src/rdata/tsig.rs:147-157 -/
def toU16 : TsigError → UInt16
  | .none => 0
  | .badSig => 16
  | .badKey => 17
  | .badTime => 18
  | .badTrunc => 22
end TsigError

/-- src/rdata/tsig.rs:19-59 `struct Tsig`. -/
structure Tsig where
  algorithm : Fqdn
  timeSigned : UInt64
  fudge : UInt16
  mac : Bytes
  originalId : UInt16
  error : TsigError
  otherData : Bytes
  deriving DecidableEq, Repr
namespace Tsig
/-- src/rdata/tsig.rs:64-85: six octets are copied behind two zero octets. -/
def parse : Parser Tsig := do
  let n ← extractFqdn
  let t ← extractBytes 6
  let f ← extractU16
  let ml ← extractU16
  let m ← extractBytes ml.toNat
  let id ← extractU16
  let e ← extractU16
  let e ← Parser.lift (TsigError.ofU16 e)
  let ol ← extractU16
  let o ← extractBytes ol.toNat
  return ⟨n, UInt64.ofNat (ofBE (0 :: 0 :: t)), f, m, id, e, o⟩
/-- src/rdata/tsig.rs:99-105 -/
def byteSize (r : Tsig) : Nat :=
  r.algorithm.byteSize + 6 + 5 * 2 + r.mac.length + r.otherData.length
/-- src/rdata/tsig.rs:107-120 (without the `println!`, for which see Model/Output.lean) -/
def toBytes (r : Tsig) : Bytes :=
  r.algorithm.toBytes ++ (u64be r.timeSigned).drop 2 ++ u16be r.fudge
    ++ u16be (lenU16 r.mac.length) ++ r.mac ++ u16be r.originalId ++ u16be r.error.toU16
    ++ u16be (lenU16 r.otherData.length) ++ r.otherData
end Tsig

end Dns
