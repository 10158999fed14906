import Verif.Spec.Wire
import Verif.Spec.Numbers

/-
RDATA formats of the RFCs: `RData cfg r its` says that the items `its` are an encoding of the record
data `r`.  Where the crate does not keep everything that is on the wire (unknown NAPTR flags, unused
flag bits, repeated EDNS options, octets that are not UTF-8), several encodings denote the same `r`.
-/

namespace Dns.Spec
open Item

/-- Octet of a number below 256. -/
def o8 (n : Nat) : Item := .u8 (UInt8.ofNat n)
/-- Two octets of a number below 65536. -/
def o16 (n : Nat) : Item := .u16 (UInt16.ofNat n)

/-- Type bitmaps (RFC 4034, section 4.1.2): each window has a number and a bitmap preceded by its
length. -/
def windowItems (ws : List (UInt8 × Bytes)) : List Item :=
  ws.flatMap (fun w => [.u8 w.1, .str w.2])

/-- Bit number `b` (0 is the most significant) of octet number `k` of the window is set, and stands
for type `t`. -/
def BitSet (w : UInt8 × Bytes) (t : Nat) : Prop :=
  ∃ k b octet, w.2[k]? = some octet ∧ b < 8 ∧ octet.toNat.testBit (7 - b) = true ∧
    t = 256 * w.1.toNat + 8 * k + b

/-- `types` are, in increasing order and without repetition, the types whose bits are set; all of
them are types the build knows.  Type numbers are 16-bit numbers: a bit beyond 65535 (only possible
if window 255 has more than the 32 octets the RFC allows) is a number modulo 65536 in a build
without overflow checks. -/
structure TypesOf (cfg : Cfg) (ws : List (UInt8 × Bytes)) (types : List RecordType) : Prop where
  sorted : types.Pairwise (fun a b => typeNumber a < typeNumber b)
  known : ∀ t ∈ types, Readable cfg t
  bits : ∀ n, (∃ w ∈ ws, ∃ m, BitSet w m ∧ n = m % 65536) ↔ ∃ t ∈ types, typeNumber t = n
  small : cfg.overflowChecks = true → ∀ w ∈ ws, ∀ m, BitSet w m → m < 65536

/-- EDNS options as they come on the wire: code, length, data. -/
def optionItems (kvs : List (UInt16 × Bytes)) : List Item :=
  kvs.flatMap (fun kv => [.u16 kv.1, .str16 kv.2])

/-- Value of the last option with code `k`. -/
def lastValue (kvs : List (UInt16 × Bytes)) (k : UInt16) : Bytes := (kvs.reverse.lookup k).getD []

/-- The map in which every code has the value it has last (codes in the order of their first
occurrence). -/
def mapOf (kvs : List (UInt16 × Bytes)) : List (UInt16 × Bytes) :=
  ((kvs.map Prod.fst).eraseDups).map (fun k => (k, lastValue kvs k))

/-- The NAPTR flag an octet stands for. -/
def flagOf (b : UInt8) : Option NaptrFlag := [NaptrFlag.S, .A, .U, .P].find? (fun f => flagNumber f == b.toNat)

/-- Value of a SVCB parameter (RFC 9460, section 7; the crate has one address per hint). -/
def paramValue : Param → List Item
  | .mandatory keys => keys.map (fun k => o16 (paramKeyNumber k))
  | .alpn ids => ids.map .str
  | .noDefaultAlpn => []
  | .port p => [.u16 p]
  | .ipV4Hint a => [.u32 a]
  | .ech b => [.raw b]
  | .ipV6Hint a => [.num 16 a.toNat]
  | .private _ b => [.raw b]
  | .invalid => []

/-- RFC 9460, section 2.2: key, length of the value, value. -/
def paramItems (p : Param) : List Item :=
  [o16 (paramKeyNumber p.key), .str16 (Items.octets (paramValue p))]

/-- Canonical modes: the numbers with a name are not `available`. -/
def modeOk : TkeyMode → Prop
  | .available n => 6 ≤ n.toNat ∧ n.toNat ≤ 65534
  | _ => True

/-- Canonical errors: the response codes 1 to 15. -/
def errorOk : TkeyError → Prop
  | .nonExtendedRcode n => 1 ≤ n.toNat ∧ n.toNat ≤ 15
  | _ => True

/-- Canonical parameter keys: private keys are 65280 to 65534. -/
def keyOk : ParamKey → Prop
  | .private n => 65280 ≤ n.toNat ∧ n.toNat ≤ 65534
  | _ => True

/-- Canonical parameters: canonical keys; the keys of `mandatory` in increasing order (RFC 9460,
section 8: they must not be repeated, and are sorted); ALPN identifiers of less than 256 octets. -/
def paramOk : Param → Prop
  | .mandatory keys => (∀ k ∈ keys, keyOk k) ∧
      keys.Pairwise (fun a b => paramKeyNumber a < paramKeyNumber b)
  | .alpn ids => ∀ a ∈ ids, a.length < 256
  | .private n _ => keyOk (.private n)
  | _ => True

/-- Gateway of an IPSECKEY record: type and octets (RFC 4025, section 2.5; type 0: no gateway is
present). -/
def gatewayItems : Gateway → Nat × List Item
  | .none => (0, [])
  | .ipV4 a => (1, [.u32 a])
  | .ipV6 a => (2, [.num 16 a.toNat])
  | .domain n => (3, [.name n])

/-- RFC 3123: address of family 1 or 2; trailing zero octets can be left out. -/
def afdOf (afd : Afd) (part : Bytes) : Prop :=
  match afd with
  | .ipV4 a => part.length ≤ 4 ∧ valueOf (part ++ List.replicate (4 - part.length) 0) = a.toNat
  | .ipV6 a => part.length ≤ 16 ∧ valueOf (part ++ List.replicate (16 - part.length) 0) = a.toNat

/-- Address family numbers of RFC 3123. -/
def familyNumber : Afd → Nat
  | .ipV4 _ => 1
  | .ipV6 _ => 2

/-- RFC 4034: key tag, algorithm, digest type, digest. -/
def dsItems (r : Ds) : List Item :=
  [.u16 r.keyTag, o8 (secAlgorithmNumber r.algorithm), o8 (digestNumber r.digestType),
    .rest r.digest]

/-- RFC 4034: flags (bit 7 is the zone key flag, bit 15 the secure entry point), protocol, algorithm,
key. -/
def DnsKeyItems (r : DnsKey) (its : List Item) : Prop :=
  ∃ flags : UInt16, its = [.u16 flags, .u8 r.protocol, o8 (secAlgorithmNumber r.algorithm),
      .rest r.publicKey] ∧
    r.zoneKey = flags.toNat.testBit 8 ∧ r.secureEntryPoint = flags.toNat.testBit 0

/-- The encodings of record data. -/
def RData (cfg : Cfg) : RecordData → List Item → Prop
  -- RFC 1035
  | .A r, its => its = [.u32 r.addr]
  | .NS r, its => its = [.name r.nsdname]
  | .CNAME r, its => its = [.name r.cname]
  | .SOA r, its => its = [.name r.mname, .name r.rname, .u32 r.serial, .u32 r.refresh, .u32 r.retry,
      .u32 r.expire, .u32 r.minimum]
  | .NULL r, its => its = [.rest r.anything]
  | .WKS r, its => its = [.u32 r.address, .u8 r.protocol, .rest r.bitmap]
  | .PTR r, its => its = [.name r.ptrdname]
  | .HINFO r, its => its = [.str r.cpu, .str r.os]
  | .MINFO r, its => its = [.name r.rmailbx, .name r.emailbx]
  | .MX r, its => its = [.u16 r.preference, .name r.exchange]
  | .TXT r, its => ∃ ws : List Bytes, its = ws.map .str ++ [.eof] ∧ r.strings = ws.map utf8Lossy
  -- RFC 3596
  | .AAAA r, its => its = [.num 16 r.addr.toNat]
  -- RFC 1876
  | .LOC r, its => its = [.u8 r.version, .u8 r.size, .u8 r.horizPre, .u8 r.vertPre, .u32 r.latitude,
      .u32 r.longitude, .u32 r.altitude]
  -- RFC 2782
  | .SRV r, its => its = [.u16 r.priority, .u16 r.weight, .u16 r.port, .name r.target]
  -- RFC 3403
  | .NAPTR r, its => ∃ fl : Bytes, its = [.u16 r.order, .u16 r.preference, .str fl, .str r.service,
      .str r.regexp, .name r.replacement] ∧ r.flags = fl.filterMap flagOf ∧ utf8Valid r.regexp = true
  -- RFC 6891
  | .OPT r, its => ∃ kvs, its = optionItems kvs ++ [.eof] ∧ r.options = mapOf kvs
  -- RFC 3123, one address
  | .APL r, its => ∃ part, its = [o16 (familyNumber r.afd), .u8 r.prefix,
      o8 ((if r.n then 128 else 0) + part.length), .raw part] ∧ afdOf r.afd part
  -- RFC 4034
  | .DS r, its => its = dsItems r
  -- RFC 4255
  | .SSHFP r, its => its = [o8 (algorithmNumber r.algorithm), o8 (fingerprintNumber r.fingerprintType),
      .rest r.fingerprint]
  -- RFC 4025
  | .IPSECKEY r, its => its = [.u8 r.precedence, o8 (gatewayItems r.gateway).1,
      o8 (algorithmNumber r.algorithm)] ++ (gatewayItems r.gateway).2 ++ [.rest r.publicKey]
  -- RFC 4034
  | .RRSIG r, its => Readable cfg r.typeCovered ∧
      its = [o16 (typeNumber r.typeCovered), o8 (secAlgorithmNumber r.algorithm), .u8 r.labels,
        .u32 r.originalTtl, .u32 r.sigExpiration, .u32 r.sigInception, .u16 r.keyTag,
        .name r.signersName, .rest r.signature]
  | .NSEC r, its => ∃ ws, its = .name r.nextDomainName :: windowItems ws ++ [.eof] ∧
      TypesOf cfg ws r.types
  | .DNSKEY r, its => DnsKeyItems r its
  -- RFC 4701
  | .DHCID r, its => its = [o16 (identifierNumber r.identifierCode), .u8 1, .rest r.digest]
  -- RFC 6698
  | .TLSA r, its => its = [o8 (certUsageNumber r.certUsage), o8 (selectorNumber r.selector),
      o8 (matchingNumber r.matchingType), .rest r.associatedData]
  -- RFC 8005
  | .HIP r, its => r.hit.length < 256 ∧ r.publicKey.length < 65536 ∧ r.rendevousServer ≠ some [] ∧
      its = [o8 r.hit.length, o8 (algorithmNumber r.publicKeyAlgorithm), o16 r.publicKey.length,
        .raw r.hit, .raw r.publicKey] ++ (r.rendevousServer.getD []).map .name ++ [.eof]
  -- RFC 7344
  | .CDS r, its => its = dsItems r
  | .CDNSKEY r, its => DnsKeyItems r its
  -- RFC 7929
  | .OPENPGPKEY r, its => its = [.rest r.key]
  -- RFC 7477
  | .CSYNC r, its => ∃ ws, its = [.u32 r.soaSerial, .u16 r.flags.bits] ++ windowItems ws ++ [.eof] ∧
      r.flags.bits.toNat < 4 ∧ TypesOf cfg ws r.types
  -- RFC 9460
  | .SVCB r, its => its = [.u16 r.priority, .name r.targetName] ++ r.params.flatMap paramItems ++ [.eof] ∧
      r.params.Pairwise (fun a b => paramKeyNumber a.key < paramKeyNumber b.key) ∧
      ∀ p ∈ r.params, paramOk p
  -- RFC 7043
  | .EUI48 r, its => its = [.num 6 r.addr.toNat]
  | .EUI64 r, its => its = [.num 8 r.addr.toNat]
  -- RFC 2930
  | .TKEY r, its => modeOk r.mode ∧ errorOk r.error ∧
      its = [.name r.algorithm, .u32 r.inception, .u32 r.expiration, o16 (tkeyModeNumber r.mode),
        o16 (tkeyErrorNumber r.error), .str16 r.keyData, .str16 r.otherData]
  -- RFC 8945
  | .TSIG r, its => its = [.name r.algorithm, .num 6 r.timeSigned.toNat, .u16 r.fudge, .str16 r.mac,
      .u16 r.originalId, o16 (tsigErrorNumber r.error), .str16 r.otherData]
  -- RFC 7553
  | .URI r, its => its = [.u16 r.priority, .u16 r.weight, .rest r.target]
  -- RFC 8659
  | .CAA r, its => ∃ (flags : UInt8) (tag : Bytes), its = [.u8 flags, .str tag, .rest r.value] ∧
      tag ≠ [] ∧ r.issuerCritical = flags.toNat.testBit 7 ∧ r.tag = utf8Lossy tag

end Dns.Spec
