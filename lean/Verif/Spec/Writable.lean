import Verif.Spec.RData
import Verif.Spec.Utf8
import Verif.Spec.Message

/-
Values whose parts fit into the fields of the wire format.  The API lets a caller build values that
do not (a TXT string of 300 octets, an empty label, ...); no encoding can represent them.
-/

namespace Dns.Spec

/-- All labels have 1 to `max` octets (RFC 1035: 63). -/
def NameOk (max : Nat) (n : Fqdn) : Prop := ∀ l ∈ n, 1 ≤ l.length ∧ l.length ≤ max

instance (max : Nat) (n : Fqdn) : Decidable (NameOk max n) := by unfold NameOk; infer_instance

/-- A set of record types as the list of its elements in increasing order (`BTreeSet`), all of them
readable in the build. -/
def TypesOk (cfg : Cfg) (types : List RecordType) : Prop :=
  types.Pairwise (fun a b => typeNumber a < typeNumber b) ∧ ∀ t ∈ types, Readable cfg t

/-- Parameters of SVCB records that fit: values of less than 65532 octets (the length field could
hold 65535, but the crate computes it as 16-bit size of the whole parameter minus 4). -/
def ParamFits (p : Param) : Prop := paramOk p ∧ (Items.octets (paramValue p)).length < 65532

/-- Record data that can be represented on the wire, with labels of at most `max` octets.  `String`
fields are UTF-8, sets are in increasing order and maps have distinct keys in every Rust value; the
other conditions are those of the fields. -/
def Writable (cfg : Cfg) (max : Nat) : RecordData → Prop
  | .A _ | .AAAA _ | .NULL _ | .WKS _ | .LOC _ | .APL _ | .DS _ | .CDS _ | .SSHFP _ | .DNSKEY _
  | .CDNSKEY _ | .DHCID _ | .TLSA _ | .OPENPGPKEY _ | .EUI48 _ | .EUI64 _ | .URI _ => True
  | .NS r => NameOk max r.nsdname
  | .CNAME r => NameOk max r.cname
  | .PTR r => NameOk max r.ptrdname
  | .MX r => NameOk max r.exchange
  | .SRV r => NameOk max r.target
  | .SOA r => NameOk max r.mname ∧ NameOk max r.rname
  | .MINFO r => NameOk max r.rmailbx ∧ NameOk max r.emailbx
  | .HINFO r => r.cpu.length < 256 ∧ r.os.length < 256
  | .TXT r => ∀ s ∈ r.strings, s.length < 256 ∧ IsUtf8 s
  | .NAPTR r => r.flags.length < 256 ∧ r.service.length < 256 ∧ r.regexp.length < 256 ∧
      IsUtf8 r.regexp ∧ NameOk max r.replacement
  | .OPT r => (r.options.map Prod.fst).Nodup ∧ ∀ o ∈ r.options, o.2.length < 65536
  | .IPSECKEY r => match r.gateway with
      | .domain n => NameOk max n
      | _ => True
  | .RRSIG r => Readable cfg r.typeCovered ∧ NameOk max r.signersName
  | .NSEC r => NameOk max r.nextDomainName ∧ TypesOk cfg r.types
  | .CSYNC r => r.flags.bits.toNat < 4 ∧ TypesOk cfg r.types
  | .HIP r => r.hit.length < 256 ∧ r.publicKey.length < 65536 ∧ r.rendevousServer ≠ some [] ∧
      ∀ n ∈ r.rendevousServer.getD [], NameOk max n
  | .SVCB r => NameOk max r.targetName ∧
      r.params.Pairwise (fun a b => paramKeyNumber a.key < paramKeyNumber b.key) ∧
      ∀ p ∈ r.params, ParamFits p
  | .TKEY r => NameOk max r.algorithm ∧ modeOk r.mode ∧ errorOk r.error ∧
      r.keyData.length < 65536 ∧ r.otherData.length < 65536
  | .TSIG r => NameOk max r.algorithm ∧ r.timeSigned.toNat < 2 ^ 48 ∧ r.mac.length < 65536 ∧
      r.otherData.length < 65536
  | .CAA r => r.tag ≠ [] ∧ r.tag.length < 256 ∧ IsUtf8 r.tag

/-- `BTreeSet<RecordType>` fields: the elements in increasing order. -/
def SetsOk : RecordData → Prop
  | .NSEC r => r.types.Pairwise (fun a b => typeNumber a < typeNumber b)
  | .CSYNC r => r.types.Pairwise (fun a b => typeNumber a < typeNumber b)
  | _ => True

/-- Difference between `byte_size()` and the number of octets written: OPT (the option headers are
not counted, but two octets too many), CAA (the tag is not counted), RRSIG (one octet too few), SVCB
(the headers of the parameters are counted twice). -/
def sizeError : RecordData → Int
  | .OPT r => 2 - 4 * r.options.length
  | .CAA r => - r.tag.length
  | .RRSIG _ => -1
  | .SVCB r => 4 * r.params.length
  | _ => 0

/-- The domain names in record data. -/
def rdataNames : RecordData → List Fqdn
  | .NS r => [r.nsdname]
  | .CNAME r => [r.cname]
  | .PTR r => [r.ptrdname]
  | .MX r => [r.exchange]
  | .SRV r => [r.target]
  | .SOA r => [r.mname, r.rname]
  | .MINFO r => [r.rmailbx, r.emailbx]
  | .NAPTR r => [r.replacement]
  | .IPSECKEY r => match r.gateway with
      | .domain n => [n]
      | _ => []
  | .RRSIG r => [r.signersName]
  | .NSEC r => [r.nextDomainName]
  | .HIP r => r.rendevousServer.getD []
  | .SVCB r => [r.targetName]
  | .TKEY r => [r.algorithm]
  | .TSIG r => [r.algorithm]
  | _ => []

/-- Questions that can be represented on the wire; the mDNS bit exists only with the feature. -/
def QuestionOk (cfg : Cfg) (max : Nat) (q : Question) : Prop :=
  NameOk max q.qName ∧ QReadable cfg q.qType ∧ (q.unicastResponse = true → cfg.mdns = true)

/-- Records that can be represented on the wire: the data belong to the type, the class is a canonical
15-bit number, and the data have less than 65536 octets. -/
def RecordOk (cfg : Cfg) (max : Nat) (r : ResourceRecord) : Prop :=
  NameOk max r.name ∧ Readable cfg r.type ∧ r.rdata.type = r.type ∧ classOk r.class_ ∧
  classNumber r.class_ < 32768 ∧ (r.cacheFlush = true → cfg.mdns = true) ∧
  Writable cfg max r.rdata ∧ ∀ b, r.rdata.toBytes cfg = .ok b → b.length < 65536

/-- The records of a packet. -/
def records (p : Packet) : List ResourceRecord := p.answers ++ p.authorities ++ p.additional

/-- Packets that can be represented on the wire: the sections have less than 65536 elements. -/
def PacketOk (cfg : Cfg) (max : Nat) (p : Packet) : Prop :=
  (∀ q ∈ p.questions, QuestionOk cfg max q) ∧ (∀ r ∈ records p, RecordOk cfg max r) ∧
  p.questions.length < 65536 ∧ p.answers.length < 65536 ∧ p.authorities.length < 65536 ∧
  p.additional.length < 65536

/-- The counts of the header are the numbers of elements. -/
def CountsOk (p : Packet) : Prop :=
  p.header.quesCount.toNat = p.questions.length ∧ p.header.ansCount.toNat = p.answers.length ∧
  p.header.authCount.toNat = p.authorities.length ∧ p.header.addCount.toNat = p.additional.length

/-- The packet with the counts of its header corrected. -/
def withCounts (p : Packet) : Packet :=
  { p with header := { p.header with
      quesCount := UInt16.ofNat p.questions.length, ansCount := UInt16.ofNat p.answers.length,
      authCount := UInt16.ofNat p.authorities.length, addCount := UInt16.ofNat p.additional.length } }

/-- The domain names of a packet. -/
def packetNames (p : Packet) : List Fqdn :=
  p.questions.map Question.qName ++ (records p).flatMap (fun r => r.name :: rdataNames r.rdata)

/-- Fields that can be longer after reading than on the wire: octets that are not UTF-8 become three
octets each. -/
def TextFits : RecordData → Prop
  | .TXT r => ∀ s ∈ r.strings, s.length < 256
  | .CAA r => r.tag.length < 256
  | _ => True

/-- What is needed to write a record that has been read: texts fit (`TextFits`), and the data, with all
names written out, have less than 65536 octets. -/
def Rewritable (cfg : Cfg) (r : ResourceRecord) : Prop :=
  TextFits r.rdata ∧ ∀ b, r.rdata.toBytes cfg = .ok b → b.length < 65536

end Dns.Spec
