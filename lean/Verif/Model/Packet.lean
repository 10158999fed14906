import Verif.Model.RecordData
import Verif.Model.Header

/-
src/question.rs, src/resource.rs and src/packet.rs.
-/

namespace Dns
open Buf

/-- src/question.rs:248-258 `struct Question`.  The last field only exists with the feature `mdns`;
without it the model keeps it `false`. -/
structure Question where
  qName : Fqdn
  qType : QType
  qClass : QClass
  unicastResponse : Bool
  deriving DecidableEq, Repr

namespace Question
/-- src/question.rs:262-270 `new` -/
def new (n : Fqdn) (t : QType) (c : QClass) : Question := ⟨n, t, c, false⟩

/-- src/question.rs:310-335 -/
def parse (cfg : Cfg) : Parser Question := do
  let n ← extractFqdn
  let t ← extractU16
  let t ← Parser.lift (QType.ofU16 cfg t)
  let v ← extractU16
  if cfg.mdns then
    if v &&& 0x8000 > 0 then
      let c ← Parser.lift (QClass.ofU16 (v &&& ~~~0x8000))
      return ⟨n, t, c, true⟩
    else
      let c ← Parser.lift (QClass.ofU16 v)
      return ⟨n, t, c, false⟩
  else
    let c ← Parser.lift (QClass.ofU16 v)
    return ⟨n, t, c, false⟩

/-- src/question.rs:339-341 -/
def byteSize (q : Question) : Nat := q.qName.byteSize + 2 + 2

/-- src/question.rs:350-361 -/
def classBits (cfg : Cfg) (q : Question) : UInt16 :=
  if cfg.mdns then
    if q.unicastResponse then q.qClass.toU16 ||| 0x8000 else q.qClass.toU16
  else q.qClass.toU16

/-- src/question.rs:343-364 -/
def toBytes (cfg : Cfg) (q : Question) : Bytes :=
  q.qName.toBytes ++ u16be q.qType.toU16 ++ u16be (q.classBits cfg)

/-- src/question.rs:372-394 -/
def toBytesCompressed (cfg : Cfg) (h : Hash) (q : Question) (names : Names) (offset : Nat) :
    Bytes × Names :=
  let n := q.qName.toBytesCompressed h names offset
  (n.1 ++ u16be q.qType.toU16 ++ u16be (q.classBits cfg), n.2)
end Question

/-- src/resource.rs:272-289 `struct ResourceRecord`.  `cacheFlush` only exists with the feature
`mdns`; without it the model keeps it `false`. -/
structure ResourceRecord where
  name : Fqdn
  type : RecordType
  cacheFlush : Bool
  class_ : RecordClass
  ttl : UInt32
  rdata : RecordData
  deriving DecidableEq, Repr

namespace ResourceRecord
/-- src/resource.rs:293-309 `new` -/
def new (n : Fqdn) (t : RecordType) (c : RecordClass) (ttl : UInt32) (d : RecordData) :
    ResourceRecord := ⟨n, t, false, c, ttl, d⟩

/-- src/resource.rs:382-394 -/
def parseClass (cfg : Cfg) : Parser (RecordClass × Bool) := do
  let v ← extractU16
  if cfg.mdns then
    if v &&& 0x8000 > 0 then return (RecordClass.ofU16 (v &&& ~~~0x8000), true)
    else return (RecordClass.ofU16 v, false)
  else return (RecordClass.ofU16 v, false)

/-- src/resource.rs:377-414 -/
def parse (cfg : Cfg) : Parser ResourceRecord := do
  let n ← extractFqdn
  let t ← extractU16
  let t ← Parser.lift (RecordType.ofU16 cfg t)
  let c ← parseClass cfg
  let ttl ← extractU32
  let len ← extractU16
  let d ← withSubBuffer len.toNat (RecordData.parse cfg t)
  advance len.toNat
  return ⟨n, t, c.2, c.1, ttl, d.1⟩

/-- src/resource.rs:418-425 -/
def byteSize (cfg : Cfg) (r : ResourceRecord) : Res Nat := do
  let n ← r.rdata.byteSize cfg
  return r.name.byteSize + 2 + 2 + 4 + 2 + n

/-- src/resource.rs:432-443 -/
def classBits (cfg : Cfg) (r : ResourceRecord) : UInt16 :=
  if cfg.mdns then
    if r.cacheFlush then r.class_.toU16 ||| 0x8000 else r.class_.toU16
  else r.class_.toU16

/-- src/resource.rs:427-452: the length field is computed by `rdata.byte_size()`. -/
def toBytes (cfg : Cfg) (r : ResourceRecord) : Res Bytes := do
  let size ← r.rdata.byteSize cfg
  let data ← r.rdata.toBytes cfg
  return r.name.toBytes ++ u16be r.type.toU16 ++ u16be (r.classBits cfg) ++ u32be r.ttl
    ++ u16be (lenU16 size) ++ data

/-- src/resource.rs:468-485: everything before the length field -/
def headCompressed (cfg : Cfg) (h : Hash) (r : ResourceRecord) (names : Names) (offset : Nat) :
    Bytes × Names :=
  let n := r.name.toBytesCompressed h names offset
  (n.1 ++ u16be r.type.toU16 ++ u16be (r.classBits cfg) ++ u32be r.ttl, n.2)

/-- src/resource.rs:465-495 -/
def toBytesCompressed (cfg : Cfg) (h : Hash) (r : ResourceRecord) (names : Names) (offset : Nat) :
    Res (Bytes × Names) := do
  let head := r.headCompressed cfg h names offset
  let data ← r.rdata.toBytesCompressed cfg h head.2 (offset + head.1.length + 2)
  return (head.1 ++ u16be (lenU16 data.1.length) ++ data.1, data.2)
end ResourceRecord

/-- src/packet.rs:27-46 `struct Packet`. -/
structure Packet where
  header : Header
  questions : List Question
  answers : List ResourceRecord
  authorities : List ResourceRecord
  additional : List ResourceRecord
  deriving DecidableEq, Repr

namespace Packet

/-- src/packet.rs:52-60 -/
def newQuery (id : UInt16) (rd : Bool) : Packet := ⟨Header.newQuery id rd, [], [], [], []⟩
/-- src/packet.rs:65-73 -/
def newReply (id : UInt16) : Packet := ⟨Header.newReply id .standardQuery, [], [], [], []⟩
/-- src/packet.rs:78-86: the question count of the header stays 0. -/
def withQuestions (id : UInt16) (rc : Bool) (qs : List Question) : Packet :=
  ⟨Header.newQuery id rc, qs, [], [], []⟩
/-- `Packet::default()` (derived, src/packet.rs:26) -/
def default : Packet := ⟨Header.default, [], [], [], []⟩

/-- `+= 1` on a `u16` count.  Used at src/packet.rs:176, 195, 214 and 233. -/
def incr (cfg : Cfg) (n : UInt16) : Res UInt16 := do
  let m ← addU16 cfg n.toNat 1
  return UInt16.ofNat m

/-- src/packet.rs:92-94 -/
def setId (p : Packet) (id : UInt16) : Packet := { p with header := { p.header with id := id } }
/-- src/packet.rs:157-159 -/
def setHeader (p : Packet) (h : Header) : Packet := { p with header := h }
/-- src/packet.rs:165-167 `questions_mut`: the caller may replace the vector; the counts do not
change. -/
def questionsMut (p : Packet) (qs : List Question) : Packet := { p with questions := qs }
/-- src/packet.rs:169-172 -/
def takeQuestions (p : Packet) : Packet × List Question :=
  ({ p with header := { p.header with quesCount := 0 }, questions := [] }, p.questions)
/-- src/packet.rs:174-177 -/
def addQuestion (cfg : Cfg) (p : Packet) (q : Question) : Res Packet := do
  let n ← incr cfg p.header.quesCount
  return { p with header := { p.header with quesCount := n }, questions := p.questions ++ [q] }
/-- src/packet.rs:179-182 -/
def setQuestions (p : Packet) (qs : List Question) : Packet :=
  { p with header := { p.header with quesCount := lenU16 qs.length }, questions := qs }
/-- src/packet.rs:188-191 -/
def takeAnswers (p : Packet) : Packet × List ResourceRecord :=
  ({ p with header := { p.header with ansCount := 0 }, answers := [] }, p.answers)
/-- src/packet.rs:193-196 -/
def addAnswer (cfg : Cfg) (p : Packet) (r : ResourceRecord) : Res Packet := do
  let n ← incr cfg p.header.ansCount
  return { p with header := { p.header with ansCount := n }, answers := p.answers ++ [r] }
/-- src/packet.rs:198-201 -/
def setAnswers (p : Packet) (rs : List ResourceRecord) : Packet :=
  { p with header := { p.header with ansCount := lenU16 rs.length }, answers := rs }
/-- src/packet.rs:207-210: resets the *answer* count. -/
def takeAuthorities (p : Packet) : Packet × List ResourceRecord :=
  ({ p with header := { p.header with ansCount := 0 }, authorities := [] }, p.authorities)
/-- src/packet.rs:212-215 -/
def addAuthority (cfg : Cfg) (p : Packet) (r : ResourceRecord) : Res Packet := do
  let n ← incr cfg p.header.authCount
  return { p with header := { p.header with authCount := n }, authorities := p.authorities ++ [r] }
/-- src/packet.rs:217-220 -/
def setAuthorities (p : Packet) (rs : List ResourceRecord) : Packet :=
  { p with header := { p.header with authCount := lenU16 rs.length }, authorities := rs }
/-- src/packet.rs:226-229 -/
def takeAdditionals (p : Packet) : Packet × List ResourceRecord :=
  ({ p with header := { p.header with addCount := 0 }, additional := [] }, p.additional)
/-- src/packet.rs:231-234 -/
def addAdditional (cfg : Cfg) (p : Packet) (r : ResourceRecord) : Res Packet := do
  let n ← incr cfg p.header.addCount
  return { p with header := { p.header with addCount := n }, additional := p.additional ++ [r] }
/-- src/packet.rs:236-239 -/
def setAdditionals (p : Packet) (rs : List ResourceRecord) : Packet :=
  { p with header := { p.header with addCount := lenU16 rs.length }, additional := rs }

/-- src/packet.rs:247-249: one loop of the compressing writer, `bin` is the output so far. -/
def questionsCompressed (cfg : Cfg) (h : Hash) : List Question → Names → Bytes → Bytes × Names
  | [], names, bin => (bin, names)
  | q :: qs, names, bin =>
    let r := q.toBytesCompressed cfg h names bin.length
    questionsCompressed cfg h qs r.2 (bin ++ r.1)

/-- src/packet.rs:250-258: the loops over the record sections. -/
def recordsCompressed (cfg : Cfg) (h : Hash) :
    List ResourceRecord → Names → Bytes → Res (Bytes × Names)
  | [], names, bin => return (bin, names)
  | q :: qs, names, bin => do
    let r ← q.toBytesCompressed cfg h names bin.length
    recordsCompressed cfg h qs r.2 (bin ++ r.1)

/-- src/packet.rs:242-261 `to_bytes_compressed`: the header is written as it is. -/
def toBytesCompressed (cfg : Cfg) (h : Hash) (p : Packet) : Res Bytes := do
  let q := questionsCompressed cfg h p.questions Names.empty p.header.toBytes
  let an ← recordsCompressed cfg h p.answers q.2 q.1
  let au ← recordsCompressed cfg h p.authorities an.2 an.1
  let ad ← recordsCompressed cfg h p.additional au.2 au.1
  return ad.1

/-- src/packet.rs:270-278: `size += rec.byte_size()` over a section -/
def recordsSize (cfg : Cfg) : List ResourceRecord → Nat → Res Nat
  | [], size => return size
  | r :: rs, size => do
    let n ← r.byteSize cfg
    recordsSize cfg rs (size + n)

/-- src/packet.rs:265-280 `byte_size` -/
def byteSize (cfg : Cfg) (p : Packet) : Res Nat := do
  let size := p.questions.foldl (fun s q => s + q.byteSize) Header.SIZE
  let size ← recordsSize cfg p.answers size
  let size ← recordsSize cfg p.authorities size
  recordsSize cfg p.additional size

/-- src/packet.rs:318-326: `bin.extend_from_slice(&rec.to_bytes())` over a section -/
def recordsBytes (cfg : Cfg) : List ResourceRecord → Bytes → Res Bytes
  | [], bin => return bin
  | r :: rs, bin => do
    let b ← r.toBytes cfg
    recordsBytes cfg rs (bin ++ b)

/-- src/packet.rs:298-313: the header octets with the eight octets of the counts overwritten by
the lengths of the sections.  The raw pointer writes are modelled by their effect on the
vector (they are in bounds since the header has twelve octets). -/
def headerBytes (p : Packet) : Bytes :=
  (p.header.toBytes).take 4 ++ u16be (lenU16 p.questions.length) ++ u16be (lenU16 p.answers.length)
    ++ u16be (lenU16 p.authorities.length) ++ u16be (lenU16 p.additional.length)

/-- src/packet.rs:282-329 `to_bytes`.  Simplified: the sizes of all elements, which lines 283-295 compute
for the capacity before anything is written, are not computed an extra time; `ResourceRecord.toBytes`
computes the same sizes, so the same packets panic. -/
def toBytes (cfg : Cfg) (p : Packet) : Res Bytes := do
  let bin := p.questions.foldl (fun bin q => bin ++ q.toBytes cfg) p.headerBytes
  let bin ← recordsBytes cfg p.answers bin
  let bin ← recordsBytes cfg p.authorities bin
  recordsBytes cfg p.additional bin

/-- src/packet.rs:345-380 -/
def parseBuf (cfg : Cfg) : Parser Packet := do
  let h ← Header.parse
  let qs ← Parser.times h.quesCount.toNat (Question.parse cfg)
  let an ← Parser.times h.ansCount.toNat (ResourceRecord.parse cfg)
  let au ← Parser.times h.authCount.toNat (ResourceRecord.parse cfg)
  let ad ← Parser.times h.addCount.toNat (ResourceRecord.parse cfg)
  return ⟨h, qs, an, au, ad⟩

/-- src/packet.rs:335-339 `Packet::try_from(&[u8])` (buffer.rs:183-190: a new buffer starts at
position 0). -/
def parse (cfg : Cfg) (data : Bytes) : Res Packet := (parseBuf cfg data 0).1

end Packet
end Dns
