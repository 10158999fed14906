import Verif.Spec.RData
import Verif.Spec.Name

/-
Messages of RFC 1035, section 4: header, questions, resource records.
-/

namespace Dns.Spec

/-- The elements `xs` stand one after the other from position `i` up to position `j`. -/
def ListAt {α : Type} (R : Nat → α → Nat → Prop) : Nat → List α → Nat → Prop
  | i, [], j => i = j
  | i, x :: xs, j => ∃ k, R i x k ∧ ListAt R k xs j

/-- Class field: the low 15 bits are the class, the top bit is the mDNS bit (RFC 6762, section 18.12
and 18.13), which only the builds with the feature `mdns` show. -/
def ClassField (cfg : Cfg) (number : Nat) (flag : Bool) (v : UInt16) : Prop :=
  v.toNat % 32768 = number ∧ flag = (cfg.mdns && decide (32768 ≤ v.toNat))

/-- Payload sizes that can be told apart from the classes. -/
def classOk : RecordClass → Prop
  | .udpPayloadSize n => n.toNat ≠ 1 ∧ n.toNat ≠ 2 ∧ n.toNat ≠ 3 ∧ n.toNat ≠ 4
  | _ => True

/-- Query types a build can read. -/
def QReadable (cfg : Cfg) : QType → Prop
  | .rr t => Readable cfg t
  | _ => True

/-- RFC 1035, section 4.1.1: twelve octets. -/
def headerItems (h : Header) : List Item :=
  [.u16 h.id, .u8 h.flags.hi, .u8 h.flags.lo, .u16 h.quesCount, .u16 h.ansCount, .u16 h.authCount,
    .u16 h.addCount]

/-- RFC 1035, section 4.1.2. -/
def QuestionAt (N : NameRel) (cfg : Cfg) (d : Bytes) (i : Nat) (q : Question) (j : Nat) : Prop :=
  QReadable cfg q.qType ∧ ∃ v : UInt16, ClassField cfg (qclassNumber q.qClass) q.unicastResponse v ∧
    Items.At N d i [.name q.qName, o16 (qtypeNumber q.qType), .u16 v] j

/-- Fields of a record before the RDATA: NAME, TYPE, CLASS, TTL, RDLENGTH. -/
def recordHead (r : ResourceRecord) (v : UInt16) (len : UInt16) : List Item :=
  [.name r.name, o16 (typeNumber r.type), .u16 v, .u32 r.ttl, .u16 len]

/-- RFC 1035, section 4.1.3: a record of which the RDATA are the RDLENGTH octets from `k` on; `RD`
says what these octets mean (it sees the message only up to the end of the RDATA). -/
def RecordAtWith (RD : RecordType → Bytes → Nat → RecordData → Prop) (N : NameRel) (cfg : Cfg)
    (d : Bytes) (i : Nat) (r : ResourceRecord) (j : Nat) : Prop :=
  Readable cfg r.type ∧ classOk r.class_ ∧
  ∃ (v len : UInt16) (k : Nat), ClassField cfg (classNumber r.class_) r.cacheFlush v ∧
    Items.At N d i (recordHead r v len) k ∧ j = k + len.toNat ∧ j ≤ d.length ∧
    RD r.type (d.take j) k r.rdata

/-- A message from position 0 up to `e`: the counts of the header are the numbers of questions and
records. -/
def MessageAtWith (RD : RecordType → Bytes → Nat → RecordData → Prop) (N : NameRel) (cfg : Cfg)
    (d : Bytes) (p : Packet) (e : Nat) : Prop :=
  p.questions.length = p.header.quesCount.toNat ∧ p.answers.length = p.header.ansCount.toNat ∧
  p.authorities.length = p.header.authCount.toNat ∧ p.additional.length = p.header.addCount.toNat ∧
  ∃ i1 i2 i3 i4, Items.At N d 0 (headerItems p.header) i1 ∧
    ListAt (QuestionAt N cfg d) i1 p.questions i2 ∧
    ListAt (RecordAtWith RD N cfg d) i2 p.answers i3 ∧
    ListAt (RecordAtWith RD N cfg d) i3 p.authorities i4 ∧
    ListAt (RecordAtWith RD N cfg d) i4 p.additional e

/-- The octets from `k` on have the format of the type, and mean `r`.  (Octets left over behind a
format that does not extend to the end of the RDATA are not looked at.) -/
def RDataAt (N : NameRel) (cfg : Cfg) (t : RecordType) (d : Bytes) (k : Nat) (r : RecordData) : Prop :=
  r.type = t ∧ ∃ its e, RData cfg r its ∧ Items.At N d k its e

/-- Records whose RDATA are in the format of the RFCs. -/
def RecordAt (N : NameRel) (cfg : Cfg) := RecordAtWith (RDataAt N cfg) N cfg

/-- Messages whose RDATA are in the format of the RFCs. -/
def MessageAt (N : NameRel) (cfg : Cfg) := MessageAtWith (RDataAt N cfg) N cfg

end Dns.Spec
