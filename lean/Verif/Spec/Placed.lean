import Verif.Spec.Receive

/-
Messages whose compression pointers lead to prior names (RFC 1035, section 4.1.4), with the positions of these names.
-/

namespace Dns.Spec

/-- Positions of a message with the labels that are found there, up to the root. -/
abbrev Places := List (Nat × Fqdn)

/-- The name `n` stands in `d` from `i` up to `j`, label by label, and ends with the zero octet or with a pointer to one
of the `known` places.  `new` are the places of its labels. -/
def NamePlaced (known : Places) (d : Bytes) : Nat → Fqdn → Nat → Places → Prop
  | i, [], j, new => Octets d i [0] j ∧ new = []
  | i, l :: n, j, new =>
    (∃ t, (t, l :: n) ∈ known ∧ t < 16384 ∧ Octets d i (octets16 (UInt16.ofNat (49152 + t))) j ∧ new = []) ∨
    (1 ≤ l.length ∧ l.length ≤ 63 ∧ ∃ k new', Octets d i (UInt8.ofNat l.length :: l) k ∧
      NamePlaced known d k n j new' ∧ new = (i, l :: n) :: new')

/-- The items stand in `d` from `i` up to `j`, their names as above; `known` are the places before them, `known'` those
with their own. -/
def Items.Placed (d : Bytes) : Places → Nat → List Item → Nat → Places → Prop
  | known, i, [], j, known' => i = j ∧ known = known'
  | known, i, it :: its, j, known' => match it with
    | .name n => ∃ k new, NamePlaced known d i n k new ∧ Items.Placed d (known ++ new) k its j known'
    | it => ∃ k, it.At PlainName d i k ∧ Items.Placed d known k its j known'

/-- A question (RFC 1035, section 4.1.2). -/
def QuestionPlaced (cfg : Cfg) (d : Bytes) (known : Places) (i : Nat) (q : Question) (j : Nat) (known' : Places) :
    Prop :=
  QReadable cfg q.qType ∧ ∃ v : UInt16, ClassField cfg (qclassNumber q.qClass) q.unicastResponse v ∧
    Items.Placed d known i [.name q.qName, o16 (qtypeNumber q.qType), .u16 v] j known'

/-- A record (RFC 1035, section 4.1.3), with RDATA as a sender may write them.  The names in the data of the types `T`
may have pointers and be pointed to; in the data of the other types all names are written out, and no pointer leads
there. -/
def RecordPlaced (T : RecordType → Bool) (cfg : Cfg) (d : Bytes) (known : Places) (i : Nat) (r : ResourceRecord) (j : Nat)
    (known' : Places) : Prop :=
  Readable cfg r.type ∧ classOk r.class_ ∧ r.rdata.type = r.type ∧
  ∃ (v len : UInt16) (k : Nat) (known1 : Places) (its : List Item),
    ClassField cfg (classNumber r.class_) r.cacheFlush v ∧
    Items.Placed d known i (recordHead r v len) k known1 ∧ j = k + len.toNat ∧ j ≤ d.length ∧
    RDataStrict cfg r.rdata its ∧
    if T r.rdata.type then Items.Placed (d.take j) known1 k its j known'
    else Items.At PlainName (d.take j) k its j ∧ known1 = known'

/-- The elements stand one after the other. -/
def ListPlaced {α : Type} (R : Places → Nat → α → Nat → Places → Prop) : Places → Nat → List α → Nat → Places → Prop
  | known, i, [], j, known' => i = j ∧ known = known'
  | known, i, x :: xs, j, known' => ∃ k known1, R known i x k known1 ∧ ListPlaced R known1 k xs j known'

/-- The octets are a message that says what the packet says; its pointers lead to prior names in questions, to prior
owner names and to prior names in the data of the types `T`. -/
def PlacedMessage (T : RecordType → Bool) (cfg : Cfg) (d : Bytes) (p : Packet) : Prop :=
  p.questions.length = p.header.quesCount.toNat ∧ p.answers.length = p.header.ansCount.toNat ∧
  p.authorities.length = p.header.authCount.toNat ∧ p.additional.length = p.header.addCount.toNat ∧
  ∃ i1 i2 i3 i4 k2 k3 k4 k5, Items.At PlainName d 0 (headerItems p.header) i1 ∧
    ListPlaced (QuestionPlaced cfg d) [] i1 p.questions i2 k2 ∧
    ListPlaced (RecordPlaced T cfg d) k2 i2 p.answers i3 k3 ∧
    ListPlaced (RecordPlaced T cfg d) k3 i3 p.authorities i4 k4 ∧
    ListPlaced (RecordPlaced T cfg d) k4 i4 p.additional d.length k5

end Dns.Spec
