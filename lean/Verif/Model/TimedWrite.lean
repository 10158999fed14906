import Verif.Model.Packet

/-
The compressing writer once more, counting steps; that the outcomes are the same is proved (`C106_same`).

What is counted: each octet that is hashed, written or copied to another buffer is a step, and so is each look into the
map of the names and each round of a loop.  Simplified: the data without names that may be compressed are counted as one
step for each octet written (the writers of these types append one field after the other), and one for each type of a
bitmap.
-/

namespace Dns
namespace Timed

/-- src/util.rs:8-14 `hash_fqdn`: the number of labels, and the length and the octets of each. -/
def hashing (n : Fqdn) : Nat := 1 + (n.map (fun l => l.length + 1)).sum

/-- src/fqdn.rs:217-241 `to_bytes_compressed`. -/
def nameCompressed (h : Hash) : Fqdn → Names → Nat → (Bytes × Names) × Nat
  | [], names, _ => (([0], names), 1)
  | l :: ls, names, offset =>
    match names (h (l :: ls)) with
    | some pointer => ((u16be (UInt16.ofNat pointer ||| 0xC000), names), hashing (l :: ls) + 1 + 2)
    | none =>
      let r := nameCompressed h ls (names.insert (h (l :: ls)) offset) (offset + (l.length + 1))
      ((lenU8 l.length :: (l ++ r.1.1), r.1.2), hashing (l :: ls) + 2 + (l.length + 1) + r.2)

/-- Data without names that may be compressed.  Used at src/rdata/mod.rs:327-377. -/
def others (r : Res (Bytes × Names)) (elements : Nat) : Res (Bytes × Names) × Nat :=
  (r, elements + match r with
    | .ok x => 1 + x.1.length
    | _ => 1)

/-- src/rdata/mod.rs:327-377 `to_bytes_compressed`. -/
def rdataCompressed (cfg : Cfg) (h : Hash) (d : RecordData) (names : Names) (offset : Nat) :
    Res (Bytes × Names) × Nat :=
  match d with
  -- src/rdata/ns.rs, cname.rs, ptr.rs
  | .NS r => let n := nameCompressed h r.nsdname names offset; (.ok n.1, n.2)
  | .CNAME r => let n := nameCompressed h r.cname names offset; (.ok n.1, n.2)
  | .PTR r => let n := nameCompressed h r.ptrdname names offset; (.ok n.1, n.2)
  -- src/rdata/mx.rs:73-78
  | .MX r =>
    let n := nameCompressed h r.exchange names (offset + 2)
    (.ok (u16be r.preference ++ n.1.1, n.1.2), n.2 + 2 + n.1.1.length)
  -- src/rdata/soa.rs:120-130
  | .SOA r =>
    let m := nameCompressed h r.mname names offset
    let n := nameCompressed h r.rname m.1.2 (offset + m.1.1.length)
    (.ok (m.1.1 ++ n.1.1 ++ u32be r.serial ++ u32be r.refresh ++ u32be r.retry
      ++ u32be r.expire ++ u32be r.minimum, n.1.2), m.2 + n.2 + (m.1.1.length + n.1.1.length + 20))
  -- src/rdata/minfo.rs:79-88
  | .MINFO r =>
    let m := nameCompressed h r.rmailbx names offset
    let n := nameCompressed h r.emailbx m.1.2 (offset + m.1.1.length)
    (.ok (m.1.1 ++ n.1.1, n.1.2), m.2 + n.2 + (m.1.1.length + n.1.1.length))
  -- src/rdata/srv.rs:106-113
  | .SRV r =>
    let n := nameCompressed h r.target names (offset + 6)
    (.ok (u16be r.priority ++ u16be r.weight ++ u16be r.port ++ n.1.1, n.1.2), n.2 + 6 + n.1.1.length)
  -- src/rdata/naptr.rs:157-173
  | .NAPTR r =>
    let n := nameCompressed h r.replacement names (offset + r.headBytes.length)
    (.ok (r.headBytes ++ n.1.1, n.1.2), n.2 + r.headBytes.length + n.1.1.length)
  -- src/rdata/dnssec.rs:172-208
  | .NSEC r =>
    let n := nameCompressed h r.nextDomainName names offset
    match Bitmap.toBytes cfg r.types with
    | .ok b => (.ok (n.1.1 ++ b, n.1.2), n.2 + (n.1.1.length + b.length) + r.types.length + 1)
    | .err e => (.err e, n.2 + r.types.length + 1)
    | .panic k => (.panic k, n.2 + r.types.length + 1)
    | .hang => (.hang, n.2)
  -- src/rdata/csync.rs
  | .CSYNC r => others (RecordData.toBytesCompressed cfg h (.CSYNC r) names offset) r.types.length
  | d => others (d.toBytesCompressed cfg h names offset) 0

/-- src/question.rs:372-394 -/
def questionCompressed (cfg : Cfg) (h : Hash) (q : Question) (names : Names) (offset : Nat) :
    (Bytes × Names) × Nat :=
  let n := nameCompressed h q.qName names offset
  ((n.1.1 ++ u16be q.qType.toU16 ++ u16be (q.classBits cfg), n.1.2), n.2 + n.1.1.length + 4)

/-- src/resource.rs:465-495 -/
def recordCompressed (cfg : Cfg) (h : Hash) (r : ResourceRecord) (names : Names) (offset : Nat) :
    Res (Bytes × Names) × Nat :=
  let n := nameCompressed h r.name names offset
  let head := n.1.1 ++ u16be r.type.toU16 ++ u16be (r.classBits cfg) ++ u32be r.ttl
  let data := rdataCompressed cfg h r.rdata n.1.2 (offset + head.length + 2)
  match data with
  | (.ok x, t) => (.ok (head ++ u16be (lenU16 x.1.length) ++ x.1, x.2), n.2 + head.length + t + (2 + x.1.length))
  | (.err e, t) => (.err e, n.2 + head.length + t)
  | (.panic k, t) => (.panic k, n.2 + head.length + t)
  | (.hang, t) => (.hang, t)

/-- src/packet.rs:247-249: what has been written is copied to the message. -/
def questionsCompressed (cfg : Cfg) (h : Hash) : List Question → Names → Bytes → (Bytes × Names) × Nat
  | [], names, bin => ((bin, names), 0)
  | q :: qs, names, bin =>
    let r := questionCompressed cfg h q names bin.length
    let s := questionsCompressed cfg h qs r.1.2 (bin ++ r.1.1)
    (s.1, 1 + r.2 + r.1.1.length + s.2)

/-- src/packet.rs:250-258 -/
def recordsCompressed (cfg : Cfg) (h : Hash) : List ResourceRecord → Names → Bytes → Res (Bytes × Names) × Nat
  | [], names, bin => (.ok (bin, names), 0)
  | r :: rs, names, bin =>
    match recordCompressed cfg h r names bin.length with
    | (.ok x, t) =>
      let s := recordsCompressed cfg h rs x.2 (bin ++ x.1)
      (s.1, 1 + t + x.1.length + s.2)
    | (.err e, t) => (.err e, 1 + t)
    | (.panic k, t) => (.panic k, 1 + t)
    | (.hang, t) => (.hang, t)

/-- src/packet.rs:250-258: the next section, unless the writer has panicked. -/
def andThen (r : Res (Bytes × Names) × Nat) (f : Bytes × Names → Res (Bytes × Names) × Nat) :
    Res (Bytes × Names) × Nat :=
  match r with
  | (.ok x, t) => ((f x).1, t + (f x).2)
  | (.err e, t) => (.err e, t)
  | (.panic k, t) => (.panic k, t)
  | (.hang, t) => (.hang, t)

/-- src/packet.rs:242-261 `to_bytes_compressed`: the octets, and the steps taken. -/
def packetCompressed (cfg : Cfg) (h : Hash) (p : Packet) : Res Bytes × Nat :=
  let q := questionsCompressed cfg h p.questions Names.empty p.header.toBytes
  let r := andThen (andThen (recordsCompressed cfg h p.answers q.1.2 q.1.1)
      fun x => recordsCompressed cfg h p.authorities x.2 x.1)
    fun x => recordsCompressed cfg h p.additional x.2 x.1
  ((do let x ← r.1; return x.1), 12 + q.2 + r.2)

end Timed
end Dns
