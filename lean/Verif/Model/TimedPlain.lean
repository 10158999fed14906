import Verif.Model.TimedWrite
import Verif.Spec.Size

/-
The writer without compression once more, counting steps; that the outcomes are the same is proved (`C141_same`).

What is counted: each octet that is written or copied to another buffer is a step, and so is each round of a loop, also
of the loops that compute a size.  Simplified: in the data of a record the fields without names are counted as one step
for each octet written and one for each element of a list, and all of the data are counted before the outcome is looked
at.
-/

namespace Dns
open Spec
namespace Timed

/-- src/fqdn.rs:167-179 `byte_size`: a round for each label. -/
def nameSizing : Fqdn → Nat
  | [] => 1
  | _ :: ls => 1 + nameSizing ls

/-- src/fqdn.rs:183-189: the loop of `to_bytes`. -/
def labelsPlain : Fqdn → Bytes × Nat
  | [] => ([0], 1)
  | l :: ls =>
    let r := labelsPlain ls
    if l.isEmpty then (r.1, 1 + r.2) else (lenU8 l.length :: (l ++ r.1), 1 + (l.length + 1) + r.2)

/-- src/fqdn.rs:181-192 `to_bytes`: line 182 computes the size. -/
def namePlain (n : Fqdn) : Bytes × Nat :=
  ((labelsPlain n).1, nameSizing n + (labelsPlain n).2)

/-- src/rdata/mod.rs:229-275 `byte_size`. -/
def rdataSizing (d : RecordData) : Nat := 1 + ((rdataNames d).map nameSizing).sum + rdataElements d

/-- src/rdata/mod.rs:277-323 `to_bytes`: the size for the capacity, the names, and all octets. -/
def rdataPlain (cfg : Cfg) (d : RecordData) : Res Bytes × Nat :=
  (d.toBytes cfg, rdataSizing d + ((rdataNames d).map (fun n => (namePlain n).2)).sum + rdataElements d +
    match d.toBytes cfg with
    | .ok b => b.length
    | _ => 0)

/-- src/question.rs:339-341 `byte_size`. -/
def questionSizing (q : Question) : Nat := nameSizing q.qName

/-- src/question.rs:343-364 `to_bytes`. -/
def questionPlain (cfg : Cfg) (q : Question) : Bytes × Nat :=
  let n := namePlain q.qName
  (n.1 ++ u16be q.qType.toU16 ++ u16be (q.classBits cfg), questionSizing q + n.2 + n.1.length + 4)

/-- src/resource.rs:418-425 `byte_size`. -/
def recordSizing (r : ResourceRecord) : Nat := nameSizing r.name + rdataSizing r.rdata

/-- src/resource.rs:427-452 `to_bytes`: the sizes (line 428), the name and the fields, the size of the data (line 447)
and the data. -/
def recordPlain (cfg : Cfg) (r : ResourceRecord) : Res Bytes × Nat :=
  let n := namePlain r.name
  let data := rdataPlain cfg r.rdata
  let t := recordSizing r + n.2 + n.1.length + 10 + rdataSizing r.rdata + data.2
  match r.rdata.byteSize cfg, data.1 with
  | .ok size, .ok b =>
    (.ok (n.1 ++ u16be r.type.toU16 ++ u16be (r.classBits cfg) ++ u32be r.ttl ++ u16be (lenU16 size) ++ b), t + b.length)
  | .ok _, x => (x, t)
  | .err e, _ => (.err e, t)
  | .panic k, _ => (.panic k, t)
  | .hang, _ => (.hang, t)

/-- src/packet.rs:315-317 -/
def questionsPlain (cfg : Cfg) : List Question → Bytes → Bytes × Nat
  | [], bin => (bin, 0)
  | q :: qs, bin =>
    let r := questionPlain cfg q
    let s := questionsPlain cfg qs (bin ++ r.1)
    (s.1, 1 + r.2 + r.1.length + s.2)

/-- src/packet.rs:318-326 -/
def recordsPlain (cfg : Cfg) : List ResourceRecord → Bytes → Res Bytes × Nat
  | [], bin => (.ok bin, 0)
  | r :: rs, bin =>
    match recordPlain cfg r with
    | (.ok b, t) =>
      let s := recordsPlain cfg rs (bin ++ b)
      (s.1, 1 + t + b.length + s.2)
    | (.err e, t) => (.err e, 1 + t)
    | (.panic k, t) => (.panic k, 1 + t)
    | (.hang, t) => (.hang, 1 + t)

/-- src/packet.rs:318-326: the next section, unless the writer has panicked. -/
def thenPlain (r : Res Bytes × Nat) (f : Bytes → Res Bytes × Nat) : Res Bytes × Nat :=
  match r with
  | (.ok x, t) => ((f x).1, t + (f x).2)
  | (.err e, t) => (.err e, t)
  | (.panic k, t) => (.panic k, t)
  | (.hang, t) => (.hang, t)

/-- src/packet.rs:283-295: the size of the packet, for the capacity. -/
def packetSizing (p : Packet) : Nat :=
  (p.questions.map (fun q => 1 + questionSizing q)).sum +
    ((p.answers ++ p.authorities ++ p.additional).map (fun r => 1 + recordSizing r)).sum

/-- src/packet.rs:282-329 `to_bytes`: the octets, and the steps taken. -/
def packetPlain (cfg : Cfg) (p : Packet) : Res Bytes × Nat :=
  let q := questionsPlain cfg p.questions p.headerBytes
  let r := thenPlain (thenPlain (recordsPlain cfg p.answers q.1) (recordsPlain cfg p.authorities))
    (recordsPlain cfg p.additional)
  (r.1, packetSizing p + 12 + q.2 + r.2)

end Timed
end Dns
