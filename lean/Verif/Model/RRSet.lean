import Verif.Model.RecordData

/-
src/resource_record_set.rs.
-/

namespace Dns

/-- src/resource_record_set.rs:12-28 `struct ResourceRecordSet`. -/
structure RRSet where
  name : Fqdn
  type : RecordType
  class_ : RecordClass
  ttl : UInt32
  records : List RecordData
  deriving DecidableEq, Repr

/-- `<[Vec<u8>]>::binary_search(..).unwrap_or_else(|p| p)`: the standard library leaves open which
of several equal elements is found, so the search is a parameter of the model.  Used at src/resource_record_set.rs:94-102. -/
abbrev Search := List Bytes → Bytes → Nat

/-- `a ≤ b` in the order of `Vec<u8>`.
Used at src/resource_record_set.rs:50-52 and by the search at src/resource_record_set.rs:94-102. -/
def bytesLe (a b : Bytes) : Bool := Fqdn.cmpBytes a b != .gt

namespace Search
/-- Documented behaviour of `binary_search`: on a sorted vector the result is a position at which
inserting keeps the vector sorted (before, at or behind equal elements).  Used at src/resource_record_set.rs:94-102. -/
def Valid (search : Search) : Prop :=
  ∀ (l : List Bytes) (x : Bytes), l.Pairwise (fun a b => bytesLe a b = true) →
    search l x ≤ l.length ∧ (∀ y ∈ l.take (search l x), bytesLe y x = true) ∧
      (∀ y ∈ l.drop (search l x), bytesLe x y = true)
end Search

namespace RRSet

/-- `Vec::insert(pos, x)`.  Used at src/resource_record_set.rs:94-102. -/
def vecInsert (l : List Bytes) (pos : Nat) (x : Bytes) : List Bytes := l.take pos ++ x :: l.drop pos

/-- src/resource_record_set.rs:94-101: the loop collecting the RDATA in order. -/
def collect (cfg : Cfg) (search : Search) : List RecordData → List Bytes → Res (List Bytes)
  | [], acc => return acc
  | r :: rs, acc => do
    let bin ← r.toBytes cfg
    collect cfg search rs (vecInsert acc (search acc bin) bin)

/-- src/resource_record_set.rs:106-111: one record -/
def recordBytes (s : RRSet) (bin : Bytes) : Bytes :=
  s.name.toBytes ++ u16be s.type.toU16 ++ u16be s.class_.toU16 ++ u32be s.ttl
    ++ u16be (lenU16 bin.length) ++ bin

/-- src/resource_record_set.rs:82-116 `to_bytes` -/
def toBytes (cfg : Cfg) (search : Search) (s : RRSet) : Res Bytes := do
  let bins ← collect cfg search s.records []
  return bins.foldl (fun buf bin => buf ++ s.recordBytes bin) []

/-- src/resource_record_set.rs:77-79: the fold -/
def sizeLoop (cfg : Cfg) (name : Fqdn) : List RecordData → Nat → Res Nat
  | [], acc => return acc
  | r :: rs, acc => do
    let n ← r.byteSize cfg
    sizeLoop cfg name rs (acc + name.byteSize + 10 + n)

/-- src/resource_record_set.rs:76-80 `byte_size` -/
def byteSize (cfg : Cfg) (s : RRSet) : Res Nat := sizeLoop cfg s.name s.records 0

/-- The sort keys of all records.  Used at src/resource_record_set.rs:50-52. -/
def keys (cfg : Cfg) : List RecordData → Res (List (Bytes × RecordData))
  | [] => return []
  | r :: rs => do
    let b ← r.toBytes cfg
    let bs ← keys cfg rs
    return (b, r) :: bs

/-- src/resource_record_set.rs:50-52 `canonical_reorder`: stable sort by wire format.  Fewer than
two records are not compared, so that `to_bytes` is not called; otherwise every record takes part in
a comparison.  Simplified: the keys of all records are computed beforehand. -/
def canonicalReorder (cfg : Cfg) (s : RRSet) : Res RRSet :=
  if s.records.length < 2 then return s
  else do
    let ks ← keys cfg s.records
    return { s with records := (ks.mergeSort (fun a b => bytesLe a.1 b.1)).map (·.2) }

end RRSet
end Dns
