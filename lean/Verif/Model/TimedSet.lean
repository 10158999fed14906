import Verif.Model.RRSet

/-
`ResourceRecordSet::to_bytes` once more, counting steps, with the two searches the standard library has had.

`<[T]>::binary_search` is code of the standard library, not of the repository, and which text of it is compiled depends
on the compiler.  Model/RRSet.lean takes any search that does what is documented; here are the two published algorithms,
and it is proved that they do what is documented (`C122_documented`).

What is counted: each octet of two vectors that are compared and one for the comparison, each octet written or copied,
each vector moved by `Vec::insert`, and each round of a loop.  Simplified: writing the data of a record is counted as one
step for each octet written and one more, as in Model/TimedWrite.lean.
-/

namespace Dns
namespace Timed

/-- Octets looked at when two vectors are compared, and one more.  Used at src/resource_record_set.rs:94-102. -/
def comparing : Bytes → Bytes → Nat
  | a :: as, b :: bs => if a = b then comparing as bs + 1 else 2
  | _, _ => 1

/-- A position found, the number of comparisons and the number of steps.  Used at src/resource_record_set.rs:94-102. -/
structure Found where
  pos : Nat
  comparisons : Nat
  steps : Nat
  deriving DecidableEq, Repr

/-- One comparison more.  Used at src/resource_record_set.rs:94-102. -/
def Found.after (a b : Bytes) (f : Found) : Found :=
  ⟨f.pos, f.comparisons + 1, f.steps + comparing a b + 1⟩

/-- `binary_search_by` of the standard library before Rust 1.82 (library/core/src/slice/mod.rs): what is left between
`left` and `right` is halved until the element is found or nothing is left.  Used at src/resource_record_set.rs:94-102. -/
def halvingLoop (l : List Bytes) (x : Bytes) (left right : Nat) : Found :=
  if left < right then
    let mid := left + (right - left) / 2
    match Fqdn.cmpBytes (l.getD mid []) x with
    | .lt => (halvingLoop l x (mid + 1) right).after (l.getD mid []) x
    | .gt => (halvingLoop l x left mid).after (l.getD mid []) x
    | .eq => ⟨mid, 1, comparing (l.getD mid []) x + 1⟩
  else ⟨left, 0, 0⟩
termination_by right - left
decreasing_by all_goals omega

/-- The search before Rust 1.82.  Used at src/resource_record_set.rs:94-102. -/
def halving (l : List Bytes) (x : Bytes) : Found := halvingLoop l x 0 l.length

/-- `binary_search_by` since Rust 1.82: it does not stop at an equal element; one more comparison at the end.
Used at src/resource_record_set.rs:94-102. -/
def narrowingLoop (l : List Bytes) (x : Bytes) (base size : Nat) : Found :=
  if 1 < size then
    let mid := base + size / 2
    match Fqdn.cmpBytes (l.getD mid []) x with
    | .gt => (narrowingLoop l x base (size - size / 2)).after (l.getD mid []) x
    | _ => (narrowingLoop l x mid (size - size / 2)).after (l.getD mid []) x
  else
    match Fqdn.cmpBytes (l.getD base []) x with
    | .lt => ⟨base + 1, 1, comparing (l.getD base []) x + 1⟩
    | _ => ⟨base, 1, comparing (l.getD base []) x + 1⟩
termination_by size
decreasing_by all_goals omega

/-- The search since Rust 1.82.  Used at src/resource_record_set.rs:94-102. -/
def narrowing (l : List Bytes) (x : Bytes) : Found :=
  if l.length = 0 then ⟨0, 0, 0⟩ else narrowingLoop l x 0 l.length

/-- Comparisons and steps.  Used at src/resource_record_set.rs:94-102. -/
structure Cost where
  comparisons : Nat
  steps : Nat
  deriving DecidableEq, Repr

/-- src/resource_record_set.rs:94-102: the loop collecting the data in order. -/
def collect (cfg : Cfg) (find : List Bytes → Bytes → Found) : List RecordData → List Bytes → Res (List Bytes) × Cost
  | [], acc => (.ok acc, ⟨0, 0⟩)
  | r :: rs, acc =>
    match r.toBytes cfg with
    | .ok bin =>
      let f := find acc bin
      let t := collect cfg find rs (RRSet.vecInsert acc f.pos bin)
      (t.1, ⟨t.2.comparisons + f.comparisons,
        t.2.steps + (1 + bin.length) + f.steps + (acc.length - f.pos) + 1⟩)
    | .err e => (.err e, ⟨0, 1⟩)
    | .panic k => (.panic k, ⟨0, 1⟩)
    | .hang => (.hang, ⟨0, 1⟩)

/-- src/resource_record_set.rs:82-116 `to_bytes`: the name is written once, then the data are collected and each octet is
copied to the result. -/
def setBytes (cfg : Cfg) (find : List Bytes → Bytes → Found) (s : RRSet) : Res Bytes × Cost :=
  let c := collect cfg find s.records []
  match c.1 with
  | .ok bins =>
    (.ok (bins.foldl (fun buf bin => buf ++ s.recordBytes bin) []),
      ⟨c.2.comparisons, c.2.steps + s.name.toBytes.length + (bins.map (fun b => (s.recordBytes b).length + 1)).sum⟩)
  | .err e => (.err e, c.2)
  | .panic k => (.panic k, c.2)
  | .hang => (.hang, c.2)

end Timed
end Dns
