import Verif.Model.Buffer

/-
src/fqdn.rs and src/util.rs: domain names.
-/

namespace Dns

/-- `str::split('.')` on the UTF-8 octets of a string (`.` is one octet and occurs in no
multi-octet character).  Used at src/fqdn.rs:26-34. -/
def splitDots : Bytes → List Bytes
  | [] => [[]]
  | c :: cs =>
    if c = 0x2E then [] :: splitDots cs
    else
      match splitDots cs with
      | [] => [[c]]
      | s :: ss => (c :: s) :: ss

namespace Fqdn

/-- src/fqdn.rs:26-34 `FQDN::new` on the octets of the given string. -/
def new (name : Bytes) : Fqdn := (splitDots name).filter (fun s => !s.isEmpty)

/-- src/fqdn.rs:133-141 `From<&[&str]>`, 143-147 `From<Vec<Vec<u8>>>`, 149-155
`From<&[Vec<u8>]>`: the labels are taken as they are. -/
def ofLabels (labels : List Bytes) : Fqdn := labels

/-- src/fqdn.rs:167-179 `byte_size`. -/
def byteSize (n : Fqdn) : Nat :=
  n.foldl (fun acc label => acc + if !label.isEmpty then 1 + label.length else 0) 1

/-- src/fqdn.rs:37-39 `is_empty`. -/
def isEmpty (n : Fqdn) : Bool := byteSize n == 0

/-- src/fqdn.rs:42-44 `len`. -/
def len (n : Fqdn) : Nat := byteSize n

/-- src/fqdn.rs:47-49 `label_count`. -/
def labelCount (n : Fqdn) : UInt8 := lenU8 n.length

/-- src/fqdn.rs:62-73 `is_link_local`. -/
def isLinkLocal (n : Fqdn) : Bool :=
  match n.getLast? with
  | some l => utf8Valid l && l == [0x6C, 0x6F, 0x63, 0x61, 0x6C]
  | none => false

/-- src/fqdn.rs:76-79 `is_root`. -/
def isRoot (n : Fqdn) : Bool := isEmpty n || n.all (fun sub => sub.isEmpty)

/-- src/fqdn.rs:82-84 `append_label`. -/
def appendLabel (n : Fqdn) (name : Bytes) : Fqdn := n ++ [name]

/-- src/fqdn.rs:87-98 `Display::fmt` (the octets handed to the formatter; for labels that are not
UTF-8 the Rust code has undefined behaviour). -/
def display : Fqdn → Bytes
  | [] => []
  | [l] => l
  | l :: ls => l ++ 0x2E :: display ls

/-- The part of `to_bytes` before the final zero octet (src/fqdn.rs:183-188). -/
def labelBytes : Fqdn → Bytes
  | [] => []
  | l :: ls => (if !l.isEmpty then lenU8 l.length :: l else []) ++ labelBytes ls

/-- src/fqdn.rs:181-192 `to_bytes`. -/
def toBytes (n : Fqdn) : Bytes := labelBytes n ++ [0]

/-- Lexicographic `Ord` of `Vec<u8>` (derived order, src/fqdn.rs:17). -/
def cmpBytes : Bytes → Bytes → Ordering
  | [], [] => .eq
  | [], _ :: _ => .lt
  | _ :: _, [] => .gt
  | a :: as, b :: bs => if a < b then .lt else if b < a then .gt else cmpBytes as bs

/-- src/fqdn.rs:17 `#[derive(PartialOrd, Ord)]` on `Vec<Vec<u8>>`. -/
def cmp : Fqdn → Fqdn → Ordering
  | [], [] => .eq
  | [], _ :: _ => .lt
  | _ :: _, [] => .gt
  | a :: as, b :: bs =>
    match cmpBytes a b with
    | .eq => cmp as bs
    | o => o

end Fqdn

/-- src/util.rs:8-14 `hash_fqdn`: SipHash of the label list.  The model takes the hash function
as a parameter. -/
abbrev Hash := List Bytes → UInt64

/-- `HashMap<u64, usize>` of the compressing writers.  Declared at src/packet.rs:243, changed at src/fqdn.rs:217-241. -/
abbrev Names := UInt64 → Option Nat

namespace Names
/-- `HashMap::new()` (src/packet.rs:243). -/
def empty : Names := fun _ => none
/-- `HashMap::insert`.  Used at src/fqdn.rs:196-241. -/
def insert (names : Names) (k : UInt64) (v : Nat) : Names :=
  fun k' => if k' = k then some v else names k'
end Names

namespace Fqdn

/-- src/fqdn.rs:217-241 `to_bytes_compressed` (also returns the updated map). -/
def toBytesCompressed (h : Hash) : Fqdn → Names → Nat → Bytes × Names
  | [], names, _ => ([0], names)
  | l :: ls, names, offset =>
    match names (h (l :: ls)) with
    | some pointer => (u16be (UInt16.ofNat pointer ||| 0xC000), names)
    | none =>
      let r := toBytesCompressed h ls (names.insert (h (l :: ls)) offset) (offset + (l.length + 1))
      (lenU8 l.length :: (l ++ r.1), r.2)

/-- src/fqdn.rs:196-215 `byte_size_compressed` (also returns the updated map). -/
def byteSizeCompressed (h : Hash) : Fqdn → Names → Nat → Nat × Names
  | [], names, _ => (1, names)
  | l :: ls, names, offset =>
    match names (h (l :: ls)) with
    | some _ => (2, names)
    | none =>
      let r := byteSizeCompressed h ls (names.insert (h (l :: ls)) offset) (offset + (l.length + 1))
      (l.length + 1 + r.1, r.2)

end Fqdn
end Dns
