import Verif.Model.Constructors

/-
src/rdata/a.rs:79-85 and src/rdata/aaaa.rs:83-89: addresses given as text.  Both call `str::parse`, that is
`core::net::parser` of the standard library, which is not in /repo.  It is modelled here after its source (since
Rust 1.53, when leading zeros were forbidden).  Its parser keeps the rest of the input as its state;
`read_atomically` restores it when nothing was read, so that a reader is a function from the input to the value
and the rest, or `none`.
-/

namespace Dns
namespace AddrText

/-- A reader of `core::net::parser` (not in /repo).  Used at src/rdata/a.rs:83 and src/rdata/aaaa.rs:87. -/
abbrev Reader (α : Type) := Bytes → Option (α × Bytes)

/-- `char::to_digit` of the standard library (not in /repo), for the character of one octet.
Used at src/rdata/a.rs:83 and src/rdata/aaaa.rs:87. -/
def toDigit (radix : Nat) (c : UInt8) : Option Nat :=
  let v := if 48 ≤ c ∧ c ≤ 57 then c.toNat - 48
    else if 97 ≤ c ∧ c ≤ 122 then c.toNat - 87
    else if 65 ≤ c ∧ c ≤ 90 then c.toNat - 55
    else 36
  if v < radix then some v else none

/-- The loop of `read_number` (not in /repo): number of digits, value and rest.
Used at src/rdata/a.rs:83 and src/rdata/aaaa.rs:87. -/
def readDigits (radix max : Nat) : Nat → Nat → Bytes → Option (Nat × Nat × Bytes)
  | count, value, [] => some (count, value, [])
  | count, value, c :: s =>
    match toDigit radix c with
    | none => some (count, value, c :: s)
    | some d => if count + 1 > max then none else readDigits radix max (count + 1) (value * radix + d) s

/-- `read_number` (not in /repo) with a maximal number of digits; `limit` is one more than the largest number of the
type.  Used at src/rdata/a.rs:83 and src/rdata/aaaa.rs:87. -/
def readNumber (radix max : Nat) (allowZeroPrefix : Bool) (limit : Nat) : Reader Nat := fun s =>
  match readDigits radix max 0 0 s with
  | none => none
  | some (count, value, rest) =>
    if count = 0 then none
    else if !allowZeroPrefix && s.head? == some 48 && decide (count > 1) then none
    else if value < limit then some (value, rest) else none

/-- `read_separator` (not in /repo): the separator has to be there unless `index` is 0.
Used at src/rdata/a.rs:83 and src/rdata/aaaa.rs:87. -/
def readSeparator {α : Type} (sep : UInt8) (index : Nat) (inner : Reader α) : Reader α := fun s =>
  if index > 0 then
    match s with
    | [] => none
    | c :: s => if c = sep then inner s else none
  else inner s

/-- The loop of `read_ipv4_addr` (not in /repo): the octets from number `index` on.  Used at src/rdata/a.rs:83. -/
def readOctets : Nat → Nat → Reader Bytes
  | 0, _ => fun s => some ([], s)
  | left + 1, index => fun s =>
    match readSeparator 46 index (readNumber 10 3 false 256) s with
    | none => none
    | some (v, s) =>
      match readOctets left (index + 1) s with
      | none => none
      | some (vs, s) => some (UInt8.ofNat v :: vs, s)

/-- `read_ipv4_addr` (not in /repo).  Used at src/rdata/a.rs:83. -/
def readIpV4 : Reader Bytes := readOctets 4 0

/-- `read_groups` (not in /repo) for `left` more groups, `index` of them read before: the octets of the groups, if the
last two were an IPv4 address, and the rest.  Used at src/rdata/aaaa.rs:87. -/
def readGroups : Nat → Nat → Bytes → Bytes × Bool × Bytes
  | 0, _, s => ([], false, s)
  | left + 1, index, s =>
    match (if left > 0 then readSeparator 58 index readIpV4 s else none) with
    | some (o, s) => (o, true, s)
    | none =>
      match readSeparator 58 index (readNumber 16 4 true 65536) s with
      | none => ([], false, s)
      | some (v, s) =>
        let r := readGroups left (index + 1) s
        (u16be (UInt16.ofNat v) ++ r.1, r.2.1, r.2.2)

/-- `read_ipv6_addr` (not in /repo): the sixteen octets.  Used at src/rdata/aaaa.rs:87. -/
def readIpV6 : Reader Bytes := fun s =>
  let head := readGroups 8 0 s
  if head.1.length = 16 then some (head.1, head.2.2)
  else if head.2.1 then none
  else
    match head.2.2 with
    | 58 :: 58 :: s =>
      let tail := readGroups (8 - (head.1.length / 2 + 1)) 0 s
      some (head.1 ++ List.replicate (16 - head.1.length - tail.1.length) 0 ++ tail.1, tail.2.2)
    | _ => none

/-- `parse_with` (not in /repo): nothing may be left.  Used at src/rdata/a.rs:83 and src/rdata/aaaa.rs:87. -/
def parseWith (r : Reader Bytes) (s : Bytes) : Option Bytes :=
  match r s with
  | some (o, []) => some o
  | _ => none

/-- `Ipv4Addr::parse_ascii` (not in /repo): texts of more than 15 octets are refused at once.  Used at src/rdata/a.rs:83. -/
def parseIpV4 (s : Bytes) : Option Bytes := if s.length > 15 then none else parseWith readIpV4 s

/-- `Ipv6Addr::parse_ascii` (not in /repo).  Used at src/rdata/aaaa.rs:87. -/
def parseIpV6 (s : Bytes) : Option Bytes := parseWith readIpV6 s

end AddrText

/-- src/rdata/a.rs:79-85 `TryFrom<&str>`; the error has no content. -/
def A.ofText (s : Bytes) : Option A := (AddrText.parseIpV4 s).map fun o => ⟨UInt32.ofNat (ofBE o)⟩

/-- src/rdata/aaaa.rs:83-89 `TryFrom<&str>`; the error has no content. -/
def Aaaa.ofText (s : Bytes) : Option Aaaa :=
  (AddrText.parseIpV6 s).map fun o => ⟨BitVec.ofNat 128 (ofBE o)⟩

end Dns
