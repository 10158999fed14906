import Verif.Model.Packet
import Verif.Model.Utf8

/-
The `unsafe` blocks of the crate, with the memory they work on: src/packet.rs:300-313 (the counts are written
through a raw pointer) and src/fqdn.rs:91 (`from_utf8_unchecked`).  The other blocks (src/header.rs) turn a
`bool` or an enumeration with `repr(u8)` into a `u8`, which is always defined; what they give is
`OpCode.toU8` and `ResponseCode.toU8`.
-/

namespace Dns

/-- Kinds of undefined behaviour.  Used for src/packet.rs:304-313. -/
inductive Ub where
  /-- Pointer arithmetic that leaves the allocation. -/
  | offset
  /-- Write through a pointer that is not aligned. -/
  | unaligned
  /-- Write outside of the allocation. -/
  | outOfBounds
  /-- A `str` that is not UTF-8. -/
  | utf8
  deriving DecidableEq, Repr

/-- Outcome of code with `unsafe` blocks: it does something, or its behaviour is undefined.
Used for src/packet.rs:304-313. -/
inductive Raw (α : Type) where
  | ok (a : α)
  | ub (u : Ub)
  deriving DecidableEq, Repr

/-- The monad of these computations. Used for src/packet.rs:304-313. -/
instance : Monad Raw where
  pure := .ok
  bind x f := match x with
    | .ok a => f a
    | .ub u => .ub u

/-- What the result of the code depends on and the code does not determine: the byte order of the processor,
and the address and capacity of the memory that the allocator returns for a `Vec<u8>` with a capacity.
Used for src/packet.rs:304-313. -/
structure Machine where
  bigEndian : Bool
  alloc : (capacity : Nat) → Nat × Nat

/-- The memory of a `Vec<u8>`: address, capacity and the octets of the vector at the beginning.
Used for src/packet.rs:304-313. -/
structure Block where
  base : Nat
  cap : Nat
  data : Bytes
  deriving DecidableEq, Repr

/-- `u16::to_be` (std): exchanges the octets on little-endian machines.  Used for src/packet.rs:304-313. -/
def Machine.toBe (m : Machine) (v : UInt16) : UInt16 :=
  if m.bigEndian then v else UInt16.ofNat (v.toNat % 256 * 256 + v.toNat / 256)

/-- The two octets of a `u16` in memory.  Used for src/packet.rs:304-313. -/
def Machine.native (m : Machine) (v : UInt16) : Bytes :=
  if m.bigEndian then [UInt8.ofNat (v.toNat / 256), UInt8.ofNat (v.toNat % 256)]
  else [UInt8.ofNat (v.toNat % 256), UInt8.ofNat (v.toNat / 256)]

namespace Block
/-- `ptr.offset(k)` (std) of a `*mut u16`: undefined unless the result is in the allocation or right behind it.
Used for src/packet.rs:304-313. -/
def offset (b : Block) (ptr k : Nat) : Raw Nat :=
  if b.base ≤ ptr + 2 * k ∧ ptr + 2 * k ≤ b.base + b.cap then .ok (ptr + 2 * k) else .ub .offset

/-- `*ptr = v` for a `*mut u16`: undefined unless the address is even and both octets are in the allocation.
Octets of the capacity behind the vector are not kept.  Used for src/packet.rs:304-313. -/
def store (m : Machine) (b : Block) (ptr : Nat) (v : UInt16) : Raw Block :=
  if ptr % 2 ≠ 0 then .ub .unaligned
  else if ptr < b.base ∨ b.base + b.cap < ptr + 2 then .ub .outOfBounds
  else .ok { b with
    data := (b.data.take (ptr - b.base) ++ m.native v ++ b.data.drop (ptr - b.base + 2)).take b.data.length }
end Block

namespace Packet
/-- src/packet.rs:297-313: the vector with the header, and the counts written into it.  `bytes` is the
capacity asked for. -/
def headerRaw (m : Machine) (p : Packet) (bytes : Nat) : Raw Bytes := do
  let bin : Block := ⟨(m.alloc bytes).1, (m.alloc bytes).2, p.header.toBytes⟩
  let ptr := bin.base
  let ptr ← bin.offset ptr 2
  let bin ← bin.store m ptr (m.toBe (lenU16 p.questions.length))
  let ptr ← bin.offset ptr 1
  let bin ← bin.store m ptr (m.toBe (lenU16 p.answers.length))
  let ptr ← bin.offset ptr 1
  let bin ← bin.store m ptr (m.toBe (lenU16 p.authorities.length))
  let ptr ← bin.offset ptr 1
  let bin ← bin.store m ptr (m.toBe (lenU16 p.additional.length))
  return bin.data

/-- src/packet.rs:282-329 `to_bytes`, statement by statement: the sizes first, then the header, then the
sections. -/
def toBytesRaw (m : Machine) (cfg : Cfg) (p : Packet) : Raw (Res Bytes) :=
  match p.byteSize cfg with
  | .ok n => do
    let bin ← p.headerRaw m n
    return do
      let bin := p.questions.foldl (fun bin q => bin ++ q.toBytes cfg) bin
      let bin ← recordsBytes cfg p.answers bin
      let bin ← recordsBytes cfg p.authorities bin
      recordsBytes cfg p.additional bin
  | .err e => return .err e
  | .panic k => return .panic k
  | .hang => return .hang
end Packet

namespace Fqdn
/-- src/fqdn.rs:87-98 `Display::fmt`: the octets handed to the formatter, label by label, if every label may
be made a `str` by line 91. -/
def displayRaw : Fqdn → Raw Bytes
  | [] => return []
  | [l] => if utf8Valid l then return l else .ub .utf8
  | l :: ls => if utf8Valid l then do
      let s ← displayRaw ls
      return l ++ 0x2E :: s
    else .ub .utf8
end Fqdn

end Dns
