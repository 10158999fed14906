import Verif.Model.RDataMore
import Verif.Model.Types

/-
Type bitmaps: CSYNC (src/rdata/csync.rs) and NSEC (src/rdata/dnssec.rs), which contain the same
code for reading and writing the bitmap.
-/

namespace Dns
open Buf

/-- `BTreeSet::insert` on the strictly increasing list of the elements, ordered by `key`: an
element whose key is already present is not inserted.
Used at src/rdata/csync.rs:94-97, src/rdata/dnssec.rs:71-75 and src/rdata/svcb.rs:56-63. -/
def btInsert {α : Type} (key : α → Nat) (x : α) : List α → List α
  | [] => [x]
  | y :: ys =>
    if key x < key y then x :: y :: ys
    else if key y < key x then y :: btInsert key x ys
    else y :: ys

namespace RecordType
/-- Derived `Ord` of `RecordType` (src/resource.rs:64): by discriminant. -/
def ord (t : RecordType) : Nat := t.toU16.toNat
end RecordType

namespace Bitmap

/-- src/rdata/csync.rs:94-97 / dnssec.rs:71-74: bit `i` of the octet with number `index`. -/
def readBit (cfg : Cfg) (window index : Nat) (octet : UInt8) (i : Nat) (acc : List RecordType) :
    Res (List RecordType) :=
  if (octet <<< UInt8.ofNat i) &&& 0x80 > 0 then do
    let p ← addU16 cfg (256 * window) (8 * index)
    let p ← addU16 cfg p i
    let t ← RecordType.ofU16 cfg (UInt16.ofNat p)
    return btInsert RecordType.ord t acc
  else return acc

/-- src/rdata/csync.rs:93-98 / dnssec.rs:70-75: the bits `i, i+1, ..., 7` of an octet. -/
def readOctet (cfg : Cfg) (window index : Nat) (octet : UInt8) :
    List Nat → List RecordType → Res (List RecordType)
  | [], acc => return acc
  | i :: is, acc => do
    let acc ← readBit cfg window index octet i acc
    readOctet cfg window index octet is acc

/-- src/rdata/csync.rs:92-99 / dnssec.rs:69-76: the octets of one window. -/
def readWindow (cfg : Cfg) (window : Nat) : Nat → Bytes → List RecordType → Res (List RecordType)
  | _, [], acc => return acc
  | index, o :: os, acc => do
    let acc ← readOctet cfg window index o [0, 1, 2, 3, 4, 5, 6, 7] acc
    readWindow cfg window (index + 1) os acc

/-- src/rdata/csync.rs:85-100 / dnssec.rs:62-77, the body of the loop. -/
def readStep (cfg : Cfg) (acc : List RecordType) : Parser (List RecordType) := do
  let window ← extractU8
  let len ← extractU8
  let bitmap ← extractBytes len.toNat
  Parser.lift (readWindow cfg window.toNat 0 bitmap acc)

/-- src/rdata/csync.rs:84-100 / dnssec.rs:61-77. -/
def parse (cfg : Cfg) : Parser (List RecordType) := whileRemaining [] (readStep cfg)

/-- Local variables of the writing loop (src/rdata/csync.rs:153-155 / dnssec.rs:118-120). -/
structure WState where
  blockNum : Nat
  blockLen : Nat
  blockData : Bytes
  out : Bytes
  deriving DecidableEq, Repr

/-- src/rdata/csync.rs:153-155 / dnssec.rs:118-120. -/
def WState.init : WState := ⟨0, 0, List.replicate 32 0, []⟩

/-- src/rdata/csync.rs:162-164 / dnssec.rs:127-129: push the finished block. -/
def finish (s : WState) : Res Bytes :=
  if s.blockLen < 32 then
    .ok (s.out ++ [UInt8.ofNat s.blockNum, UInt8.ofNat (s.blockLen + 1)]
          ++ s.blockData.take (s.blockLen + 1))
  else .panic .index

/-- src/rdata/csync.rs:159-176 / dnssec.rs:124-141: one loop iteration for the type number `t`.
Simplified: `block_num * 32` cannot overflow below 2048 iterations that finish a block. -/
def writeType (cfg : Cfg) (s : WState) (t : Nat) : Res WState := do
  let diff ← subU16 cfg t (s.blockNum * 32)
  let s ← if diff > 255 then do
      let out ← finish s
      pure (⟨s.blockNum + 1, s.blockLen, List.replicate 32 0, out⟩ : WState)
    else pure s
  let len ← subU16 cfg (t / 8) (32 * s.blockNum)
  let len := len % 256
  if len < 32 then
    pure { s with
      blockLen := len
      blockData := s.blockData.set len (s.blockData.getD len 0 ||| ((128 : UInt8) >>> UInt8.ofNat (t % 8))) }
  else .panic .index

/-- src/rdata/csync.rs:158-176 / dnssec.rs:123-141: the loop. -/
def writeLoop (cfg : Cfg) : WState → List Nat → Res Bytes
  | s, [] => finish s
  | s, t :: ts => do
    let s ← writeType cfg s t
    writeLoop cfg s ts

/-- src/rdata/csync.rs:151-176 / dnssec.rs:116-141, 180-205. -/
def toBytes (cfg : Cfg) (types : List RecordType) : Res Bytes :=
  writeLoop cfg .init (types.map RecordType.ord)

/-- src/rdata/csync.rs:128-141 / dnssec.rs:94-107, 154-167: `block_num`, `last_rtype`
(`unwrap_or(0)`) and the size so far. -/
def sizeLoop (cfg : Cfg) : Nat → Nat → Nat → List Nat → Res Nat
  | blockNum, last, size, [] => do
    let n ← subU16 cfg (last / 8) (32 * blockNum)
    return size + 2 + (n + 1)
  | blockNum, last, size, t :: ts => do
    let diff ← subU16 cfg t (blockNum * 32)
    if diff > 255 then
      let n ← subU16 cfg (last / 8) (32 * blockNum)
      sizeLoop cfg (blockNum + 1) t (size + 2 + (n + 1)) ts
    else sizeLoop cfg blockNum t size ts

/-- src/rdata/csync.rs:125-141 / dnssec.rs:91-107. -/
def byteSize (cfg : Cfg) (types : List RecordType) : Res Nat :=
  sizeLoop cfg 0 0 0 (types.map RecordType.ord)

end Bitmap

/-- src/rdata/csync.rs:183 `struct Flags(u16)`. -/
structure CsyncFlags where
  bits : UInt16
  deriving DecidableEq, Repr
namespace CsyncFlags
/-- src/rdata/csync.rs:186-188 -/
def new : CsyncFlags := ⟨0⟩
/-- src/rdata/csync.rs:190-192 -/
def immediate (f : CsyncFlags) : Bool := f.bits &&& 1 != 0
/-- src/rdata/csync.rs:194-200 -/
def setImmediate (f : CsyncFlags) (active : Bool) : CsyncFlags :=
  if active then ⟨f.bits ||| 1⟩ else ⟨f.bits &&& ~~~1⟩
/-- src/rdata/csync.rs:202-204 -/
def soaMinimum (f : CsyncFlags) : Bool := f.bits &&& 2 != 0
/-- src/rdata/csync.rs:206-212 -/
def setSoaMinimum (f : CsyncFlags) (active : Bool) : CsyncFlags :=
  if active then ⟨f.bits ||| 2⟩ else ⟨f.bits &&& ~~~2⟩
/-- src/rdata/csync.rs:215-224 -/
def ofU16 (v : UInt16) : Res CsyncFlags :=
  if v &&& 0xFFFC ≠ 0 then .err (.invalidCsyncFlag v) else .ok ⟨v⟩
end CsyncFlags

/-- src/rdata/csync.rs:39-64 `struct Csync`. -/
structure Csync where
  soaSerial : UInt32
  flags : CsyncFlags
  types : List RecordType
  deriving DecidableEq, Repr
namespace Csync
/-- src/rdata/csync.rs:79-107 -/
def parse (cfg : Cfg) : Parser Csync := do
  let s ← extractU32
  let f ← extractU16
  let f ← Parser.lift (CsyncFlags.ofU16 f)
  let t ← Bitmap.parse cfg
  return ⟨s, f, t⟩
/-- src/rdata/csync.rs:122-144 -/
def byteSize (cfg : Cfg) (r : Csync) : Res Nat := do
  let n ← Bitmap.byteSize cfg r.types
  return 4 + 2 + n
/-- src/rdata/csync.rs:146-179 -/
def toBytes (cfg : Cfg) (r : Csync) : Res Bytes := do
  let b ← Bitmap.toBytes cfg r.types
  return u32be r.soaSerial ++ u16be r.flags.bits ++ b
end Csync

/-- src/rdata/dnssec.rs:22-25 `struct Nsec`. -/
structure Nsec where
  nextDomainName : Fqdn
  types : List RecordType
  deriving DecidableEq, Repr
namespace Nsec
/-- src/rdata/dnssec.rs:57-83 -/
def parse (cfg : Cfg) : Parser Nsec := do
  let n ← extractFqdn
  let t ← Bitmap.parse cfg
  return ⟨n, t⟩
/-- src/rdata/dnssec.rs:88-110 -/
def byteSize (cfg : Cfg) (r : Nsec) : Res Nat := do
  let n ← Bitmap.byteSize cfg r.types
  return r.nextDomainName.byteSize + n
/-- src/rdata/dnssec.rs:112-144 (line 113 computes the size for the capacity) -/
def toBytes (cfg : Cfg) (r : Nsec) : Res Bytes := do
  let _ ← r.byteSize cfg
  let b ← Bitmap.toBytes cfg r.types
  return r.nextDomainName.toBytes ++ b
/-- src/rdata/dnssec.rs:172-208 -/
def toBytesCompressed (cfg : Cfg) (h : Hash) (r : Nsec) (names : Names) (offset : Nat) :
    Res (Bytes × Names) := do
  let n := r.nextDomainName.toBytesCompressed h names offset
  let b ← Bitmap.toBytes cfg r.types
  return (n.1 ++ b, n.2)
end Nsec

end Dns
