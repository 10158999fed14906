import Verif.Model.Buffer

/-
src/header.rs: message header.
-/

namespace Dns

/-- src/header.rs:245-254 `enum OpCode`. -/
inductive OpCode where
  | standardQuery | inverseQuery | serverStatusRequest | reserved
  deriving DecidableEq, Repr

/-- src/header.rs:245-254, `as u8` / `transmute` to `u8`. -/
def OpCode.toU8 : OpCode → UInt8
  | .standardQuery => 0
  | .inverseQuery => 1
  | .serverStatusRequest => 2
  | .reserved => 3

/-- src/header.rs:256-265 `From<u8> for OpCode`. -/
def OpCode.ofU8 (c : UInt8) : OpCode :=
  match c with
  | 0 => .standardQuery
  | 1 => .inverseQuery
  | 2 => .serverStatusRequest
  | _ => .reserved

/-- src/header.rs:270-307 `enum ResponseCode`. -/
inductive ResponseCode where
  | noError | formatError | serverFailure | nameError | notImplemented | refused
  | yxDomain | yxRRSet | nxRRSet | notAuth | notZone
  deriving DecidableEq, Repr

/-- src/header.rs:270-307, `transmute` to `u8`. -/
def ResponseCode.toU8 : ResponseCode → UInt8
  | .noError => 0
  | .formatError => 1
  | .serverFailure => 2
  | .nameError => 3
  | .notImplemented => 4
  | .refused => 5
  | .yxDomain => 6
  | .yxRRSet => 7
  | .nxRRSet => 8
  | .notAuth => 9
  | .notZone => 10

/-- src/header.rs:309-328 `TryFrom<u8> for ResponseCode`. -/
def ResponseCode.ofU8 (c : UInt8) : Res ResponseCode :=
  match c with
  | 0 => .ok .noError
  | 1 => .ok .formatError
  | 2 => .ok .serverFailure
  | 3 => .ok .nameError
  | 4 => .ok .notImplemented
  | 5 => .ok .refused
  | 6 => .ok .yxDomain
  | 7 => .ok .yxRRSet
  | 8 => .ok .nxRRSet
  | 9 => .ok .notAuth
  | 10 => .ok .notZone
  | c => .err (.invalidResponseCode c)

/-- src/header.rs:218-240 `FlagBitfield`: two octets, filled from the least significant bit.
First octet: rd bit 0, tc 1, aa 2, opcode 3-6, qr 7.  Second octet: rcode bits 0-3, z 4-6, ra 7.
The accessors below model the code generated by the crate `modular_bitfield`
(not in /repo). -/
structure Flags where
  hi : UInt8
  lo : UInt8
  deriving DecidableEq, Repr

namespace Flags

/-- `FlagBitfield::new()`.  Used at src/header.rs:59-86. -/
def zero : Flags := ⟨0, 0⟩

/-- The `w`-bit field at bit `s` of `b`.  Made by the crate `modular-bitfield` for src/header.rs:220-240. -/
def getField (b : UInt8) (s w : Nat) : UInt8 :=
  UInt8.ofNat (b.toNat / 2 ^ s % 2 ^ w)

/-- Replace the `w`-bit field at bit `s` of `b` by `v` (`v < 2^w`; larger values are refused by
`modular_bitfield` with a panic and are not produced by the callers).
Made by the crate `modular-bitfield` for src/header.rs:220-240. -/
def setField (b : UInt8) (s w : Nat) (v : UInt8) : UInt8 :=
  UInt8.ofNat (b.toNat - b.toNat / 2 ^ s % 2 ^ w * 2 ^ s + v.toNat % 2 ^ w * 2 ^ s)

/-- getter of field `rd` (src/header.rs:223) -/
def rd (f : Flags) : UInt8 := getField f.hi 0 1
/-- getter of field `tc` (src/header.rs:225) -/
def tc (f : Flags) : UInt8 := getField f.hi 1 1
/-- getter of field `aa` (src/header.rs:228) -/
def aa (f : Flags) : UInt8 := getField f.hi 2 1
/-- getter of field `opcode` (src/header.rs:230) -/
def opcode (f : Flags) : UInt8 := getField f.hi 3 4
/-- getter of field `qr` (src/header.rs:232) -/
def qr (f : Flags) : UInt8 := getField f.hi 7 1
/-- getter of field `rcode` (src/header.rs:234) -/
def rcode (f : Flags) : UInt8 := getField f.lo 0 4
/-- getter of field `z` (src/header.rs:237) -/
def z (f : Flags) : UInt8 := getField f.lo 4 3
/-- getter of field `ra` (src/header.rs:239) -/
def ra (f : Flags) : UInt8 := getField f.lo 7 1

/-- setter of field `rd` (src/header.rs:223) -/
def setRd (f : Flags) (v : UInt8) : Flags := { f with hi := setField f.hi 0 1 v }
/-- setter of field `tc` (src/header.rs:225) -/
def setTc (f : Flags) (v : UInt8) : Flags := { f with hi := setField f.hi 1 1 v }
/-- setter of field `aa` (src/header.rs:228) -/
def setAa (f : Flags) (v : UInt8) : Flags := { f with hi := setField f.hi 2 1 v }
/-- setter of field `opcode` (src/header.rs:230) -/
def setOpcode (f : Flags) (v : UInt8) : Flags := { f with hi := setField f.hi 3 4 v }
/-- setter of field `qr` (src/header.rs:232) -/
def setQr (f : Flags) (v : UInt8) : Flags := { f with hi := setField f.hi 7 1 v }
/-- setter of field `rcode` (src/header.rs:234) -/
def setRcode (f : Flags) (v : UInt8) : Flags := { f with lo := setField f.lo 0 4 v }
/-- setter of field `ra` (src/header.rs:239) -/
def setRa (f : Flags) (v : UInt8) : Flags := { f with lo := setField f.lo 7 1 v }

end Flags

/-- `transmute::<bool, u8>` / `bool as u8`.  Used at src/header.rs:59-72 and src/header.rs:92-170. -/
def b2u (b : Bool) : UInt8 := if b then 1 else 0

/-- src/header.rs:33-51 `struct Header`. -/
structure Header where
  id : UInt16
  flags : Flags
  quesCount : UInt16
  ansCount : UInt16
  authCount : UInt16
  addCount : UInt16
  deriving DecidableEq, Repr

namespace Header

/-- src/header.rs:55 `SIZE = size_of::<Header>()`: five `u16` and a two-octet bit field. -/
def SIZE : Nat := 12

/-- `Header::default()` (derived, src/header.rs:32). -/
def default : Header := ⟨0, .zero, 0, 0, 0, 0⟩

/-- src/header.rs:59-72 `new_query`. -/
def newQuery (id : UInt16) (recursionDesired : Bool) : Header :=
  ⟨id, (Flags.zero.setOpcode OpCode.standardQuery.toU8).setRd (b2u recursionDesired), 0, 0, 0, 0⟩

/-- src/header.rs:76-86 `new_reply`. -/
def newReply (id : UInt16) (opcode : OpCode) : Header :=
  ⟨id, (Flags.zero.setOpcode opcode.toU8).setQr 1, 0, 0, 0, 0⟩

/-- src/header.rs:88-90 -/
def recursionDesired (h : Header) : Bool := h.flags.rd != 0
/-- src/header.rs:92-95 -/
def setRecursionDesired (h : Header) (rd : Bool) : Header :=
  { h with flags := h.flags.setRd (b2u rd) }
/-- src/header.rs:97-99 -/
def truncation (h : Header) : Bool := h.flags.tc != 0
/-- src/header.rs:101-104 -/
def setTruncation (h : Header) (tc : Bool) : Header :=
  { h with flags := h.flags.setTc (b2u tc) }
/-- src/header.rs:106-108 -/
def authoritativeAnswer (h : Header) : Bool := h.flags.aa != 0
/-- src/header.rs:110-113 -/
def setAuthoritativeAnswer (h : Header) (aa : Bool) : Header :=
  { h with flags := h.flags.setAa (b2u aa) }
/-- src/header.rs:115-117 -/
def opcode (h : Header) : OpCode := OpCode.ofU8 h.flags.opcode
/-- src/header.rs:119-123 -/
def setOpcode (h : Header) (o : OpCode) : Header :=
  { h with flags := h.flags.setOpcode o.toU8 }
/-- src/header.rs:125-127 -/
def queryResponse (h : Header) : Bool := h.flags.qr != 0
/-- src/header.rs:129-141 -/
def setQueryResponse (h : Header) (qr : Bool) : Header :=
  let f := h.flags.setQr (b2u qr)
  { h with flags := if !qr then (f.setRa 0).setRcode ResponseCode.noError.toU8 else f }
/-- src/header.rs:143-145: `unwrap` of the conversion. -/
def responseCode (h : Header) : Res ResponseCode :=
  match ResponseCode.ofU8 h.flags.rcode with
  | .ok r => .ok r
  | _ => .panic .unwrap
/-- src/header.rs:147-156 -/
def setResponseCode (h : Header) (r : ResponseCode) : Header :=
  let f := h.flags.setRcode r.toU8
  { h with flags := if r ≠ .noError then f.setQr 1 else f }
/-- src/header.rs:158-160 -/
def recursionAvailable (h : Header) : Bool := h.flags.ra != 0
/-- src/header.rs:162-170 -/
def setRecursionAvailable (h : Header) (ra : Bool) : Header :=
  let f := h.flags.setRa (b2u ra)
  { h with flags := if ra then f.setQr 1 else f }

/-- src/header.rs:174-176 `byte_size`. -/
def byteSize (_ : Header) : Nat := SIZE

/-- src/header.rs:178-187 `to_bytes`. -/
def toBytes (h : Header) : Bytes :=
  u16be h.id ++ [h.flags.hi, h.flags.lo] ++ u16be h.quesCount ++ u16be h.ansCount
    ++ u16be h.authCount ++ u16be h.addCount

/-- src/header.rs:205-214 `TryFrom<&mut DnsBuffer>`. -/
def parse : Parser Header := do
  let id ← Buf.extractU16
  let f ← Buf.extractBytes 2
  let q ← Buf.extractU16
  let an ← Buf.extractU16
  let au ← Buf.extractU16
  let ad ← Buf.extractU16
  return ⟨id, ⟨f.getD 0 0, f.getD 1 0⟩, q, an, au, ad⟩

end Header
end Dns
