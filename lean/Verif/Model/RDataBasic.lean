import Verif.Model.Fqdn

/-
RDATA types of RFC 1035 and simple later ones: one structure per file of src/rdata.
`Ipv4Addr` is a `UInt32` and `Ipv6Addr` a 128-bit vector (`From<u32>`/`From<u128>` and `octets()` of
the standard library are the big-endian conversions).  Strings are their UTF-8 octets.
-/

namespace Dns
open Buf

/-- src/rdata/a.rs:13 `struct A`. -/
structure A where
  addr : UInt32
  deriving DecidableEq, Repr
namespace A
/-- src/rdata/a.rs:36-38 -/
def parse : Parser A := do
  let a ← extractU32
  return ⟨a⟩
/-- src/rdata/a.rs:52-54 -/
def byteSize (_ : A) : Nat := 4
/-- src/rdata/a.rs:56-58 -/
def toBytes (r : A) : Bytes := u32be r.addr
end A

/-- src/rdata/aaaa.rs:15 `struct Aaaa`. -/
structure Aaaa where
  addr : BitVec 128
  deriving DecidableEq, Repr
namespace Aaaa
/-- src/rdata/aaaa.rs:38-42 -/
def parse : Parser Aaaa := do
  let a ← extractU128
  return ⟨a⟩
/-- src/rdata/aaaa.rs:56-58 -/
def byteSize (_ : Aaaa) : Nat := 16
/-- src/rdata/aaaa.rs:60-62 -/
def toBytes (r : Aaaa) : Bytes := toBE 16 r.addr.toNat
end Aaaa

/-- src/rdata/ns.rs:21-23 `struct Ns`. -/
structure Ns where
  nsdname : Fqdn
  deriving DecidableEq, Repr
namespace Ns
/-- src/rdata/ns.rs:34-38 -/
def parse : Parser Ns := do
  let n ← extractFqdn
  return ⟨n⟩
/-- src/rdata/ns.rs:52-54 -/
def byteSize (r : Ns) : Nat := r.nsdname.byteSize
/-- src/rdata/ns.rs:56-58 -/
def toBytes (r : Ns) : Bytes := r.nsdname.toBytes
/-- src/rdata/ns.rs:66-68 -/
def toBytesCompressed (h : Hash) (r : Ns) (names : Names) (offset : Nat) : Bytes × Names :=
  r.nsdname.toBytesCompressed h names offset
end Ns

/-- src/rdata/cname.rs:21-23 `struct Cname`. -/
structure Cname where
  cname : Fqdn
  deriving DecidableEq, Repr
namespace Cname
/-- src/rdata/cname.rs:34-38 -/
def parse : Parser Cname := do
  let n ← extractFqdn
  return ⟨n⟩
/-- src/rdata/cname.rs:52-54 -/
def byteSize (r : Cname) : Nat := r.cname.byteSize
/-- src/rdata/cname.rs:56-58 -/
def toBytes (r : Cname) : Bytes := r.cname.toBytes
/-- src/rdata/cname.rs:66-68 -/
def toBytesCompressed (h : Hash) (r : Cname) (names : Names) (offset : Nat) : Bytes × Names :=
  r.cname.toBytesCompressed h names offset
end Cname

/-- src/rdata/ptr.rs:16 `struct Ptr`. -/
structure Ptr where
  ptrdname : Fqdn
  deriving DecidableEq, Repr
namespace Ptr
/-- src/rdata/ptr.rs:39-41 -/
def parse : Parser Ptr := do
  let n ← extractFqdn
  return ⟨n⟩
/-- src/rdata/ptr.rs:55-57 -/
def byteSize (r : Ptr) : Nat := r.ptrdname.byteSize
/-- src/rdata/ptr.rs:59-61 -/
def toBytes (r : Ptr) : Bytes := r.ptrdname.toBytes
/-- src/rdata/ptr.rs:69-71 -/
def toBytesCompressed (h : Hash) (r : Ptr) (names : Names) (offset : Nat) : Bytes × Names :=
  r.ptrdname.toBytesCompressed h names offset
end Ptr

/-- src/rdata/mx.rs:14-23 `struct Mx`. -/
structure Mx where
  preference : UInt16
  exchange : Fqdn
  deriving DecidableEq, Repr
namespace Mx
/-- src/rdata/mx.rs:37-42 -/
def parse : Parser Mx := do
  let p ← extractU16
  let n ← extractFqdn
  return ⟨p, n⟩
/-- src/rdata/mx.rs:56-58 -/
def byteSize (r : Mx) : Nat := 2 + r.exchange.byteSize
/-- src/rdata/mx.rs:60-65 -/
def toBytes (r : Mx) : Bytes := u16be r.preference ++ r.exchange.toBytes
/-- src/rdata/mx.rs:73-78 -/
def toBytesCompressed (h : Hash) (r : Mx) (names : Names) (offset : Nat) : Bytes × Names :=
  let n := r.exchange.toBytesCompressed h names (offset + 2)
  (u16be r.preference ++ n.1, n.2)
end Mx

/-- src/rdata/soa.rs:14-45 `struct Soa`. -/
structure Soa where
  mname : Fqdn
  rname : Fqdn
  serial : UInt32
  refresh : UInt32
  retry : UInt32
  expire : UInt32
  minimum : UInt32
  deriving DecidableEq, Repr
namespace Soa
/-- src/rdata/soa.rs:72-82 -/
def parse : Parser Soa := do
  let m ← extractFqdn
  let r ← extractFqdn
  let s ← extractU32
  let rf ← extractU32
  let rt ← extractU32
  let ex ← extractU32
  let mi ← extractU32
  return ⟨m, r, s, rf, rt, ex, mi⟩
/-- src/rdata/soa.rs:96-98 -/
def byteSize (r : Soa) : Nat := r.mname.byteSize + r.rname.byteSize + 4 * 5
/-- src/rdata/soa.rs:100-110 -/
def toBytes (r : Soa) : Bytes :=
  r.mname.toBytes ++ r.rname.toBytes ++ u32be r.serial ++ u32be r.refresh ++ u32be r.retry
    ++ u32be r.expire ++ u32be r.minimum
/-- src/rdata/soa.rs:120-130 -/
def toBytesCompressed (h : Hash) (r : Soa) (names : Names) (offset : Nat) : Bytes × Names :=
  let m := r.mname.toBytesCompressed h names offset
  let n := r.rname.toBytesCompressed h m.2 (offset + m.1.length)
  (m.1 ++ n.1 ++ u32be r.serial ++ u32be r.refresh ++ u32be r.retry
    ++ u32be r.expire ++ u32be r.minimum, n.2)
end Soa

/-- src/rdata/minfo.rs:14-31 `struct Minfo`. -/
structure Minfo where
  rmailbx : Fqdn
  emailbx : Fqdn
  deriving DecidableEq, Repr
namespace Minfo
/-- src/rdata/minfo.rs:42-47 -/
def parse : Parser Minfo := do
  let r ← extractFqdn
  let e ← extractFqdn
  return ⟨r, e⟩
/-- src/rdata/minfo.rs:61-63 -/
def byteSize (r : Minfo) : Nat := r.rmailbx.byteSize + r.emailbx.byteSize
/-- src/rdata/minfo.rs:65-70 -/
def toBytes (r : Minfo) : Bytes := r.rmailbx.toBytes ++ r.emailbx.toBytes
/-- src/rdata/minfo.rs:79-88 -/
def toBytesCompressed (h : Hash) (r : Minfo) (names : Names) (offset : Nat) : Bytes × Names :=
  let m := r.rmailbx.toBytesCompressed h names offset
  let n := r.emailbx.toBytesCompressed h m.2 (offset + m.1.length)
  (m.1 ++ n.1, n.2)
end Minfo

/-- src/rdata/hinfo.rs:14-17 `struct Hinfo`. -/
structure Hinfo where
  cpu : Bytes
  os : Bytes
  deriving DecidableEq, Repr
namespace Hinfo
/-- src/rdata/hinfo.rs:28-33 -/
def parse : Parser Hinfo := do
  let c ← extractCharacterString
  let o ← extractCharacterString
  return ⟨c, o⟩
/-- src/rdata/hinfo.rs:47-49 -/
def byteSize (r : Hinfo) : Nat := r.cpu.length + r.os.length + 2
/-- src/rdata/hinfo.rs:51-58 -/
def toBytes (r : Hinfo) : Bytes :=
  [lenU8 r.cpu.length] ++ r.cpu ++ [lenU8 r.os.length] ++ r.os
end Hinfo

/-- src/rdata/txt.rs:11 `struct Txt`. -/
structure Txt where
  strings : List Bytes
  deriving DecidableEq, Repr
namespace Txt
/-- src/rdata/txt.rs:24-29, the body of the loop -/
def step (acc : List Bytes) : Parser (List Bytes) := do
  let n ← extractU8
  let b ← extractBytes n.toNat
  return acc ++ [utf8Lossy b]
/-- src/rdata/txt.rs:22-31 -/
def parse : Parser Txt := do
  let l ← whileRemaining [] step
  return ⟨l⟩
/-- src/rdata/txt.rs:45-47 -/
def byteSize (r : Txt) : Nat := r.strings.foldl (fun acc e => acc + e.length + 1) 0
/-- src/rdata/txt.rs:49-56 -/
def toBytes (r : Txt) : Bytes :=
  r.strings.foldl (fun buff e => buff ++ [lenU8 e.length] ++ e) []
end Txt

/-- src/rdata/wks.rs:26-36 `struct Wks`. -/
structure Wks where
  address : UInt32
  protocol : UInt8
  bitmap : Bytes
  deriving DecidableEq, Repr
namespace Wks
/-- src/rdata/wks.rs:51-57 -/
def parse : Parser Wks := do
  let a ← extractU32
  let p ← extractU8
  let b ← extractRest
  return ⟨a, p, b⟩
/-- src/rdata/wks.rs:71-73 -/
def byteSize (r : Wks) : Nat := 4 + 1 + r.bitmap.length
/-- src/rdata/wks.rs:75-81 -/
def toBytes (r : Wks) : Bytes := u32be r.address ++ [r.protocol] ++ r.bitmap
end Wks

/-- src/rdata/null.rs:14-16 `struct Null`. -/
structure Null where
  anything : Bytes
  deriving DecidableEq, Repr
namespace Null
/-- src/rdata/null.rs:27-31 -/
def parse : Parser Null := do
  let b ← extractRest
  return ⟨b⟩
/-- src/rdata/null.rs:45-47 -/
def byteSize (r : Null) : Nat := r.anything.length
/-- src/rdata/null.rs:49-51 -/
def toBytes (r : Null) : Bytes := r.anything
end Null

/-- src/rdata/openpgpkey.rs:16 `struct OpenPgpKey`. -/
structure OpenPgpKey where
  key : Bytes
  deriving DecidableEq, Repr
namespace OpenPgpKey
/-- src/rdata/openpgpkey.rs:21-23 -/
def parse : Parser OpenPgpKey := do
  let b ← extractRest
  return ⟨b⟩
/-- src/rdata/openpgpkey.rs:37-39 -/
def byteSize (r : OpenPgpKey) : Nat := r.key.length
/-- src/rdata/openpgpkey.rs:41-43 -/
def toBytes (r : OpenPgpKey) : Bytes := r.key
end OpenPgpKey

/-- src/rdata/uri.rs:21-40 `struct Uri`. -/
structure Uri where
  priority : UInt16
  weight : UInt16
  target : Bytes
  deriving DecidableEq, Repr
namespace Uri
/-- src/rdata/uri.rs:55-61 -/
def parse : Parser Uri := do
  let p ← extractU16
  let w ← extractU16
  let t ← extractRest
  return ⟨p, w, t⟩
/-- src/rdata/uri.rs:75-77 -/
def byteSize (r : Uri) : Nat := 2 * 2 + r.target.length
/-- src/rdata/uri.rs:79-85 -/
def toBytes (r : Uri) : Bytes := u16be r.priority ++ u16be r.weight ++ r.target
end Uri

/-- src/rdata/loc.rs:15-84 `struct Loc`. -/
structure Loc where
  version : UInt8
  size : UInt8
  horizPre : UInt8
  vertPre : UInt8
  latitude : UInt32
  longitude : UInt32
  altitude : UInt32
  deriving DecidableEq, Repr
namespace Loc
/-- src/rdata/loc.rs:89-99 -/
def parse : Parser Loc := do
  let v ← extractU8
  let s ← extractU8
  let h ← extractU8
  let vp ← extractU8
  let la ← extractU32
  let lo ← extractU32
  let al ← extractU32
  return ⟨v, s, h, vp, la, lo, al⟩
/-- src/rdata/loc.rs:113-115 -/
def byteSize (_ : Loc) : Nat := 16
/-- src/rdata/loc.rs:117-127 -/
def toBytes (r : Loc) : Bytes :=
  [r.version] ++ [r.size] ++ [r.horizPre] ++ [r.vertPre] ++ u32be r.latitude ++ u32be r.longitude
    ++ u32be r.altitude
end Loc

/-- src/rdata/eui48.rs:11 `struct Eui48([u8; 6])`, as a 48-bit big-endian number. -/
structure Eui48 where
  addr : BitVec 48
  deriving DecidableEq, Repr
namespace Eui48
/-- src/rdata/eui48.rs:16-18 -/
def parse : Parser Eui48 := do
  let b ← extractBytes 6
  return ⟨BitVec.ofNat 48 (ofBE b)⟩
/-- src/rdata/eui48.rs:32-34 -/
def byteSize (_ : Eui48) : Nat := 6
/-- src/rdata/eui48.rs:36-38 -/
def toBytes (r : Eui48) : Bytes := toBE 6 r.addr.toNat
end Eui48

/-- src/rdata/eui64.rs:11 `struct Eui64([u8; 8])`, as a 64-bit big-endian number. -/
structure Eui64 where
  addr : BitVec 64
  deriving DecidableEq, Repr
namespace Eui64
/-- src/rdata/eui64.rs:16-18 -/
def parse : Parser Eui64 := do
  let b ← extractBytes 8
  return ⟨BitVec.ofNat 64 (ofBE b)⟩
/-- src/rdata/eui64.rs:32-34 -/
def byteSize (_ : Eui64) : Nat := 8
/-- src/rdata/eui64.rs:36-38 -/
def toBytes (r : Eui64) : Bytes := toBE 8 r.addr.toNat
end Eui64

/-- src/rdata/srv.rs:15-50 `struct Srv`. -/
structure Srv where
  priority : UInt16
  weight : UInt16
  port : UInt16
  target : Fqdn
  deriving DecidableEq, Repr
namespace Srv
/-- src/rdata/srv.rs:66-73 -/
def parse : Parser Srv := do
  let p ← extractU16
  let w ← extractU16
  let o ← extractU16
  let t ← extractFqdn
  return ⟨p, w, o, t⟩
/-- src/rdata/srv.rs:87-89 -/
def byteSize (r : Srv) : Nat := 3 * 2 + r.target.byteSize
/-- src/rdata/srv.rs:91-98 -/
def toBytes (r : Srv) : Bytes :=
  u16be r.priority ++ u16be r.weight ++ u16be r.port ++ r.target.toBytes
/-- src/rdata/srv.rs:106-113 -/
def toBytesCompressed (h : Hash) (r : Srv) (names : Names) (offset : Nat) : Bytes × Names :=
  let n := r.target.toBytesCompressed h names (offset + 6)
  (u16be r.priority ++ u16be r.weight ++ u16be r.port ++ n.1, n.2)
end Srv

/-- src/rdata/naptr.rs:177-182 `enum Flag`. -/
inductive NaptrFlag where
  | S | A | U | P
  deriving DecidableEq, Repr
namespace NaptrFlag
/-- src/rdata/naptr.rs:184-196 `TryFrom<u8>` -/
def ofU8 (v : UInt8) : Res NaptrFlag :=
  match v with
  | 83 => .ok .S
  | 65 => .ok .A
  | 85 => .ok .U
  | 80 => .ok .P
  | v => .err (.invalidNaptrFlag v)
/-- src/rdata/naptr.rs:198-207 `From<Flag> for u8` -/
def toU8 : NaptrFlag → UInt8
  | .S => 83
  | .A => 65
  | .U => 85
  | .P => 80
/-- src/rdata/naptr.rs:99-103: `flat_map` over the `Result`s drops the octets that are no flag. -/
def ofBytes : Bytes → List NaptrFlag
  | [] => []
  | b :: bs =>
    match ofU8 b with
    | .ok f => f :: ofBytes bs
    | _ => ofBytes bs
end NaptrFlag

/-- src/rdata/naptr.rs:17-70 `struct Naptr`. -/
structure Naptr where
  order : UInt16
  preference : UInt16
  flags : List NaptrFlag
  service : Bytes
  regexp : Bytes
  replacement : Fqdn
  deriving DecidableEq, Repr
namespace Naptr
/-- src/rdata/naptr.rs:95-108 -/
def parse : Parser Naptr := do
  let o ← extractU16
  let p ← extractU16
  let f ← extractCharacterString
  let s ← extractCharacterString
  let r ← extractString
  let n ← extractFqdn
  return ⟨o, p, NaptrFlag.ofBytes f, s, r, n⟩
/-- src/rdata/naptr.rs:122-129 -/
def byteSize (r : Naptr) : Nat :=
  2 * 2 + 3 * 1 + r.flags.length + r.service.length + r.regexp.length + r.replacement.byteSize
/-- src/rdata/naptr.rs:133-140: everything before the name -/
def headBytes (r : Naptr) : Bytes :=
  u16be r.order ++ u16be r.preference ++ [lenU8 r.flags.length] ++ r.flags.map NaptrFlag.toU8
    ++ [lenU8 r.service.length] ++ r.service ++ [lenU8 r.regexp.length] ++ r.regexp
/-- src/rdata/naptr.rs:131-143 -/
def toBytes (r : Naptr) : Bytes := r.headBytes ++ r.replacement.toBytes
/-- src/rdata/naptr.rs:157-173 -/
def toBytesCompressed (h : Hash) (r : Naptr) (names : Names) (offset : Nat) : Bytes × Names :=
  let n := r.replacement.toBytesCompressed h names (offset + r.headBytes.length)
  (r.headBytes ++ n.1, n.2)
end Naptr

end Dns
