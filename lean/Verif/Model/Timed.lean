import Verif.Model.Packet

/-
The reader once more, counting steps.  The text of the parsers is that of the other modules of the model, in the
monad `Timed` instead of `Parser`; that the outcomes are the same is proved (`C105_same`).

What is counted: every call of the buffer, every round of a loop and every conversion of a number is a step, and so is
every octet that is read, copied or checked.  Inserting into a set or a map and appending to a vector are part of the
round that does it.
-/

namespace Dns

/-- Functions `fn(&mut DnsBuffer) -> Result<α, DnsError>` (src/buffer.rs:11-14) with the number of steps they take.
If the outcome is `hang` the number means nothing. -/
def Timed (α : Type) := Bytes → Nat → (Res α × Nat) × Nat

namespace Timed
variable {α β : Type}

/-- `Ok(a)`. Used for all functions that take a buffer, src/buffer.rs:11-14. -/
protected def pure (a : α) : Timed α := fun _ i => ((.ok a, i), 0)

/-- `let x = p?; f(x)`.  Used for all functions that take a buffer, src/buffer.rs:11-14. -/
protected def bind (p : Timed α) (f : α → Timed β) : Timed β := fun d i =>
  match p d i with
  | ((.ok a, j), t) => ((f a d j).1, t + (f a d j).2)
  | ((.err e, j), t) => ((.err e, j), t)
  | ((.panic k, j), t) => ((.panic k, j), t)
  | ((.hang, j), t) => ((.hang, j), t)

/-- The monad of these computations. Used for all functions that take a buffer, src/buffer.rs:11-14. -/
instance : Monad Timed where
  pure := Timed.pure
  bind := Timed.bind

/-- `n` steps.  Used for all functions that take a buffer, src/buffer.rs:11-14. -/
def tick (n : Nat) : Timed Unit := fun _ i => ((.ok (), i), n)

/-- A computation that does not touch the buffer: one step.
Used for all functions that take a buffer, src/buffer.rs:11-14. -/
def lift (r : Res α) : Timed α := fun _ i => ((r, i), 1)

/-- `return Err(e)`.  Used for all functions that take a buffer, src/buffer.rs:11-14. -/
def fail (e : DnsError) : Timed α := fun _ i => ((.err e, i), 1)

/-- A call of the buffer that does not copy: one step.  Used for all functions that take a buffer, src/buffer.rs:11-14. -/
def call (p : Parser α) : Timed α := fun d i => (p d i, 1)

/-- `for _ in 0..n { v.push(p?) }`: one step for each round, and those of `p`.  Used at src/packet.rs:345-380. -/
def times : Nat → Timed α → Timed (List α)
  | 0, _ => Timed.pure []
  | n + 1, p => do
    tick 1
    let a ← p
    let as ← times n p
    return a :: as

/-- src/buffer.rs:33-35 `remaining`. -/
def remaining : Timed Nat := call Buf.remaining

/-- src/buffer.rs:43-49 `set_position`. -/
def setPosition (p : Nat) : Timed Unit := call (Buf.setPosition p)

/-- src/buffer.rs:52-59 `advance`. -/
def advance (len : Nat) : Timed Unit := call (Buf.advance len)

/-- src/buffer.rs:72-79 `extract_bytes`: the octets are looked at (or copied) by the caller. -/
def extractBytes (len : Nat) : Timed Bytes := fun d i =>
  if i + len > d.length then ((.err .lengthViolation, i), 1)
  else ((.ok ((d.drop i).take len), i + len), 1 + len)

/-- src/buffer.rs:20-29 `sub_buffer` followed by running `p` on the new buffer. -/
def withSubBuffer (len : Nat) (p : Timed α) : Timed (α × Nat) := fun d i =>
  if len + i > d.length then ((.err .lengthViolation, i), 1)
  else
    match p (d.take (len + i)) i with
    | ((.ok a, j), t) => ((.ok (a, j), i), 1 + t)
    | ((.err e, _), t) => ((.err e, i), 1 + t)
    | ((.panic k, _), t) => ((.panic k, i), 1 + t)
    | ((.hang, _), t) => ((.hang, i), 1 + t)

/-- src/buffer.rs:83-85 `extract_u8`. -/
def extractU8 : Timed UInt8 := do
  let b ← extractBytes 1
  return UInt8.ofNat (ofBE b)

/-- src/buffer.rs:89-91 `extract_u16`. -/
def extractU16 : Timed UInt16 := do
  let b ← extractBytes 2
  return UInt16.ofNat (ofBE b)

/-- src/buffer.rs:95-97 `extract_u32`. -/
def extractU32 : Timed UInt32 := do
  let b ← extractBytes 4
  return UInt32.ofNat (ofBE b)

/-- `u128::from_be_bytes(buffer.extract_bytes(16)?.try_into()?)`, e.g. src/rdata/aaaa.rs:39-41. -/
def extractU128 : Timed (BitVec 128) := do
  let b ← extractBytes 16
  return BitVec.ofNat 128 (ofBE b)

/-- `buffer.extract_bytes(buffer.remaining())?.to_vec()`, e.g. src/rdata/null.rs:29. -/
def extractRest : Timed Bytes := do
  let n ← remaining
  extractBytes n

/-- src/buffer.rs:112-117 `extract_character_string`. -/
def extractCharacterString : Timed Bytes := do
  let len ← extractU8
  extractBytes len.toNat

/-- src/buffer.rs:124-128 `extract_string`. -/
def extractString : Timed Bytes := do
  let s ← extractCharacterString
  tick s.length
  if utf8Valid s then return s else Timed.fail .lengthViolation

/-- Steps of one round of the loop src/buffer.rs:139-174: one, and one for each octet of the label copied. -/
def fqdnRound (d : Bytes) (s : Buf.FqdnState) : Nat :=
  match d[s.pos]? with
  | none => 1
  | some len => if len &&& 0xC0 = 0xC0 then 1 else 1 + len.toNat

/-- At most `fuel` rounds of the loop, with the steps.  Part of src/buffer.rs:134-175. -/
def fqdnLoop (d : Bytes) : Nat → Buf.FqdnState → Option (Res Fqdn × Nat) × Nat
  | 0, _ => (none, 0)
  | fuel + 1, s =>
    match Buf.fqdnStep d s with
    | .inr r => (some r, fqdnRound d s)
    | .inl s' => ((fqdnLoop d fuel s').1, fqdnRound d s + (fqdnLoop d fuel s').2)

/-- src/buffer.rs:134-175 `extract_fqdn`. -/
def extractFqdn : Timed Fqdn := fun d i =>
  match fqdnLoop d (Buf.fqdnFuel d) ⟨i, [], none⟩ with
  | (some r, t) => (r, t)
  | (none, t) => ((.hang, i), t)

/-- `while buffer.remaining() > 0 { s = body(s)?; }` with at most `fuel` rounds.
Used at src/rdata/txt.rs:24, src/rdata/csync.rs:85, src/rdata/dnssec.rs:62, src/rdata/opt.rs:34, src/rdata/hip.rs:48 and src/rdata/svcb.rs:56. -/
def whileRemainingFuel {σ : Type} (body : σ → Timed σ) : Nat → σ → Timed σ
  | 0, _ => Timed.lift .hang
  | fuel + 1, s => do
    let r ← remaining
    if r > 0 then
      let s' ← body s
      whileRemainingFuel body fuel s'
    else return s

/-- `while buffer.remaining() > 0 { s = body(s)?; }`.
Used at src/rdata/txt.rs:24, src/rdata/csync.rs:85, src/rdata/dnssec.rs:62, src/rdata/opt.rs:34, src/rdata/hip.rs:48 and src/rdata/svcb.rs:56. -/
def whileRemaining {σ : Type} (s : σ) (body : σ → Timed σ) : Timed σ := fun d i =>
  whileRemainingFuel body (d.length + 1) s d i

namespace Header
/-- src/header.rs:205-214 `TryFrom<&mut DnsBuffer>`. -/
def parse : Timed Header := do
  let id ← extractU16
  let f ← extractBytes 2
  let q ← extractU16
  let an ← extractU16
  let au ← extractU16
  let ad ← extractU16
  return ⟨id, ⟨f.getD 0 0, f.getD 1 0⟩, q, an, au, ad⟩
end Header

namespace A
/-- src/rdata/a.rs:36-38 -/
def parse : Timed A := do
  let a ← extractU32
  return ⟨a⟩
end A

namespace Aaaa
/-- src/rdata/aaaa.rs:38-42 -/
def parse : Timed Aaaa := do
  let a ← extractU128
  return ⟨a⟩
end Aaaa

namespace Ns
/-- src/rdata/ns.rs:34-38 -/
def parse : Timed Ns := do
  let n ← extractFqdn
  return ⟨n⟩
end Ns

namespace Cname
/-- src/rdata/cname.rs:34-38 -/
def parse : Timed Cname := do
  let n ← extractFqdn
  return ⟨n⟩
end Cname

namespace Ptr
/-- src/rdata/ptr.rs:39-41 -/
def parse : Timed Ptr := do
  let n ← extractFqdn
  return ⟨n⟩
end Ptr

namespace Mx
/-- src/rdata/mx.rs:37-42 -/
def parse : Timed Mx := do
  let p ← extractU16
  let n ← extractFqdn
  return ⟨p, n⟩
end Mx

namespace Soa
/-- src/rdata/soa.rs:72-82 -/
def parse : Timed Soa := do
  let m ← extractFqdn
  let r ← extractFqdn
  let s ← extractU32
  let rf ← extractU32
  let rt ← extractU32
  let ex ← extractU32
  let mi ← extractU32
  return ⟨m, r, s, rf, rt, ex, mi⟩
end Soa

namespace Minfo
/-- src/rdata/minfo.rs:42-47 -/
def parse : Timed Minfo := do
  let r ← extractFqdn
  let e ← extractFqdn
  return ⟨r, e⟩
end Minfo

namespace Hinfo
/-- src/rdata/hinfo.rs:28-33 -/
def parse : Timed Hinfo := do
  let c ← extractCharacterString
  let o ← extractCharacterString
  return ⟨c, o⟩
end Hinfo

namespace Txt
/-- src/rdata/txt.rs:24-29, the body of the loop -/
def step (acc : List Bytes) : Timed (List Bytes) := do
  let n ← extractU8
  let b ← extractBytes n.toNat
  tick b.length
  return acc ++ [utf8Lossy b]

/-- src/rdata/txt.rs:22-31 -/
def parse : Timed Txt := do
  let l ← whileRemaining [] step
  return ⟨l⟩
end Txt

namespace Wks
/-- src/rdata/wks.rs:51-57 -/
def parse : Timed Wks := do
  let a ← extractU32
  let p ← extractU8
  let b ← extractRest
  return ⟨a, p, b⟩
end Wks

namespace Null
/-- src/rdata/null.rs:27-31 -/
def parse : Timed Null := do
  let b ← extractRest
  return ⟨b⟩
end Null

namespace OpenPgpKey
/-- src/rdata/openpgpkey.rs:21-23 -/
def parse : Timed OpenPgpKey := do
  let b ← extractRest
  return ⟨b⟩
end OpenPgpKey

namespace Uri
/-- src/rdata/uri.rs:55-61 -/
def parse : Timed Uri := do
  let p ← extractU16
  let w ← extractU16
  let t ← extractRest
  return ⟨p, w, t⟩
end Uri

namespace Loc
/-- src/rdata/loc.rs:89-99 -/
def parse : Timed Loc := do
  let v ← extractU8
  let s ← extractU8
  let h ← extractU8
  let vp ← extractU8
  let la ← extractU32
  let lo ← extractU32
  let al ← extractU32
  return ⟨v, s, h, vp, la, lo, al⟩
end Loc

namespace Eui48
/-- src/rdata/eui48.rs:16-18 -/
def parse : Timed Eui48 := do
  let b ← extractBytes 6
  return ⟨BitVec.ofNat 48 (ofBE b)⟩
end Eui48

namespace Eui64
/-- src/rdata/eui64.rs:16-18 -/
def parse : Timed Eui64 := do
  let b ← extractBytes 8
  return ⟨BitVec.ofNat 64 (ofBE b)⟩
end Eui64

namespace Srv
/-- src/rdata/srv.rs:66-73 -/
def parse : Timed Srv := do
  let p ← extractU16
  let w ← extractU16
  let o ← extractU16
  let t ← extractFqdn
  return ⟨p, w, o, t⟩
end Srv

namespace Naptr
/-- src/rdata/naptr.rs:95-108 -/
def parse : Timed Naptr := do
  let o ← extractU16
  let p ← extractU16
  let f ← extractCharacterString
  let s ← extractCharacterString
  let r ← extractString
  let n ← extractFqdn
  return ⟨o, p, NaptrFlag.ofBytes f, s, r, n⟩
end Naptr

namespace Bitmap
/-- src/rdata/csync.rs:85-100 / dnssec.rs:62-77, the body of the loop. -/
def readStep (cfg : Cfg) (acc : List RecordType) : Timed (List RecordType) := do
  let window ← extractU8
  let len ← extractU8
  let bitmap ← extractBytes len.toNat
  tick (8 * bitmap.length)
  Timed.lift (Bitmap.readWindow cfg window.toNat 0 bitmap acc)

/-- src/rdata/csync.rs:84-100 / dnssec.rs:61-77. -/
def parse (cfg : Cfg) : Timed (List RecordType) := whileRemaining [] (readStep cfg)
end Bitmap

namespace Csync
/-- src/rdata/csync.rs:79-107 -/
def parse (cfg : Cfg) : Timed Csync := do
  let s ← extractU32
  let f ← extractU16
  let f ← Timed.lift (CsyncFlags.ofU16 f)
  let t ← Bitmap.parse cfg
  return ⟨s, f, t⟩
end Csync

namespace Nsec
/-- src/rdata/dnssec.rs:57-83 -/
def parse (cfg : Cfg) : Timed Nsec := do
  let n ← extractFqdn
  let t ← Bitmap.parse cfg
  return ⟨n, t⟩
end Nsec

namespace Opt
/-- src/rdata/opt.rs:34-39, the body of the loop -/
def step (m : List (UInt16 × Bytes)) : Timed (List (UInt16 × Bytes)) := do
  let c ← extractU16
  let n ← extractU16
  let b ← extractBytes n.toNat
  return mapInsert c b m

/-- src/rdata/opt.rs:32-41 -/
def parse : Timed Opt := do
  let m ← whileRemaining [] step
  return ⟨m⟩
end Opt

namespace Apl
/-- src/rdata/apl.rs:50-81 -/
def parse : Timed Apl := do
  let family ← extractU16
  let p ← extractU8
  let coded ← extractU8
  let afd ← extractBytes (coded &&& 0x7E).toNat
  match family with
  | 1 => return ⟨p, coded &&& 0x80 != 0, .ipV4 (UInt32.ofNat (ofBE (resize 4 afd)))⟩
  | 2 => return ⟨p, coded &&& 0x80 != 0, .ipV6 (BitVec.ofNat 128 (ofBE (resize 16 afd)))⟩
  | v => Timed.fail (.invalidAplFamily v)
end Apl

namespace Caa
/-- src/rdata/caa.rs:40-56 -/
def parse : Timed Caa := do
  let flags ← extractU8
  let tagLen ← extractU8
  if tagLen = 0 then Timed.fail .invalidPacketData
  else
    let tag ← extractBytes tagLen.toNat
    tick tag.length
    let value ← extractRest
    return ⟨flags &&& 0x80 != 0, utf8Lossy tag, value⟩
end Caa

namespace Sshfp
/-- src/rdata/sshfp.rs:35-41: the fingerprint is read as a character string. -/
def parse : Timed Sshfp := do
  let a ← extractU8
  let a ← Timed.lift (Algorithm.ofU8 a)
  let f ← extractU8
  let f ← Timed.lift (FingerprintType.ofU8 f)
  let p ← extractCharacterString
  return ⟨a, f, p⟩
end Sshfp

namespace Tlsa
/-- src/rdata/tlsa.rs:60-67 -/
def parse : Timed Tlsa := do
  let c ← extractU8
  let c ← Timed.lift (CertUsage.ofU8 c)
  let s ← extractU8
  let s ← Timed.lift (Selector.ofU8 s)
  let m ← extractU8
  let m ← Timed.lift (MatchingType.ofU8 m)
  let d ← extractRest
  return ⟨c, s, m, d⟩
end Tlsa

namespace Gateway
/-- src/rdata/ipseckey.rs:39-52 -/
def parse (t : UInt8) : Timed Gateway :=
  match t with
  | 0 => do
    let _ ← extractU8
    return .none
  | 1 => do
    let a ← extractU32
    return .ipV4 a
  | 2 => do
    let a ← extractU128
    return .ipV6 a
  | 3 => do
    let n ← extractFqdn
    return .domain n
  | v => Timed.fail (.invalidIpSecKeyGatewayType v)
end Gateway

namespace IpSecKey
/-- src/rdata/ipseckey.rs:35-60 -/
def parse : Timed IpSecKey := do
  let p ← extractU8
  let t ← extractU8
  let a ← extractU8
  let a ← Timed.lift (Algorithm.ofU8 a)
  let g ← Gateway.parse t
  let k ← extractRest
  return ⟨p, a, g, k⟩
end IpSecKey

namespace Hip
/-- src/rdata/hip.rs:48-50, the body of the loop -/
def step (acc : List Fqdn) : Timed (List Fqdn) := do
  let n ← extractFqdn
  return acc ++ [n]

/-- src/rdata/hip.rs:46-54 -/
def parseServers : Timed (Option (List Fqdn)) := do
  let r ← remaining
  if r > 0 then
    let l ← whileRemaining [] step
    return some l
  else return none

/-- src/rdata/hip.rs:39-62 -/
def parse : Timed Hip := do
  let hitLen ← extractU8
  let a ← extractU8
  let a ← Timed.lift (Algorithm.ofU8 a)
  let pkLen ← extractU16
  let hit ← extractBytes hitLen.toNat
  let pk ← extractBytes pkLen.toNat
  let rs ← parseServers
  return ⟨a, hit, pk, rs⟩
end Hip

namespace Dhcid
/-- src/rdata/dhcid.rs:65-77 -/
def parse : Timed Dhcid := do
  let c ← extractU16
  let c ← Timed.lift (IdentifierType.ofU16 c)
  let t ← extractU8
  if t ≠ 1 then Timed.fail (.invalidDigestType t)
  else
    let d ← extractRest
    return ⟨c, d⟩
end Dhcid

namespace Tkey
/-- src/rdata/tkey.rs:47-67 -/
def parse : Timed Tkey := do
  let n ← extractFqdn
  let i ← extractU32
  let e ← extractU32
  let m ← extractU16
  let m ← Timed.lift (TkeyMode.ofU16 m)
  let er ← extractU16
  let er ← Timed.lift (TkeyError.ofU16 er)
  let ks ← extractU16
  let k ← extractBytes ks.toNat
  let os ← extractU16
  let o ← extractBytes os.toNat
  return ⟨n, i, e, m, er, k, o⟩
end Tkey

namespace Tsig
/-- src/rdata/tsig.rs:64-85: six octets are copied behind two zero octets. -/
def parse : Timed Tsig := do
  let n ← extractFqdn
  let t ← extractBytes 6
  let f ← extractU16
  let ml ← extractU16
  let m ← extractBytes ml.toNat
  let id ← extractU16
  let e ← extractU16
  let e ← Timed.lift (TsigError.ofU16 e)
  let ol ← extractU16
  let o ← extractBytes ol.toNat
  return ⟨n, UInt64.ofNat (ofBE (0 :: 0 :: t)), f, m, id, e, o⟩
end Tsig

namespace DnsKey
/-- src/rdata/dnssec.rs:277-290 -/
def parse : Timed DnsKey := do
  let flags ← extractU16
  let p ← extractU8
  let a ← extractU8
  let a ← Timed.lift (SecAlgorithm.ofU8 a)
  let k ← extractRest
  return ⟨flags &&& 0x0100 != 0, flags &&& 0x0001 != 0, p, a, k⟩
end DnsKey

namespace Ds
/-- src/rdata/dnssec.rs:384-391 -/
def parse : Timed Ds := do
  let k ← extractU16
  let a ← extractU8
  let a ← Timed.lift (SecAlgorithm.ofU8 a)
  let t ← extractU8
  let t ← Timed.lift (DigestType.ofU8 t)
  let d ← extractRest
  return ⟨k, a, t, d⟩
end Ds

namespace Rrsig
/-- src/rdata/dnssec.rs:682-694 -/
def parse (cfg : Cfg) : Timed Rrsig := do
  let t ← extractU16
  let t ← Timed.lift (RecordType.ofU16 cfg t)
  let a ← extractU8
  let a ← Timed.lift (SecAlgorithm.ofU8 a)
  let l ← extractU8
  let ttl ← extractU32
  let e ← extractU32
  let i ← extractU32
  let k ← extractU16
  let n ← extractFqdn
  let s ← extractRest
  return ⟨t, a, l, ttl, e, i, k, n, s⟩
end Rrsig

namespace Param
/-- src/rdata/svcb.rs:206-209, `len` is a `usize`.  Each iteration consumes two octets, so
`data.len() + 1` iterations are enough. -/
def mandatoryLoop (cfg : Cfg) : Nat → Nat → List ParamKey → Timed (List ParamKey)
  | 0, _, _ => Timed.lift .hang
  | fuel + 1, len, keys =>
    if len > 0 then do
      tick 1
      let k ← extractU16
      let k ← Timed.lift (ParamKey.ofU16 k)
      let len ← Timed.lift (subUsize cfg len 2)
      mandatoryLoop cfg fuel len (btInsert ParamKey.ord k keys)
    else return keys

/-- src/rdata/svcb.rs:214-218.  Each iteration consumes at least one octet. -/
def alpnLoop (cfg : Cfg) : Nat → Nat → List Bytes → Timed (List Bytes)
  | 0, _, _ => Timed.lift .hang
  | fuel + 1, len, ids =>
    if len > 0 then do
      tick 1
      let n ← extractU8
      let b ← extractBytes n.toNat
      let len ← Timed.lift (subUsize cfg len (n.toNat + 1))
      alpnLoop cfg fuel len (ids ++ [b])
    else return ids

/-- `data.len()`, used as the bound of the two loops above.  Used at src/rdata/svcb.rs:203-233. -/
def dataLen : Timed Nat := fun d i => ((.ok d.length, i), 0)

/-- src/rdata/svcb.rs:203-233: the value of the parameter with the given key. -/
def parseValue (cfg : Cfg) (key : ParamKey) (len : Nat) : Timed Param :=
  match key with
  | .mandatory => do
    let fuel ← dataLen
    let keys ← mandatoryLoop cfg (fuel + 1) len []
    return .mandatory keys
  | .alpn => do
    let fuel ← dataLen
    let ids ← alpnLoop cfg (fuel + 1) len []
    return .alpn ids
  | .noDefaultAlpn => return .noDefaultAlpn
  | .port => do
    let p ← extractU16
    return .port p
  | .ipV4Hint => do
    let a ← extractU32
    return .ipV4Hint a
  | .ech => do
    let b ← extractBytes len
    return .ech b
  | .ipV6Hint => do
    let a ← extractU128
    return .ipV6Hint a
  | .private v => do
    let b ← extractBytes len
    return .private v b
  | .invalid => return .invalid

/-- src/rdata/svcb.rs:200-235 -/
def parse (cfg : Cfg) : Timed Param := do
  let k ← extractU16
  let key ← Timed.lift (ParamKey.ofU16 k)
  let len ← extractU16
  parseValue cfg key len.toNat
end Param

namespace Svcb
/-- src/rdata/svcb.rs:56-63, the body of the loop: parse one parameter in a sub-buffer over the
remaining data and continue where it stopped. -/
def step (cfg : Cfg) (acc : List Param) : Timed (List Param) := do
  let r ← remaining
  let (p, newPos) ← withSubBuffer r (Param.parse cfg)
  setPosition newPos
  return btInsert Param.ord p acc

/-- src/rdata/svcb.rs:51-70 -/
def parse (cfg : Cfg) : Timed Svcb := do
  let p ← extractU16
  let n ← extractFqdn
  let params ← whileRemaining [] (step cfg)
  return ⟨p, n, params⟩
end Svcb

namespace RecordData
/-- src/rdata/mod.rs:179-225 `RecordData::from`. -/
def parse (cfg : Cfg) (t : RecordType) : Timed RecordData :=
  match t with
  | .A => do let r ← A.parse; return .A r
  | .NS => do let r ← Ns.parse; return .NS r
  | .CNAME => do let r ← Cname.parse; return .CNAME r
  | .SOA => do let r ← Soa.parse; return .SOA r
  | .NULL => do let r ← Null.parse; return .NULL r
  | .WKS => do let r ← Wks.parse; return .WKS r
  | .PTR => do let r ← Ptr.parse; return .PTR r
  | .HINFO => do let r ← Hinfo.parse; return .HINFO r
  | .MINFO => do let r ← Minfo.parse; return .MINFO r
  | .MX => do let r ← Mx.parse; return .MX r
  | .TXT => do let r ← Txt.parse; return .TXT r
  | .AAAA => do let r ← Aaaa.parse; return .AAAA r
  | .LOC => do let r ← Loc.parse; return .LOC r
  | .SRV => do let r ← Srv.parse; return .SRV r
  | .NAPTR => do let r ← Naptr.parse; return .NAPTR r
  | .OPT => do let r ← Opt.parse; return .OPT r
  | .APL => do let r ← Apl.parse; return .APL r
  | .DS => do let r ← Ds.parse; return .DS r
  | .SSHFP => do let r ← Sshfp.parse; return .SSHFP r
  | .IPSECKEY => do let r ← IpSecKey.parse; return .IPSECKEY r
  | .RRSIG => do let r ← Rrsig.parse cfg; return .RRSIG r
  | .NSEC => do let r ← Nsec.parse cfg; return .NSEC r
  | .DNSKEY => do let r ← DnsKey.parse; return .DNSKEY r
  | .DHCID => do let r ← Dhcid.parse; return .DHCID r
  | .TLSA => do let r ← Tlsa.parse; return .TLSA r
  | .HIP => do let r ← Hip.parse; return .HIP r
  | .CDS => do let r ← Ds.parse; return .CDS r
  | .CDNSKEY => do let r ← DnsKey.parse; return .CDNSKEY r
  | .OPENPGPKEY => do let r ← OpenPgpKey.parse; return .OPENPGPKEY r
  | .CSYNC => do let r ← Csync.parse cfg; return .CSYNC r
  | .SVCB => do let r ← Svcb.parse cfg; return .SVCB r
  | .EUI48 => do let r ← Eui48.parse; return .EUI48 r
  | .EUI64 => do let r ← Eui64.parse; return .EUI64 r
  | .TKEY => do let r ← Tkey.parse; return .TKEY r
  | .TSIG => do let r ← Tsig.parse; return .TSIG r
  | .URI => do let r ← Uri.parse; return .URI r
  | .CAA => do let r ← Caa.parse; return .CAA r
end RecordData

namespace Question
/-- src/question.rs:310-335 -/
def parse (cfg : Cfg) : Timed Question := do
  let n ← extractFqdn
  let t ← extractU16
  let t ← Timed.lift (QType.ofU16 cfg t)
  let v ← extractU16
  if cfg.mdns then
    if v &&& 0x8000 > 0 then
      let c ← Timed.lift (QClass.ofU16 (v &&& ~~~0x8000))
      return ⟨n, t, c, true⟩
    else
      let c ← Timed.lift (QClass.ofU16 v)
      return ⟨n, t, c, false⟩
  else
    let c ← Timed.lift (QClass.ofU16 v)
    return ⟨n, t, c, false⟩
end Question

namespace ResourceRecord
/-- src/resource.rs:382-394 -/
def parseClass (cfg : Cfg) : Timed (RecordClass × Bool) := do
  let v ← extractU16
  if cfg.mdns then
    if v &&& 0x8000 > 0 then return (RecordClass.ofU16 (v &&& ~~~0x8000), true)
    else return (RecordClass.ofU16 v, false)
  else return (RecordClass.ofU16 v, false)

/-- src/resource.rs:377-414 -/
def parse (cfg : Cfg) : Timed ResourceRecord := do
  let n ← extractFqdn
  let t ← extractU16
  let t ← Timed.lift (RecordType.ofU16 cfg t)
  let c ← parseClass cfg
  let ttl ← extractU32
  let len ← extractU16
  let d ← withSubBuffer len.toNat (RecordData.parse cfg t)
  advance len.toNat
  return ⟨n, t, c.2, c.1, ttl, d.1⟩
end ResourceRecord

namespace Packet
/-- src/packet.rs:345-380 -/
def parseBuf (cfg : Cfg) : Timed Packet := do
  let h ← Header.parse
  let qs ← Timed.times h.quesCount.toNat (Question.parse cfg)
  let an ← Timed.times h.ansCount.toNat (ResourceRecord.parse cfg)
  let au ← Timed.times h.authCount.toNat (ResourceRecord.parse cfg)
  let ad ← Timed.times h.addCount.toNat (ResourceRecord.parse cfg)
  return ⟨h, qs, an, au, ad⟩
end Packet

namespace Packet
/-- src/packet.rs:335-339 `Packet::try_from(&[u8])`: the outcome and the steps of reading a message. -/
def parse (cfg : Cfg) (data : Bytes) : Res Packet × Nat := ((parseBuf cfg data 0).1.1, (parseBuf cfg data 0).2)
end Packet
end Timed
end Dns
