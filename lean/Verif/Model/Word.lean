import Verif.Model.Packet

/-
Machines with another word size: `usize` has `w` bits (16, 32 or 64 in Rust).  The other modules of the model have 64 bits where
the overflow of `usize` can be seen: the calls of the buffer with huge lengths and the two loops of SVCB.
-/

namespace Dns
open Buf

/-- `a - b` on a `usize` of `w` bits.  Used at src/rdata/svcb.rs:206-218. -/
def subWord (w : Nat) (cfg : Cfg) (a b : Nat) : Res Nat :=
  if b ≤ a then .ok (a - b)
  else if cfg.overflowChecks then .panic .overflow else .ok (a + 2 ^ w - b)

/-- `a + b` on a `usize` of `w` bits.  Used at src/buffer.rs:20-29 and src/buffer.rs:52-79. -/
def addWord (w : Nat) (cfg : Cfg) (a b : Nat) : Res Nat :=
  if a + b < 2 ^ w then .ok (a + b)
  else if cfg.overflowChecks then .panic .overflow else .ok ((a + b) % 2 ^ w)

namespace Word

/-- src/buffer.rs:52-59 `advance`. -/
def advance (w : Nat) (cfg : Cfg) (len : Nat) : Parser Unit := fun d i =>
  match addWord w cfg len i with
  | .ok n => if n > d.length then (.err .lengthViolation, i) else (.ok (), n)
  | .panic k => (.panic k, i)
  | .err e => (.err e, i)
  | .hang => (.hang, i)

/-- src/buffer.rs:63-68 `peek_bytes`. -/
def peekBytes (w : Nat) (cfg : Cfg) (len : Nat) : Parser Bytes := fun d i =>
  match addWord w cfg i len with
  | .ok n =>
    if n > d.length then (.err .lengthViolation, i)
    else if n < i then (.panic .index, i)
    else (.ok ((d.drop i).take (n - i)), i)
  | .panic k => (.panic k, i)
  | .err e => (.err e, i)
  | .hang => (.hang, i)

/-- src/buffer.rs:72-79 `extract_bytes`. -/
def extractBytes (w : Nat) (cfg : Cfg) (len : Nat) : Parser Bytes := fun d i =>
  match addWord w cfg i len with
  | .ok n =>
    if n > d.length then (.err .lengthViolation, i)
    else if n < i then (.panic .index, n)
    else (.ok ((d.drop i).take (n - i)), n)
  | .panic k => (.panic k, i)
  | .err e => (.err e, i)
  | .hang => (.hang, i)

/-- src/buffer.rs:20-29 `sub_buffer`: data and position of the new buffer. -/
def subBuffer (w : Nat) (cfg : Cfg) (len : Nat) (d : Bytes) (i : Nat) : Res (Bytes × Nat) :=
  match addWord w cfg len i with
  | .ok n => if n > d.length then .err .lengthViolation else .ok (d.take n, i)
  | .panic k => .panic k
  | .err e => .err e
  | .hang => .hang

/-- src/rdata/svcb.rs:206-209, `len` is a `usize`. -/
def mandatoryLoop (w : Nat) (cfg : Cfg) : Nat → Nat → List ParamKey → Parser (List ParamKey)
  | 0, _, _ => Parser.lift .hang
  | fuel + 1, len, keys =>
    if len > 0 then do
      let k ← extractU16
      let k ← Parser.lift (ParamKey.ofU16 k)
      let len ← Parser.lift (subWord w cfg len 2)
      mandatoryLoop w cfg fuel len (btInsert ParamKey.ord k keys)
    else return keys

/-- src/rdata/svcb.rs:214-218. -/
def alpnLoop (w : Nat) (cfg : Cfg) : Nat → Nat → List Bytes → Parser (List Bytes)
  | 0, _, _ => Parser.lift .hang
  | fuel + 1, len, ids =>
    if len > 0 then do
      let n ← extractU8
      let b ← Buf.extractBytes n.toNat
      let len ← Parser.lift (subWord w cfg len (n.toNat + 1))
      alpnLoop w cfg fuel len (ids ++ [b])
    else return ids

/-- src/rdata/svcb.rs:203-233: the value of the parameter with the given key. -/
def parseValue (w : Nat) (cfg : Cfg) (key : ParamKey) (len : Nat) : Parser Param :=
  match key with
  | .mandatory => do
    let fuel ← Param.dataLen
    let keys ← mandatoryLoop w cfg (fuel + 1) len []
    return .mandatory keys
  | .alpn => do
    let fuel ← Param.dataLen
    let ids ← alpnLoop w cfg (fuel + 1) len []
    return .alpn ids
  | key => Param.parseValue cfg key len

/-- src/rdata/svcb.rs:200-235 -/
def parseParam (w : Nat) (cfg : Cfg) : Parser Param := do
  let k ← extractU16
  let key ← Parser.lift (ParamKey.ofU16 k)
  let len ← extractU16
  parseValue w cfg key len.toNat

/-- src/rdata/svcb.rs:56-63, the body of the loop. -/
def stepSvcb (w : Nat) (cfg : Cfg) (acc : List Param) : Parser (List Param) := do
  let r ← remaining
  let (p, newPos) ← withSubBuffer r (parseParam w cfg)
  setPosition newPos
  return btInsert Param.ord p acc

/-- src/rdata/svcb.rs:51-70 -/
def parseSvcb (w : Nat) (cfg : Cfg) : Parser Svcb := do
  let p ← extractU16
  let n ← extractFqdn
  let params ← whileRemaining [] (stepSvcb w cfg)
  return ⟨p, n, params⟩

/-- src/rdata/mod.rs:179-225 `RecordData::from`: only SVCB computes with a `usize` that may overflow. -/
def parseData (w : Nat) (cfg : Cfg) (t : RecordType) : Parser RecordData :=
  match t with
  | .SVCB => do let r ← parseSvcb w cfg; return .SVCB r
  | t => RecordData.parse cfg t

/-- src/resource.rs:377-414 -/
def parseRecord (w : Nat) (cfg : Cfg) : Parser ResourceRecord := do
  let n ← extractFqdn
  let t ← extractU16
  let t ← Parser.lift (RecordType.ofU16 cfg t)
  let c ← ResourceRecord.parseClass cfg
  let ttl ← extractU32
  let len ← extractU16
  let d ← withSubBuffer len.toNat (parseData w cfg t)
  Buf.advance len.toNat
  return ⟨n, t, c.2, c.1, ttl, d.1⟩

/-- src/packet.rs:345-380 -/
def parseBuf (w : Nat) (cfg : Cfg) : Parser Packet := do
  let h ← Header.parse
  let qs ← Parser.times h.quesCount.toNat (Question.parse cfg)
  let an ← Parser.times h.ansCount.toNat (parseRecord w cfg)
  let au ← Parser.times h.authCount.toNat (parseRecord w cfg)
  let ad ← Parser.times h.addCount.toNat (parseRecord w cfg)
  return ⟨h, qs, an, au, ad⟩

/-- src/packet.rs:335-339 `Packet::try_from(&[u8])`. -/
def parsePacket (w : Nat) (cfg : Cfg) (data : Bytes) : Res Packet := (parseBuf w cfg data 0).1

end Word
end Dns
