import Verif.Model.RDataBitmap

/-
src/rdata/svcb.rs.
-/

namespace Dns
open Buf

/-- src/rdata/svcb.rs:109-119 `enum ParamKey`. -/
inductive ParamKey where
  | mandatory | alpn | noDefaultAlpn | port | ipV4Hint | ech | ipV6Hint
  | «private» (n : UInt16)
  | invalid
  deriving DecidableEq, Repr
namespace ParamKey
/-- src/rdata/svcb.rs:121-138 -/
def ofU16 (v : UInt16) : Res ParamKey :=
  match v with
  | 0 => .ok .mandatory
  | 1 => .ok .alpn
  | 2 => .ok .noDefaultAlpn
  | 3 => .ok .port
  | 4 => .ok .ipV4Hint
  | 5 => .ok .ech
  | 6 => .ok .ipV6Hint
  | 65535 => .ok .invalid
  | v => if 65280 ≤ v ∧ v ≤ 65534 then .ok (.private v) else .err (.invalidSvcbParam v)
/-- src/rdata/svcb.rs:140-154 -/
def toU16 : ParamKey → UInt16
  | .mandatory => 0
  | .alpn => 1
  | .noDefaultAlpn => 2
  | .port => 3
  | .ipV4Hint => 4
  | .ech => 5
  | .ipV6Hint => 6
  | .private v => v
  | .invalid => 65535
/-- src/rdata/svcb.rs:162-166 `Ord::cmp`: by number. -/
def ord (k : ParamKey) : Nat := k.toU16.toNat
end ParamKey

/-- src/rdata/svcb.rs:169-179 `enum Param`. -/
inductive Param where
  | mandatory (keys : List ParamKey)
  | alpn (ids : List Bytes)
  | noDefaultAlpn
  | port (p : UInt16)
  | ipV4Hint (a : UInt32)
  | ech (b : Bytes)
  | ipV6Hint (a : BitVec 128)
  | «private» (num : UInt16) (bytes : Bytes)
  | invalid
  deriving DecidableEq, Repr
namespace Param
/-- src/rdata/svcb.rs:182-194 -/
def key : Param → ParamKey
  | .mandatory _ => .mandatory
  | .alpn _ => .alpn
  | .noDefaultAlpn => .noDefaultAlpn
  | .port _ => .port
  | .ipV4Hint _ => .ipV4Hint
  | .ech _ => .ech
  | .ipV6Hint _ => .ipV6Hint
  | .private n _ => .private n
  | .invalid => .invalid
/-- src/rdata/svcb.rs:295-299 `Ord::cmp`: by key. -/
def ord (p : Param) : Nat := p.key.ord

/-- src/rdata/svcb.rs:206-209, `len` is a `usize`.  Each iteration consumes two octets, so
`data.len() + 1` iterations are enough. -/
def mandatoryLoop (cfg : Cfg) : Nat → Nat → List ParamKey → Parser (List ParamKey)
  | 0, _, _ => Parser.lift .hang
  | fuel + 1, len, keys =>
    if len > 0 then do
      let k ← extractU16
      let k ← Parser.lift (ParamKey.ofU16 k)
      let len ← Parser.lift (subUsize cfg len 2)
      mandatoryLoop cfg fuel len (btInsert ParamKey.ord k keys)
    else return keys

/-- src/rdata/svcb.rs:214-218.  Each iteration consumes at least one octet. -/
def alpnLoop (cfg : Cfg) : Nat → Nat → List Bytes → Parser (List Bytes)
  | 0, _, _ => Parser.lift .hang
  | fuel + 1, len, ids =>
    if len > 0 then do
      let n ← extractU8
      let b ← extractBytes n.toNat
      let len ← Parser.lift (subUsize cfg len (n.toNat + 1))
      alpnLoop cfg fuel len (ids ++ [b])
    else return ids

/-- `data.len()`, used as the bound of the two loops above.  Used at src/rdata/svcb.rs:203-233. -/
def dataLen : Parser Nat := fun d i => (.ok d.length, i)

/-- src/rdata/svcb.rs:203-233: the value of the parameter with the given key. -/
def parseValue (cfg : Cfg) (key : ParamKey) (len : Nat) : Parser Param :=
  match key with
  | .mandatory => do
    let fuel ← dataLen
    let keys ← mandatoryLoop cfg (fuel + 1) len []
    return .mandatory keys
  | .alpn => do
    let fuel ← dataLen
    let ids ← alpnLoop cfg (fuel + 1) len []
    return .alpn ids
  | .noDefaultAlpn => return .noDefaultAlpn
  | .port => do
    let p ← extractU16
    return .port p
  | .ipV4Hint => do
    let a ← extractU32
    return .ipV4Hint a
  | .ech => do
    let b ← extractBytes len
    return .ech b
  | .ipV6Hint => do
    let a ← extractU128
    return .ipV6Hint a
  | .private v => do
    let b ← extractBytes len
    return .private v b
  | .invalid => return .invalid

/-- src/rdata/svcb.rs:200-235 -/
def parse (cfg : Cfg) : Parser Param := do
  let k ← extractU16
  let key ← Parser.lift (ParamKey.ofU16 k)
  let len ← extractU16
  parseValue cfg key len.toNat

/-- src/rdata/svcb.rs:239-251 -/
def byteSize (p : Param) : Nat :=
  4 + match p with
    | .mandatory keys => keys.length * 2
    | .alpn ids => ids.foldl (fun acc a => acc + a.length + 1) 0
    | .noDefaultAlpn => 0
    | .port _ => 2
    | .ipV4Hint _ => 4
    | .ech b => b.length
    | .ipV6Hint _ => 16
    | .private _ b => b.length
    | .invalid => 0

/-- src/rdata/svcb.rs:264-284: the octets of the value. -/
def valueBytes : Param → Bytes
  | .mandatory keys => keys.foldl (fun buf k => buf ++ u16be k.toU16) []
  | .alpn ids => ids.foldl (fun buf a => buf ++ [lenU8 a.length] ++ a) []
  | .noDefaultAlpn => []
  | .port p => u16be p
  | .ipV4Hint a => u32be a
  | .ech b => b
  | .ipV6Hint a => toBE 16 a.toNat
  | .private _ b => b
  | .invalid => []

/-- src/rdata/svcb.rs:253-286: `byte_size as u16 - 4` overflows when the size modulo 2^16 is
below 4. -/
def toBytes (cfg : Cfg) (p : Param) : Res Bytes := do
  let len ← subU16 cfg (p.byteSize % 65536) 4
  return u16be p.key.toU16 ++ u16be (UInt16.ofNat len) ++ p.valueBytes
end Param

/-- src/rdata/svcb.rs:19-31 `struct Svcb`; `params` is the `BTreeSet` in increasing order. -/
structure Svcb where
  priority : UInt16
  targetName : Fqdn
  params : List Param
  deriving DecidableEq, Repr

/-- src/rdata/svcb.rs:103-106 `enum Mode`. -/
inductive SvcbMode where
  | alias | service
  deriving DecidableEq, Repr

namespace Svcb
/-- src/rdata/svcb.rs:39-45 -/
def mode (r : Svcb) : SvcbMode := if r.priority = 0 then .alias else .service

/-- src/rdata/svcb.rs:56-63, the body of the loop: parse one parameter in a sub-buffer over the
remaining data and continue where it stopped. -/
def step (cfg : Cfg) (acc : List Param) : Parser (List Param) := do
  let r ← remaining
  let (p, newPos) ← withSubBuffer r (Param.parse cfg)
  setPosition newPos
  return btInsert Param.ord p acc

/-- src/rdata/svcb.rs:51-70 -/
def parse (cfg : Cfg) : Parser Svcb := do
  let p ← extractU16
  let n ← extractFqdn
  let params ← whileRemaining [] (step cfg)
  return ⟨p, n, params⟩
/-- src/rdata/svcb.rs:84-90 -/
def byteSize (r : Svcb) : Nat :=
  2 + r.targetName.byteSize + r.params.foldl (fun sum p => sum + 4 + p.byteSize) 0
/-- src/rdata/svcb.rs:96-98 -/
def paramBytes (cfg : Cfg) : List Param → Res Bytes
  | [] => return []
  | p :: ps => do
    let b ← p.toBytes cfg
    let bs ← paramBytes cfg ps
    return b ++ bs
/-- src/rdata/svcb.rs:92-100 -/
def toBytes (cfg : Cfg) (r : Svcb) : Res Bytes := do
  let ps ← paramBytes cfg r.params
  return u16be r.priority ++ r.targetName.toBytes ++ ps
end Svcb

end Dns
