import Verif.Model.CompressedSize
import Verif.Model.Dnssec

/-
The only output of the crate besides its results: `println!("Test: {:?}", self.algorithm.to_bytes())` in
src/rdata/tsig.rs:109.  The other modules of the model leave it out; here the functions that reach it are
modelled once more, with the standard output.
-/

namespace Dns

/-- A line of text, without the line feed.  Used for src/rdata/tsig.rs:109. -/
abbrev Line := List Char

/-- The standard output of the process: whether it accepts a line after the given lines.  Simplified: a
line is accepted as a whole or not at all.  Used for src/rdata/tsig.rs:109. -/
abbrev Stdout := List Line → Line → Bool

/-- How a call ends: as without the output, or in the panic of `println!` ("failed printing to stdout").
Used for src/rdata/tsig.rs:109. -/
inductive Ending (α : Type) where
  | returned (r : Res α)
  | printFailed
  deriving DecidableEq, Repr

/-- A computation that may print: the lines on the standard output before and after.  Used for src/rdata/tsig.rs:109. -/
def Out (α : Type) := Stdout → List Line → Ending α × List Line

namespace Out
variable {α β : Type}

/-- A computation without output.  Used for src/rdata/tsig.rs:109. -/
def lift (r : Res α) : Out α := fun _ ls => (.returned r, ls)

/-- One after the other; what panics, fails or hangs ends the computation.  Used for src/rdata/tsig.rs:109. -/
protected def bind (m : Out α) (f : α → Out β) : Out β := fun o ls =>
  match m o ls with
  | (.returned (.ok a), ls) => f a o ls
  | (.returned (.err e), ls) => (.returned (.err e), ls)
  | (.returned (.panic k), ls) => (.returned (.panic k), ls)
  | (.returned .hang, ls) => (.returned .hang, ls)
  | (.printFailed, ls) => (.printFailed, ls)

/-- The monad of these computations. Used for src/rdata/tsig.rs:109. -/
instance : Monad Out where
  pure a := lift (.ok a)
  bind := Out.bind

/-- The macro `println!` of the standard library.  Used for src/rdata/tsig.rs:109. -/
def println (l : Line) : Out Unit := fun o ls =>
  if o ls l then (.returned (.ok ()), ls ++ [l]) else (.printFailed, ls)

end Out

/-- The text of a `Vec<u8>` under `{:?}`.  Used for src/rdata/tsig.rs:109. -/
def debugBytes (b : Bytes) : Line :=
  '[' :: (List.intercalate [',', ' '] (b.map (fun x => Nat.toDigits 10 x.toNat))) ++ [']']

/-- src/rdata/tsig.rs:107-120 -/
def Tsig.toBytesOut (r : Tsig) : Out Bytes := do
  Out.println ("Test: ".toList ++ debugBytes r.algorithm.toBytes)
  return r.toBytes

/-- src/rdata/mod.rs:277-323 -/
def RecordData.toBytesOut (cfg : Cfg) : RecordData → Out Bytes
  | .TSIG r => r.toBytesOut
  | d => Out.lift (d.toBytes cfg)

/-- src/rdata/mod.rs:327-377 -/
def RecordData.toBytesCompressedOut (cfg : Cfg) (h : Hash) (d : RecordData) (names : Names)
    (offset : Nat) : Out (Bytes × Names) :=
  match d with
  | .TSIG r => do let b ← r.toBytesOut; return (b, names)
  | d => Out.lift (d.toBytesCompressed cfg h names offset)

/-- src/byteconvertible.rs:16-18 for `RecordData` -/
def RecordData.byteSizeCompressedOut (cfg : Cfg) (h : Hash) (d : RecordData) (names : Names)
    (offset : Nat) : Out (Nat × Names) := do
  let b ← d.toBytesCompressedOut cfg h names offset
  return (b.1.length, b.2)

namespace ResourceRecord
/-- src/resource.rs:427-452: the size is computed before the data are written. -/
def toBytesOut (cfg : Cfg) (r : ResourceRecord) : Out Bytes := do
  let size ← Out.lift (r.rdata.byteSize cfg)
  let data ← r.rdata.toBytesOut cfg
  return r.name.toBytes ++ u16be r.type.toU16 ++ u16be (r.classBits cfg) ++ u32be r.ttl
    ++ u16be (lenU16 size) ++ data

/-- src/resource.rs:465-495 -/
def toBytesCompressedOut (cfg : Cfg) (h : Hash) (r : ResourceRecord) (names : Names) (offset : Nat) :
    Out (Bytes × Names) := do
  let head := r.headCompressed cfg h names offset
  let data ← r.rdata.toBytesCompressedOut cfg h head.2 (offset + head.1.length + 2)
  return (head.1 ++ u16be (lenU16 data.1.length) ++ data.1, data.2)

/-- src/resource.rs:456-463 -/
def byteSizeCompressedOut (cfg : Cfg) (h : Hash) (r : ResourceRecord) (names : Names)
    (offset : Nat) : Out (Nat × Names) := do
  let n := r.name.byteSizeCompressed h names offset
  let d ← r.rdata.byteSizeCompressedOut cfg h n.2 offset
  return (n.1 + 2 + 2 + 4 + 2 + d.1, d.2)
end ResourceRecord

namespace Packet
/-- src/packet.rs:318-326 -/
def recordsBytesOut (cfg : Cfg) : List ResourceRecord → Bytes → Out Bytes
  | [], bin => return bin
  | r :: rs, bin => do
    let b ← r.toBytesOut cfg
    recordsBytesOut cfg rs (bin ++ b)

/-- src/packet.rs:282-329: all sizes are computed before anything is written. -/
def toBytesOut (cfg : Cfg) (p : Packet) : Out Bytes := do
  let _ ← Out.lift (p.byteSize cfg)
  let bin := p.questions.foldl (fun bin q => bin ++ q.toBytes cfg) p.headerBytes
  let bin ← recordsBytesOut cfg p.answers bin
  let bin ← recordsBytesOut cfg p.authorities bin
  recordsBytesOut cfg p.additional bin

/-- src/packet.rs:250-258 -/
def recordsCompressedOut (cfg : Cfg) (h : Hash) :
    List ResourceRecord → Names → Bytes → Out (Bytes × Names)
  | [], names, bin => return (bin, names)
  | q :: qs, names, bin => do
    let r ← q.toBytesCompressedOut cfg h names bin.length
    recordsCompressedOut cfg h qs r.2 (bin ++ r.1)

/-- src/packet.rs:242-261 -/
def toBytesCompressedOut (cfg : Cfg) (h : Hash) (p : Packet) : Out Bytes := do
  let q := questionsCompressed cfg h p.questions Names.empty p.header.toBytes
  let an ← recordsCompressedOut cfg h p.answers q.2 q.1
  let au ← recordsCompressedOut cfg h p.authorities an.2 an.1
  let ad ← recordsCompressedOut cfg h p.additional au.2 au.1
  return ad.1
end Packet

namespace RRSet
/-- src/resource_record_set.rs:94-101 -/
def collectOut (cfg : Cfg) (search : Search) : List RecordData → List Bytes → Out (List Bytes)
  | [], acc => return acc
  | r :: rs, acc => do
    let bin ← r.toBytesOut cfg
    collectOut cfg search rs (vecInsert acc (search acc bin) bin)

/-- src/resource_record_set.rs:82-116 -/
def toBytesOut (cfg : Cfg) (search : Search) (s : RRSet) : Out Bytes := do
  let bins ← collectOut cfg search s.records []
  return bins.foldl (fun buf bin => buf ++ s.recordBytes bin) []
end RRSet

namespace Rrsig
/-- src/rdata/dnssec.rs:665-676 -/
def calculateSignatureOut (cfg : Cfg) (c : Crypto) (search : Search) (r : Rrsig) (set : RRSet)
    (priv : Bytes) : Out Rrsig := do
  let s ← set.toBytesOut cfg search
  let sig ← Out.lift (r.algorithm.signData c (r.toBytes ++ s) priv)
  return { r with signature := sig }

/-- src/rdata/dnssec.rs:464-495 -/
def fromDnsKeyOut (cfg : Cfg) (c : Crypto) (search : Search) (k : DnsKey) (set : RRSet)
    (inception expiration : SysTime) (priv : Bytes) : Out Rrsig := do
  let expiration ← Out.lift expiration.toField
  let inception ← Out.lift inception.toField
  let tag ← Out.lift (k.computeKeyTag cfg)
  calculateSignatureOut cfg c search
    ⟨set.type, k.algorithm, set.name.labelCount, set.ttl, expiration, inception, tag, set.name, []⟩
    set priv

/-- src/rdata/dnssec.rs:511-663 -/
def verifyOut (cfg : Cfg) (c : Crypto) (search : Search) (r : Rrsig) (k : DnsKey) (set : RRSet) :
    Out Bool :=
  if r.algorithm ≠ k.algorithm then Out.lift (.err .dnsSecVerificationError)
  else do
    let s ← set.toBytesOut cfg search
    Out.lift (verifyWith c r.algorithm k.publicKey (prehash c r.algorithm (r.verifyMessage s)) r.signature)
end Rrsig

end Dns
