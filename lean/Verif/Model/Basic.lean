/-
Basic vocabulary of the model: octets, outcomes, build configuration, big-endian integers and
the monad in which the parsers of the crate are written.
-/

namespace Dns

/-- `Vec<u8>` / `&[u8]`.  As in src/buffer.rs:11-14. -/
abbrev Bytes := List UInt8

/-- Build configuration the theorems quantify over.
* `overflowChecks`: arithmetic overflow panics (debug profile) or wraps (release profile);
* `mdns`, `dnssec`: the Cargo features of the same name (Cargo.toml, `[features]`).
The features occur as `cfg` attributes, for example at src/resource.rs:279-280. -/
structure Cfg where
  overflowChecks : Bool
  mdns : Bool
  dnssec : Bool
  deriving DecidableEq, Repr

/-- src/error.rs:5-80 `enum DnsError`.
Simplified: `InvalidDnsSecSignatureTimespan` drops its `SystemTimeError`, the two string
variants drop the text. -/
inductive DnsError where
  | invalidClass (n : UInt16)
  | invalidType (n : UInt16)
  | invalidResponseCode (n : UInt8)
  | invalidPacketData
  | lengthViolation
  | unresolveableCompressionPointer
  | invalidAplFamily (n : UInt16)
  | invalidCsyncFlag (n : UInt16)
  | invalidSSHFPAlgorithm (n : UInt8)
  | invalidSSHFPFingerprintType (n : UInt8)
  | invalidIpSecKeyGatewayType (n : UInt8)
  | invalidNaptrFlag (n : UInt8)
  | invalidTkeyMode (n : UInt16)
  | invalidTkeyError (n : UInt16)
  | invalidIdentifierTypeError (n : UInt16)
  | invalidTLSACertUsage (n : UInt8)
  | invalidTLSASelector (n : UInt8)
  | invalidTLSAMatchingType (n : UInt8)
  | invalidSvcbParam (n : UInt16)
  | invalidDigestType (n : UInt8)
  | invalidDnsSecAlgorithm (n : UInt8)
  | invalidDnsSecSignatureTimespan
  | dnsSecVerificationError
  | dnsSecSigningError
  deriving DecidableEq, Repr

/-- Why a Rust function panicked.  The crate has no type for it; see `Res`, and src/packet.rs:176 for a panic by overflow. -/
inductive PanicKind where
  /-- slice index or range out of bounds -/
  | index
  /-- integer overflow with overflow checks on -/
  | overflow
  /-- `unwrap`/`expect` of an error -/
  | unwrap
  deriving DecidableEq, Repr

/-- Outcome of a Rust function returning `Result<α, DnsError>`: it returns `Ok` or `Err`,
panics, or never returns (`hang`).  The errors are those of src/error.rs:5-80. -/
inductive Res (α : Type) where
  | ok (a : α)
  | err (e : DnsError)
  | panic (k : PanicKind)
  | hang
  deriving DecidableEq, Repr

namespace Res
variable {α β : Type}

/-- The `?` operator (`panic` and `hang` propagate as well).
Used for all functions whose result may be an error of src/error.rs:5-80. -/
protected def bind : Res α → (α → Res β) → Res β
  | ok a, f => f a
  | err e, _ => err e
  | panic k, _ => panic k
  | hang, _ => hang

/-- The monad of these computations, with the errors of src/error.rs:5-80. -/
instance : Monad Res where
  pure := ok
  bind := Res.bind

/-- The function returned normally with a value.  (For functions with the errors of src/error.rs:5-80.) -/
def isOk : Res α → Bool
  | ok _ => true
  | _ => false

/-- The function panicked.  (For functions with the errors of src/error.rs:5-80.) -/
def isPanic : Res α → Bool
  | panic _ => true
  | _ => false

end Res

/-! ## Machine integers -/

/-- `a - b` on `u16` (`a b < 2^16`), overflow depends on the profile.
Used at src/rdata/csync.rs:130, src/rdata/dnssec.rs:96 and src/rdata/svcb.rs:262. -/
def subU16 (cfg : Cfg) (a b : Nat) : Res Nat :=
  if b ≤ a then .ok (a - b)
  else if cfg.overflowChecks then .panic .overflow else .ok (a + 65536 - b)

/-- `a + b` on `u16`.  Used at src/rdata/csync.rs:95, src/rdata/dnssec.rs:72 and src/packet.rs:176. -/
def addU16 (cfg : Cfg) (a b : Nat) : Res Nat :=
  if a + b < 65536 then .ok (a + b)
  else if cfg.overflowChecks then .panic .overflow else .ok ((a + b) % 65536)

/-- `a - b` on 64-bit `usize`.  Used at src/rdata/svcb.rs:206-218. -/
def subUsize (cfg : Cfg) (a b : Nat) : Res Nat :=
  if b ≤ a then .ok (a - b)
  else if cfg.overflowChecks then .panic .overflow else .ok (a + 2 ^ 64 - b)

/-- `a + b` on 64-bit `usize`.  Used at src/buffer.rs:20-29 and src/buffer.rs:52-79. -/
def addUsize (cfg : Cfg) (a b : Nat) : Res Nat :=
  if a + b < 2 ^ 64 then .ok (a + b)
  else if cfg.overflowChecks then .panic .overflow else .ok ((a + b) % 2 ^ 64)

/-- `a + b` on `u32`.  Used at src/rdata/dnssec.rs:257-271. -/
def addU32 (cfg : Cfg) (a b : Nat) : Res Nat :=
  if a + b < 2 ^ 32 then .ok (a + b)
  else if cfg.overflowChecks then .panic .overflow else .ok ((a + b) % 2 ^ 32)

/-- `uN::from_be_bytes`: value of a big-endian octet string.  Used at src/buffer.rs:83-97. -/
def ofBE (bs : Bytes) : Nat := bs.foldl (fun acc b => acc * 256 + b.toNat) 0

/-- `uN::to_be_bytes` for an `n`-octet integer.  Used at src/rdata/aaaa.rs:60-62 and by the three functions below. -/
def toBE : Nat → Nat → Bytes
  | 0, _ => []
  | n + 1, x => UInt8.ofNat (x / 256 ^ n) :: toBE n x

/-- `u16::to_be_bytes`.  Used at src/header.rs:178-187 and in most writers. -/
def u16be (x : UInt16) : Bytes := toBE 2 x.toNat
/-- `u32::to_be_bytes`.  Used at src/resource.rs:427-452 and in other writers. -/
def u32be (x : UInt32) : Bytes := toBE 4 x.toNat
/-- `u64::to_be_bytes`.  Used at src/rdata/tsig.rs:107-120. -/
def u64be (x : UInt64) : Bytes := toBE 8 x.toNat

/-- `len as u8`.  Used at src/rdata/txt.rs:52 and in other writers. -/
def lenU8 (n : Nat) : UInt8 := UInt8.ofNat n
/-- `len as u16`.  Used at src/packet.rs:181 and in other writers. -/
def lenU16 (n : Nat) : UInt16 := UInt16.ofNat n

/-! ## The parser monad

A parser is a function taking `&mut DnsBuffer`: it sees the data of the buffer (which no
function of the crate replaces) and the current position, and it leaves the buffer at a new
position, also when it fails. -/

/-- Functions `fn(&mut DnsBuffer) -> Result<α, DnsError>` (src/buffer.rs:11-14: the struct is
the pair `data`, `pos`). -/
def Parser (α : Type) := Bytes → Nat → Res α × Nat

namespace Parser
variable {α β : Type}

/-- `Ok(a)`. Used for all functions that take a buffer, src/buffer.rs:11-14. -/
protected def pure (a : α) : Parser α := fun _ i => (.ok a, i)

/-- `let x = p?; f(x)`.  Used for all functions that take a buffer, src/buffer.rs:11-14. -/
protected def bind (p : Parser α) (f : α → Parser β) : Parser β := fun d i =>
  match p d i with
  | (.ok a, j) => f a d j
  | (.err e, j) => (.err e, j)
  | (.panic k, j) => (.panic k, j)
  | (.hang, j) => (.hang, j)

/-- The monad of these computations. Used for all functions that take a buffer, src/buffer.rs:11-14. -/
instance : Monad Parser where
  pure := Parser.pure
  bind := Parser.bind

/-- A computation that does not touch the buffer.  Used for all functions that take a buffer, src/buffer.rs:11-14. -/
def lift (r : Res α) : Parser α := fun _ i => (r, i)

/-- `return Err(e)`.  Used for all functions that take a buffer, src/buffer.rs:11-14. -/
def fail (e : DnsError) : Parser α := fun _ i => (.err e, i)

/-- `for _ in 0..n { v.push(p?) }`.  Used at src/packet.rs:345-380. -/
def times : Nat → Parser α → Parser (List α)
  | 0, _ => Parser.pure []
  | n + 1, p => do
    let a ← p
    let as ← times n p
    return a :: as

end Parser

end Dns
