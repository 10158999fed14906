import Verif.Model.Basic
import Verif.Model.Utf8

/-
src/buffer.rs: `DnsBuffer`.
-/

namespace Dns

/-- A domain name: src/fqdn.rs:18-21 `struct FQDN { data: Vec<Vec<u8>> }`. -/
abbrev Fqdn := List Bytes

namespace Buf

/-- src/buffer.rs:33-35 `remaining`.  `data.len() - pos` underflows if the position is behind
the end; no parser of the crate reaches such a state (`Props/Buffer.lean`). -/
def remaining : Parser Nat := fun d i =>
  if i ≤ d.length then (.ok (d.length - i), i) else (.panic .overflow, i)

/-- src/buffer.rs:38-40 `position`. -/
def position : Parser Nat := fun _ i => (.ok i, i)

/-- src/buffer.rs:43-49 `set_position`. -/
def setPosition (p : Nat) : Parser Unit := fun d i =>
  if p > d.length then (.err .lengthViolation, i) else (.ok (), p)

/-- src/buffer.rs:52-59 `advance`.  `usize` overflow of `len + pos`: see `advanceUsize`. -/
def advance (len : Nat) : Parser Unit := fun d i =>
  if len + i > d.length then (.err .lengthViolation, i) else (.ok (), len + i)

/-- src/buffer.rs:63-68 `peek_bytes`.  `usize` overflow: see `peekBytesUsize`. -/
def peekBytes (len : Nat) : Parser Bytes := fun d i =>
  if i + len > d.length then (.err .lengthViolation, i) else (.ok ((d.drop i).take len), i)

/-- src/buffer.rs:72-79 `extract_bytes`.  `usize` overflow: see `extractBytesUsize`. -/
def extractBytes (len : Nat) : Parser Bytes := fun d i =>
  if i + len > d.length then (.err .lengthViolation, i)
  else (.ok ((d.drop i).take len), i + len)

/-- src/buffer.rs:20-29 `sub_buffer` followed by running `p` on the new buffer: the data is cut
at `pos + len`, the position is kept; the position of the parent does not move.  Returns the result
of `p` and the final position of the new buffer.  `usize` overflow: see `subBufferUsize`. -/
def withSubBuffer {α : Type} (len : Nat) (p : Parser α) : Parser (α × Nat) := fun d i =>
  if len + i > d.length then (.err .lengthViolation, i)
  else
    match p (d.take (len + i)) i with
    | (.ok a, j) => (.ok (a, j), i)
    | (.err e, _) => (.err e, i)
    | (.panic k, _) => (.panic k, i)
    | (.hang, _) => (.hang, i)

/-- src/buffer.rs:83-85 `extract_u8`. -/
def extractU8 : Parser UInt8 := do
  let b ← extractBytes 1
  return UInt8.ofNat (ofBE b)

/-- src/buffer.rs:89-91 `extract_u16`. -/
def extractU16 : Parser UInt16 := do
  let b ← extractBytes 2
  return UInt16.ofNat (ofBE b)

/-- src/buffer.rs:95-97 `extract_u32`. -/
def extractU32 : Parser UInt32 := do
  let b ← extractBytes 4
  return UInt32.ofNat (ofBE b)

/-- `u128::from_be_bytes(buffer.extract_bytes(16)?.try_into()?)`, e.g. src/rdata/aaaa.rs:39-41. -/
def extractU128 : Parser (BitVec 128) := do
  let b ← extractBytes 16
  return BitVec.ofNat 128 (ofBE b)

/-- `buffer.extract_bytes(buffer.remaining())?.to_vec()`, e.g. src/rdata/null.rs:29. -/
def extractRest : Parser Bytes := do
  let n ← remaining
  extractBytes n

/-- src/buffer.rs:112-117 `extract_character_string`. -/
def extractCharacterString : Parser Bytes := do
  let len ← extractU8
  extractBytes len.toNat

/-- src/buffer.rs:124-128 `extract_string`. -/
def extractString : Parser Bytes := do
  let s ← extractCharacterString
  if utf8Valid s then return s else Parser.fail .lengthViolation

/-- Local variables of the loop in `extract_fqdn` (src/buffer.rs:137-139): position, collected
labels, `org_pos`. -/
structure FqdnState where
  pos : Nat
  labels : List Bytes
  org : Option Nat
  deriving DecidableEq, Repr

/-- One iteration of the loop src/buffer.rs:139-174: either the next loop state or the outcome
together with the final position. -/
def fqdnStep (d : Bytes) (s : FqdnState) : FqdnState ⊕ (Res Fqdn × Nat) :=
  -- line 140: `self.data[self.pos]`
  match d[s.pos]? with
  | none => .inr (.panic .index, s.pos)
  | some len =>
    -- line 141: `len & COMPRESSION_MASK == COMPRESSION_MASK` (lib.rs:13)
    if len &&& 0xC0 = 0xC0 then
      -- lines 145-147
      let org := s.org.getD (s.pos + 1)
      -- lines 149-150: `peek_bytes(2)?`, mask with `!0xC000` (lib.rs:14)
      if s.pos + 2 > d.length then .inr (.err .lengthViolation, s.pos)
      else
        let target := (UInt16.ofNat (ofBE ((d.drop s.pos).take 2)) &&& 0x3FFF).toNat
        -- lines 152-155
        if target ≥ org then .inr (.err .unresolveableCompressionPointer, org)
        else .inl ⟨target, s.labels, some org⟩
    -- lines 156-158
    else if s.pos + len.toNat > d.length then .inr (.err .lengthViolation, s.pos)
    -- lines 159-167
    else if len = 0 then .inr (.ok s.labels, s.org.getD s.pos + 1)
    -- lines 168-173: the slice `pos+1 .. pos+1+len` panics when it runs out of the data
    else if s.pos + 1 + len.toNat > d.length then .inr (.panic .index, s.pos + 1)
    else .inl ⟨s.pos + 1 + len.toNat, s.labels ++ [(d.drop (s.pos + 1)).take len.toNat], s.org⟩

/-- At most `fuel` iterations of the loop; `none` when it has not ended by then.  Part of src/buffer.rs:134-175. -/
def fqdnLoop (d : Bytes) : Nat → FqdnState → Option (Res Fqdn × Nat)
  | 0, _ => none
  | fuel + 1, s =>
    match fqdnStep d s with
    | .inr r => some r
    | .inl s' => fqdnLoop d fuel s'

/-- Number of iterations after which the loop cannot end any more (proved in
`Props/NameDecode.lean`: it ends after more iterations exactly if it ends after these).  Part of src/buffer.rs:134-175. -/
def fqdnFuel (d : Bytes) : Nat := 2 * d.length + 3

/-- src/buffer.rs:134-175 `extract_fqdn`.  The endless loop is the outcome `hang`. -/
def extractFqdn : Parser Fqdn := fun d i =>
  match fqdnLoop d (fqdnFuel d) ⟨i, [], none⟩ with
  | some r => r
  | none => (.hang, i)

/-- `while buffer.remaining() > 0 { s = body(s)?; }` with at most `fuel` iterations.
Used at src/rdata/txt.rs:24, src/rdata/csync.rs:85, src/rdata/dnssec.rs:62, src/rdata/opt.rs:34, src/rdata/hip.rs:48 and src/rdata/svcb.rs:56. -/
def whileRemainingFuel {σ : Type} (body : σ → Parser σ) : Nat → σ → Parser σ
  | 0, _ => Parser.lift .hang
  | fuel + 1, s => do
    let r ← remaining
    if r > 0 then
      let s' ← body s
      whileRemainingFuel body fuel s'
    else return s

/-- `while buffer.remaining() > 0 { s = body(s)?; }`.  Every body used consumes at least one
octet per iteration, so `data.len() + 1` iterations are enough
(`Lemmas/Loops.lean`: more fuel does not change the result).
Used at src/rdata/txt.rs:24, src/rdata/csync.rs:85, src/rdata/dnssec.rs:62, src/rdata/opt.rs:34, src/rdata/hip.rs:48 and src/rdata/svcb.rs:56. -/
def whileRemaining {σ : Type} (s : σ) (body : σ → Parser σ) : Parser σ := fun d i =>
  whileRemainingFuel body (d.length + 1) s d i

/-! ### The public calls with 64-bit `usize` arithmetic

`pos + len` can overflow when a caller passes a huge `len`.  These variants model the overflow
(panic or wrap-around); the parsers of the crate only pass lengths below 2^16 on slices of at most
`isize::MAX` octets, where they coincide with the functions above (`Props/Buffer.lean`). -/

/-- src/buffer.rs:52-59 `advance`. -/
def advanceUsize (cfg : Cfg) (len : Nat) : Parser Unit := fun d i =>
  match addUsize cfg len i with
  | .ok n => if n > d.length then (.err .lengthViolation, i) else (.ok (), n)
  | .panic k => (.panic k, i)
  | .err e => (.err e, i)
  | .hang => (.hang, i)

/-- src/buffer.rs:63-68 `peek_bytes`: the slice `pos..pos+len` panics if the end wrapped. -/
def peekBytesUsize (cfg : Cfg) (len : Nat) : Parser Bytes := fun d i =>
  match addUsize cfg i len with
  | .ok n =>
    if n > d.length then (.err .lengthViolation, i)
    else if n < i then (.panic .index, i)
    else (.ok ((d.drop i).take (n - i)), i)
  | .panic k => (.panic k, i)
  | .err e => (.err e, i)
  | .hang => (.hang, i)

/-- src/buffer.rs:72-79 `extract_bytes`: `pos += len` wraps to `n`, `pos - len` wraps back to the
old position and the slice `old..n` panics if `n < old`. -/
def extractBytesUsize (cfg : Cfg) (len : Nat) : Parser Bytes := fun d i =>
  match addUsize cfg i len with
  | .ok n =>
    if n > d.length then (.err .lengthViolation, i)
    else if n < i then (.panic .index, n)
    else (.ok ((d.drop i).take (n - i)), n)
  | .panic k => (.panic k, i)
  | .err e => (.err e, i)
  | .hang => (.hang, i)

/-- src/buffer.rs:20-29 `sub_buffer`: data and position of the new buffer. -/
def subBufferUsize (cfg : Cfg) (len : Nat) (d : Bytes) (i : Nat) : Res (Bytes × Nat) :=
  match addUsize cfg len i with
  | .ok n => if n > d.length then .err .lengthViolation else .ok (d.take n, i)
  | .panic k => .panic k
  | .err e => .err e
  | .hang => .hang

end Buf
end Dns
