import Verif.Model.Packet

/-
Functions of the public API that no other function of the crate calls: codes written alone, the header as a part of a
compressed message, and `remaining` of a buffer whose position is behind its data.
-/

namespace Dns

/-- src/buffer.rs:33-35 `remaining` with 64-bit `usize` arithmetic: `data.len() - pos` panics or wraps when the position
is behind the end of the data. -/
def Buf.remainingUsize (cfg : Cfg) : Parser Nat := fun d i =>
  if i ≤ d.length then (.ok (d.length - i), i)
  else if cfg.overflowChecks then (.panic .overflow, i)
  else (.ok (2 ^ 64 + d.length - i), i)

/-- src/resource.rs:261-263 -/
def RecordType.byteSize (_ : RecordType) : Nat := 2
/-- src/resource.rs:265-267 -/
def RecordType.toBytes (t : RecordType) : Bytes := u16be t.toU16

/-- src/resource.rs:52-54 -/
def RecordClass.byteSize (_ : RecordClass) : Nat := 2
/-- src/resource.rs:56-58 -/
def RecordClass.toBytes (c : RecordClass) : Bytes := u16be c.toU16

/-- src/question.rs:237-239 -/
def QType.byteSize (_ : QType) : Nat := 2
/-- src/question.rs:241-243 -/
def QType.toBytes (t : QType) : Bytes := u16be t.toU16

/-- src/question.rs:61-63 -/
def QClass.byteSize (_ : QClass) : Nat := 2
/-- src/question.rs:65-67 -/
def QClass.toBytes (c : QClass) : Bytes := u16be c.toU16

/-- src/header.rs:191-194: the map of the names is not changed. -/
def Header.byteSizeCompressed (h : Header) (names : Names) (_ : Nat) : Nat × Names := (h.byteSize, names)
/-- src/header.rs:196-199: the map of the names is not changed. -/
def Header.toBytesCompressed (h : Header) (names : Names) (_ : Nat) : Bytes × Names := (h.toBytes, names)

end Dns
