import Verif.Props.Codes
import Verif.Props.Header
import Verif.Model.Parts

/-
Parts of a message that are written alone: types and classes (C39, C40), the header with compression (C20).
-/

namespace Dns
open Spec Buf

/-- C39: a type or class of a question written alone is its number in two octets, and `byte_size()` is 2. -/
theorem C39_written_alone (t : QType) (c : QClass) (u : RecordType) :
    t.toBytes = octets16 (UInt16.ofNat (qtypeNumber t)) ∧ t.byteSize = t.toBytes.length ∧
    c.toBytes = octets16 (UInt16.ofNat (qclassNumber c)) ∧ c.byteSize = c.toBytes.length ∧
    u.toBytes = octets16 (UInt16.ofNat (typeNumber u)) ∧ u.byteSize = u.toBytes.length := by
  obtain ⟨h1, h2, h3⟩ := C39_type_numbers u t c
  rw [← h1, ← h2, ← h3]
  simp [QType.toBytes, QClass.toBytes, RecordType.toBytes, u16be_eq, QType.byteSize, QClass.byteSize,
    RecordType.byteSize, octets16]

/-- C40: the class of a record written alone is its number in two octets, and `byte_size()` is 2. -/
theorem C40_written_alone (c : RecordClass) :
    c.toBytes = octets16 (UInt16.ofNat (classNumber c)) ∧ c.byteSize = c.toBytes.length := by
  rw [← C61_numbers_partial.2.2.2.1 c]
  simp [RecordClass.toBytes, u16be_eq, RecordClass.byteSize, octets16]

/-- C40: it is read again as a number whose class is the same, under the condition of C40. -/
theorem C40_alone_round_trip (c : RecordClass) (pre post : Bytes) :
    ∃ n, extractU16 (pre ++ c.toBytes ++ post) pre.length = (.ok n, pre.length + 2) ∧
      (RecordClass.ofU16 n = c ↔ (classOk c ∧ classNumber c < 32768)) := by
  refine ⟨c.toU16, ?_, C40_class_round_trip_partial c⟩
  rw [extractU16_ok, RecordClass.toBytes, u16be_eq]
  exact octets_mid _ _ _

/-- C20: a header written as part of a compressed message is the header without compression, at every offset and
whatever names have been written; the names are not changed. -/
theorem C20_compressed (h : Header) (names : Names) (offset : Nat) :
    (h.toBytesCompressed names offset).1 = h.toBytes ∧ (h.toBytesCompressed names offset).2 = names ∧
    (h.byteSizeCompressed names offset).1 = (h.toBytesCompressed names offset).1.length ∧
    (h.byteSizeCompressed names offset).2 = names := by
  obtain ⟨_, _, _, _, _, -, h1, -⟩ := C20_header_layout h
  exact ⟨rfl, rfl, h1.symm, rfl⟩

/-- A type of a question, a class and a record type that have more than one octet. -/
example : QType.toBytes (.rr .CAA) = [1, 1] ∧ QClass.toBytes .ANY = [0, 255] ∧ RecordType.toBytes .URI = [1, 0] ∧
    RecordClass.toBytes (.udpPayloadSize 1232) = [4, 208] := by decide

end Dns
