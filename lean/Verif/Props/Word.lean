import Verif.Lemmas.Word

/-
C138: the word size of the machine does not change what is read.  The model of the other claims has `usize` with 64 bits;
here it has `w` bits, and data is as long as Rust lets a slice be on such a machine: shorter than `2 ^ (w - 1)` octets.
-/

namespace Dns
open Spec Buf

/-- Every data a machine with 32 or 64 bits can hold is read as the same packet, or refused with the same error, as on a
machine with 64 bits. -/
theorem C138_packet (cfg : Cfg) {w : Nat} (hw : w = 32 ∨ w = 64) {d : Bytes} (hd : d.length < 2 ^ (w - 1)) :
    Word.parsePacket w cfg d = Packet.parse cfg d := by
  unfold Word.parsePacket Packet.parse
  rw [Word.parseBuf_same (by omega) (by omega) cfg d 0 hd]

/-- The same for a record and the data of a record, anywhere in a buffer, with the position where reading ended. -/
theorem C138_record (cfg : Cfg) {w : Nat} (hw : w = 32 ∨ w = 64) {d : Bytes} (hd : d.length < 2 ^ (w - 1)) (i : Nat) :
    Word.parseRecord w cfg d i = ResourceRecord.parse cfg d i ∧
      ∀ t, Word.parseData w cfg t d i = RecordData.parse cfg t d i :=
  ⟨Word.parseRecord_same (by omega) (by omega) cfg d i hd,
    fun t => Word.parseData_same (by omega) (by omega) cfg t d i hd⟩

/-- What the calls of the buffer do when nothing overflows: with a length that is below half of the words, as all lengths
that are read from a message are, every word size gives the result of unbounded numbers. -/
theorem C138_buffer (cfg : Cfg) {w : Nat} (hw : w = 32 ∨ w = 64) {d : Bytes} (hd : d.length < 2 ^ (w - 1))
    {i : Nat} (hi : i ≤ d.length) {len : Nat} (hl : len ≤ 2 ^ (w - 1)) :
    Word.advance w cfg len d i = Buf.advance len d i ∧
      Word.peekBytes w cfg len d i = Buf.peekBytes len d i ∧
      Word.extractBytes w cfg len d i = Buf.extractBytes len d i ∧
      Word.subBuffer w cfg len d i = (if len + i > d.length then .err .lengthViolation else .ok (d.take (len + i), i)) := by
  have h2 : 2 ^ w = 2 ^ (w - 1) + 2 ^ (w - 1) := by rcases hw with rfl | rfl <;> decide
  have h3 : addWord w cfg len i = .ok (len + i) := by unfold addWord; rw [if_pos (by omega)]
  have h4 : addWord w cfg i len = .ok (i + len) := by unfold addWord; rw [if_pos (by omega)]
  have h5 : ¬ i + len < i := by omega
  have h6 : i + len - i = len := by omega
  refine ⟨?_, ?_, ?_, ?_⟩
  · simp only [Word.advance, h3, Buf.advance]
  · simp only [Word.peekBytes, h4, if_neg h5, h6, Buf.peekBytes]
  · simp only [Word.extractBytes, h4, if_neg h5, h6, Buf.extractBytes]
  · simp only [Word.subBuffer, h3]

/-- An SVCB record whose `mandatory` parameter says one octet and has two: with wrapping numbers the length becomes the
largest word but one, and the loop still ends in the same error on both machines. -/
def oddMandatory : Bytes := [0, 1, 0, 0, 0, 0, 1, 0, 1, 0, 3, 0, 4, 0]

example : Word.parseData 32 ⟨false, false, false⟩ .SVCB oddMandatory 0 =
    RecordData.parse ⟨false, false, false⟩ .SVCB oddMandatory 0 :=
  (C138_record ⟨false, false, false⟩ (Or.inl rfl) (by decide) 0).2 .SVCB

example : (Word.parseData 32 ⟨false, false, false⟩ .SVCB oddMandatory 0).1 = .err .lengthViolation ∧
    subWord 32 ⟨false, false, false⟩ 1 2 ≠ subWord 64 ⟨false, false, false⟩ 1 2 := by decide +kernel

/-- With more than half of the words the word size can be seen: in a build without overflow checks, going forward by the
largest 32-bit number goes back one octet on a machine with 32 bits and is an error on one with 64. -/
theorem C138_limit :
    Word.advance 32 ⟨false, false, false⟩ (2 ^ 32 - 1) [7, 8] 1 = (.ok (), 0) ∧
      Word.advance 64 ⟨false, false, false⟩ (2 ^ 32 - 1) [7, 8] 1 = (.err .lengthViolation, 1) := by
  constructor <;> decide

/-- With 16 bits the lengths of a message are too large: 65535 octets after the first wrap to no octets. -/
theorem C138_limit_small :
    Word.advance 16 ⟨false, false, false⟩ 65535 [7, 8] 1 ≠ Buf.advance 65535 [7, 8] 1 := by decide

end Dns
