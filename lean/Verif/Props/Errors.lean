import Verif.Model.Errors
import Verif.Lemmas.Blames
import Verif.Props.Robust
import Verif.Props.Dnssec

/-
C89, C90, C91: what errors say.
-/

namespace Dns
open Spec Buf

/-- C89: if reading a message fails with an error that names a number, then the message has this
number: as an octet, as two octets (for classes: without the top bit), or, for types, as a bit of a type
bitmap. -/
theorem C89_error_number_in_message (cfg : Cfg) (d : Bytes) (e : DnsError)
    (h : Packet.parse cfg d = .err e) : Carries d e := by
  rcases hx : Packet.parseBuf cfg d 0 with ⟨r, j⟩
  have : r = .err e := by rw [Packet.parse, hx] at h; exact h
  subst this
  exact (Packet.blames 0 e j hx).1

example (cfg : Cfg) : Packet.parse cfg (exOne 99 []) = .err (.invalidType 99) ∧ Has16 (exOne 99 []) 99 := by
  refine ⟨?_, [0, 1, 0x80, 0, 0, 0, 0, 1, 0, 0, 0, 0, 0], [0, 1, 0, 0, 0, 0, 0, 0], rfl⟩
  obtain ⟨a, b, c⟩ := cfg
  cases a <;> cases b <;> cases c <;> decide +kernel

/-- C90 (partial): the number that an error of reading names is not the number of a code of the kind
that it names.  What is missing: the errors with a wrong name, see `C90_counterexample`; for those, it is
at least not the number of a code of the kind that was read. -/
theorem C90_not_a_code_partial (cfg : Cfg) (d : Bytes) (e : DnsError)
    (h : Packet.parse cfg d = .err e) : NotACode cfg e ∨ Misnamed e := by
  rcases hx : Packet.parseBuf cfg d 0 with ⟨r, j⟩
  have : r = .err e := by rw [Packet.parse, hx] at h; exact h
  subst this
  exact (Packet.blames 0 e j hx).2

/-- C90: an unknown record type is named. -/
example : Packet.parse ⟨true, true, true⟩ (exOne 200 []) = .err (.invalidType 200) ∧
    ∀ t, typeNumber t ≠ 200 := by
  refine ⟨by decide +kernel, fun t => by cases t <;> decide⟩

/-- C90 is false: the selector 2 of a TLSA record is reported as an unknown SSHFP algorithm, although 2
is one; the error 1 of a TSIG record as an unknown TKEY error, although 1 is one; the digest type 2 of a
DHCID record as unknown, although 2 is one; the type CDS as unknown.  Signing with a key of the
algorithm 252, 253 or 254 reports the algorithm as 9, 10 or 11. -/
theorem C90_counterexample (cfg : Cfg) :
    Packet.parse cfg (exOne 52 [0, 2, 0]) = .err (.invalidSSHFPAlgorithm 2) ∧ algorithmNumber .DSA = 2 ∧
    Packet.parse cfg (exOne 250 [0, 0, 0, 0, 0, 0, 0, 0, 0, 0, 0, 0, 0, 0, 1, 0, 0]) = .err (.invalidTkeyError 1) ∧
    tkeyErrorNumber (.nonExtendedRcode 1) = 1 ∧
    Packet.parse cfg (exOne 49 [0, 0, 2]) = .err (.invalidDigestType 2) ∧ digestNumber .SHA256 = 2 ∧
    Packet.parse cfg (exOne 59 [0, 0, 8, 1]) = .err (.invalidType 59) ∧ typeNumber .CDS = 59 ∧
    (∀ c data priv, SecAlgorithm.signData c .indirect data priv = .err (.invalidDnsSecAlgorithm 9) ∧
      SecAlgorithm.signData c .privateDns data priv = .err (.invalidDnsSecAlgorithm 10) ∧
      SecAlgorithm.signData c .privateOid data priv = .err (.invalidDnsSecAlgorithm 11)) := by
  refine ⟨?_, rfl, ?_, rfl, ?_, rfl, ?_, rfl, fun _ _ _ => ⟨rfl, rfl, rfl⟩⟩ <;>
  · obtain ⟨a, b, c⟩ := cfg
    cases a <;> cases b <;> cases c <;> decide +kernel

example (cfg : Cfg) : Packet.parse cfg (exOne 44 [9, 1]) = .err (.invalidSSHFPAlgorithm 9) ∧
    NotACode cfg (.invalidSSHFPAlgorithm 9) := by
  refine ⟨?_, fun a => by cases a <;> decide⟩
  obtain ⟨a, b, c⟩ := cfg
  cases a <;> cases b <;> cases c <;> decide +kernel

/-! ### Reporting errors -/

theorem takeWhile_name {s t : List Char} (h : ∀ c ∈ s, c ≠ '(') (ht : t = [] ∨ ∃ u, t = '(' :: u) :
    (s ++ t).takeWhile (· ≠ '(') = s := by
  rw [List.takeWhile_append_of_pos (by simpa using h)]
  rcases ht with rfl | ⟨u, rfl⟩ <;> simp

theorem payload_form (detail : List Char) (e : DnsError) :
    e.payload detail = [] ∨ ∃ u, e.payload detail = '(' :: u := by
  cases e <;> first | exact .inl rfl | exact .inr ⟨_, rfl⟩

theorem variant_idx (e : DnsError) :
    ["InvalidClass", "InvalidType", "InvalidResponseCode", "InvalidPacketData", "LengthViolation",
      "UnresolveableCompressionPointer", "InvalidAplFamily", "InvalidCsyncFlag", "InvalidSSHFPAlgorithm",
      "InvalidSSHFPFingerprintType", "InvalidIpSecKeyGatewayType", "InvalidNaptrFlag", "InvalidTkeyMode",
      "InvalidTkeyError", "InvalidIdentifierTypeError", "InvalidTLSACertUsage", "InvalidTLSASelector",
      "InvalidTLSAMatchingType", "InvalidSvcbParam", "InvalidDigestType", "InvalidDnsSecAlgorithm",
      "InvalidDnsSecSignatureTimespan", "DnsSecVerificationError", "DnsSecSigningError"].idxOf e.variantName =
    e.ctorIdx := by
  cases e <;> simp only [DnsError.variantName, DnsError.ctorIdx] <;> decide +kernel

/-- The number in the text behind the name. -/
def readPayload (p : List Char) : Nat := Nat.ofDigitChars 10 (p.drop 1).dropLast 0

theorem readPayload_eq (n : Nat) : readPayload (['('] ++ Nat.toDigits 10 n ++ [')']) = n := by
  simp [readPayload, Nat.ofDigitChars_ten_toDigits]

/-- The error with a position in the list of names and a number. -/
def errorOf : Nat → Nat → DnsError
  | 0, n => .invalidClass (.ofNat n) | 1, n => .invalidType (.ofNat n) | 2, n => .invalidResponseCode (.ofNat n)
  | 3, _ => .invalidPacketData | 4, _ => .lengthViolation | 5, _ => .unresolveableCompressionPointer
  | 6, n => .invalidAplFamily (.ofNat n) | 7, n => .invalidCsyncFlag (.ofNat n)
  | 8, n => .invalidSSHFPAlgorithm (.ofNat n) | 9, n => .invalidSSHFPFingerprintType (.ofNat n)
  | 10, n => .invalidIpSecKeyGatewayType (.ofNat n) | 11, n => .invalidNaptrFlag (.ofNat n)
  | 12, n => .invalidTkeyMode (.ofNat n) | 13, n => .invalidTkeyError (.ofNat n)
  | 14, n => .invalidIdentifierTypeError (.ofNat n) | 15, n => .invalidTLSACertUsage (.ofNat n)
  | 16, n => .invalidTLSASelector (.ofNat n) | 17, n => .invalidTLSAMatchingType (.ofNat n)
  | 18, n => .invalidSvcbParam (.ofNat n) | 19, n => .invalidDigestType (.ofNat n)
  | 20, n => .invalidDnsSecAlgorithm (.ofNat n) | 21, _ => .invalidDnsSecSignatureTimespan
  | 22, _ => .dnsSecVerificationError | _, _ => .dnsSecSigningError

theorem errorOf_eq (s : List Char) (e : DnsError) : errorOf e.ctorIdx (readPayload (e.payload s)) = e := by
  cases e <;> simp only [DnsError.payload, readPayload_eq, errorOf, DnsError.ctorIdx, UInt16.ofNat_toNat,
    UInt8.ofNat_toNat]

/-- C91 (partial): the text of an error says which error it is: different errors have different texts.
What is missing: the chain of sources of an error does not end, see `C91_counterexample`. -/
theorem C91_text_partial (s t : List Char) (e f : DnsError) (h : e.display s = f.display t) : e = f := by
  have h1 : e.variantName.toList ++ e.payload s = f.variantName.toList ++ f.payload t := by
    unfold DnsError.display at h
    rw [List.append_assoc, List.append_assoc] at h
    exact List.append_cancel_left h
  have hn : ∀ x : DnsError, ∀ c ∈ x.variantName.toList, c ≠ '(' := by
    intro x; cases x <;> simp only [DnsError.variantName] <;> decide +kernel
  have h2 : e.variantName.toList = f.variantName.toList := by
    rw [← takeWhile_name (hn e) (payload_form s e), h1, takeWhile_name (hn f) (payload_form t f)]
  have h3 : e.payload s = f.payload t := by rw [h2] at h1; exact List.append_cancel_left h1
  have h4 : e.ctorIdx = f.ctorIdx := by
    rw [← variant_idx e, ← variant_idx f, String.toList_inj.mp h2]
  rw [← errorOf_eq s e, ← errorOf_eq t f, h3, h4]
example (s : List Char) (f : DnsError) (h : DnsError.display s (.invalidType 5) = f.display s) : f = .invalidType 5 :=
  (C91_text_partial s s (.invalidType 5) f h).symm

/-- C91 is false: the source of an error is the error itself, so that the chain of sources of an error
never ends: after any number of steps there still is a next one. -/
theorem C91_counterexample (e : DnsError) (n : Nat) :
    (fun x : Option DnsError => x.bind DnsError.source)^[n] (some e) ≠ none := by
  induction n with
  | zero => simp
  | succ n ih => exact ih

example : DnsError.display [] (.invalidType 4711) = "DnsError: InvalidType(4711)".toList := by decide +kernel

end Dns
