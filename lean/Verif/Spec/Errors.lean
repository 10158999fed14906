import Verif.Spec.RData

/-
What an error returned by reading a message says about the message: the number it names is in the
message, and it is not the number of a code of the kind the error names.
-/

namespace Dns.Spec

/-- Some octet of the message is `n`. -/
def Has8 (d : Bytes) (n : UInt8) : Prop := n ∈ d

/-- Two consecutive octets of the message are the number `n`, most significant octet first. -/
def Has16 (d : Bytes) (n : UInt16) : Prop := ∃ pre post, d = pre ++ octets16 n ++ post

/-- The message has a window of a type bitmap (number, length, octets) in which the bit of type `n` is
set.  Numbers beyond 65535 (windows longer than RFC 4034 allows) are taken modulo 65536. -/
def HasBit (d : Bytes) (n : UInt16) : Prop :=
  ∃ pre post w map m, d = pre ++ ([w, UInt8.ofNat map.length] ++ map) ++ post ∧ map.length < 256 ∧
    BitSet (w, map) m ∧ n.toNat = m % 65536

/-- The message has the number that the error names. -/
def Carries (d : Bytes) : DnsError → Prop
  | .invalidClass n => ∃ v, Has16 d v ∧ n.toNat = v.toNat % 32768
  | .invalidType n => Has16 d n ∨ HasBit d n
  | .invalidAplFamily n | .invalidCsyncFlag n | .invalidTkeyMode n | .invalidTkeyError n
  | .invalidIdentifierTypeError n | .invalidSvcbParam n => Has16 d n
  | .invalidResponseCode n | .invalidSSHFPAlgorithm n | .invalidSSHFPFingerprintType n
  | .invalidIpSecKeyGatewayType n | .invalidNaptrFlag n | .invalidTLSACertUsage n | .invalidTLSASelector n
  | .invalidTLSAMatchingType n | .invalidDigestType n | .invalidDnsSecAlgorithm n => Has8 d n
  | .invalidPacketData | .lengthViolation | .unresolveableCompressionPointer => True
  -- reading a message verifies and signs nothing
  | .invalidDnsSecSignatureTimespan | .dnsSecVerificationError | .dnsSecSigningError => False

/-- No code of the kind the error names has the number that the error names. -/
def NotACode (cfg : Cfg) : DnsError → Prop
  | .invalidClass n => ∀ c, qclassNumber c ≠ n.toNat
  | .invalidType n => ∀ t, (t ∈ dnssecTypes → cfg.dnssec = true) → typeNumber t ≠ n.toNat
  | .invalidResponseCode n => ∀ c, rcodeNumber c ≠ n.toNat
  | .invalidAplFamily n => n ≠ 1 ∧ n ≠ 2
  | .invalidCsyncFlag n => 4 ≤ n.toNat
  | .invalidSSHFPAlgorithm n => ∀ a, algorithmNumber a ≠ n.toNat
  | .invalidSSHFPFingerprintType n => ∀ a, fingerprintNumber a ≠ n.toNat
  | .invalidIpSecKeyGatewayType n => 4 ≤ n.toNat
  | .invalidNaptrFlag n => ∀ a, flagNumber a ≠ n.toNat
  | .invalidTkeyMode n => n = 0 ∨ n = 65535
  | .invalidTkeyError n => 22 ≤ n.toNat
  | .invalidIdentifierTypeError n => ∀ a, identifierNumber a ≠ n.toNat
  | .invalidTLSACertUsage n => ∀ a, certUsageNumber a ≠ n.toNat
  | .invalidTLSASelector n => ∀ a, selectorNumber a ≠ n.toNat
  | .invalidTLSAMatchingType n => ∀ a, matchingNumber a ≠ n.toNat
  | .invalidSvcbParam n => 7 ≤ n.toNat ∧ n.toNat < 65280
  | .invalidDigestType n => ∀ a, digestNumber a ≠ n.toNat
  | .invalidDnsSecAlgorithm n => ∀ a, secAlgorithmNumber a ≠ n.toNat
  | .invalidPacketData | .lengthViolation | .unresolveableCompressionPointer
  | .invalidDnsSecSignatureTimespan | .dnsSecVerificationError | .dnsSecSigningError => True

/-- The errors for which `NotACode` fails: the crate reports unknown TLSA selectors and matching types
as unknown SSHFP algorithms, unknown errors of TSIG records as unknown errors of TKEY records, digest
types of DHCID records other than 1 as digest types nobody knows, and does not know the types CDS and
CDNSKEY. -/
def Misnamed : DnsError → Prop
  | .invalidSSHFPAlgorithm n => (∀ a, selectorNumber a ≠ n.toNat) ∨ ∀ a, matchingNumber a ≠ n.toNat
  | .invalidTkeyError n => ∀ a, tsigErrorNumber a ≠ n.toNat
  | .invalidDigestType n => n ≠ 1
  | .invalidType n => n = 59 ∨ n = 60
  | _ => False

end Dns.Spec
