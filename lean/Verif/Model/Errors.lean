import Verif.Model.Basic

/-
src/error.rs: what an error says.  (The enum itself is in `Model/Basic.lean`.)
-/

namespace Dns
namespace DnsError

/-- The names of the variants (src/error.rs:5-79), as the derived `Debug` prints them (src/error.rs:4). -/
def variantName : DnsError → String
  | .invalidClass _ => "InvalidClass"
  | .invalidType _ => "InvalidType"
  | .invalidResponseCode _ => "InvalidResponseCode"
  | .invalidPacketData => "InvalidPacketData"
  | .lengthViolation => "LengthViolation"
  | .unresolveableCompressionPointer => "UnresolveableCompressionPointer"
  | .invalidAplFamily _ => "InvalidAplFamily"
  | .invalidCsyncFlag _ => "InvalidCsyncFlag"
  | .invalidSSHFPAlgorithm _ => "InvalidSSHFPAlgorithm"
  | .invalidSSHFPFingerprintType _ => "InvalidSSHFPFingerprintType"
  | .invalidIpSecKeyGatewayType _ => "InvalidIpSecKeyGatewayType"
  | .invalidNaptrFlag _ => "InvalidNaptrFlag"
  | .invalidTkeyMode _ => "InvalidTkeyMode"
  | .invalidTkeyError _ => "InvalidTkeyError"
  | .invalidIdentifierTypeError _ => "InvalidIdentifierTypeError"
  | .invalidTLSACertUsage _ => "InvalidTLSACertUsage"
  | .invalidTLSASelector _ => "InvalidTLSASelector"
  | .invalidTLSAMatchingType _ => "InvalidTLSAMatchingType"
  | .invalidSvcbParam _ => "InvalidSvcbParam"
  | .invalidDigestType _ => "InvalidDigestType"
  | .invalidDnsSecAlgorithm _ => "InvalidDnsSecAlgorithm"
  | .invalidDnsSecSignatureTimespan => "InvalidDnsSecSignatureTimespan"
  | .dnsSecVerificationError => "DnsSecVerificationError"
  | .dnsSecSigningError => "DnsSecSigningError"

/-- What the derived `Debug` prints behind the name: the number in parentheses.  Simplified: the model
does not keep what the last three variants hold (a `SystemTimeError` or a `String`); its text is the
parameter `detail`.  Used at src/error.rs:87-91. -/
def payload (detail : List Char) : DnsError → List Char
  | .invalidClass n | .invalidType n | .invalidAplFamily n | .invalidCsyncFlag n | .invalidTkeyMode n
  | .invalidTkeyError n | .invalidIdentifierTypeError n | .invalidSvcbParam n =>
    ['('] ++ Nat.toDigits 10 n.toNat ++ [')']
  | .invalidResponseCode n | .invalidSSHFPAlgorithm n | .invalidSSHFPFingerprintType n
  | .invalidIpSecKeyGatewayType n | .invalidNaptrFlag n | .invalidTLSACertUsage n | .invalidTLSASelector n
  | .invalidTLSAMatchingType n | .invalidDigestType n | .invalidDnsSecAlgorithm n =>
    ['('] ++ Nat.toDigits 10 n.toNat ++ [')']
  | .invalidPacketData | .lengthViolation | .unresolveableCompressionPointer => []
  | .invalidDnsSecSignatureTimespan | .dnsSecVerificationError | .dnsSecSigningError =>
    ['('] ++ detail ++ [')']

/-- src/error.rs:87-91 `Display::fmt`. -/
def display (detail : List Char) (e : DnsError) : List Char :=
  "DnsError: ".toList ++ e.variantName.toList ++ e.payload detail

/-- src/error.rs:81-85 `Error::source`: the error itself. -/
def source (e : DnsError) : Option DnsError := some e

/-- src/error.rs:93-97 `From<TryFromSliceError>`. -/
def ofSliceError : DnsError := .invalidPacketData

end DnsError
end Dns
