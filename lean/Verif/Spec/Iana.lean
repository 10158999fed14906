import Verif.Spec.Numbers

/-
Numbers of the IANA registries for the fields where the crate uses one enumeration for several
registries, or has a value that is not registered (`none`).  The other registries are in
`Spec/Numbers.lean`.
-/

namespace Dns.Spec

/-- IANA "SSHFP RR Types for public key algorithms" (RFC 4255, 6594, 7479, 8709). -/
def ianaSshfpAlgorithm : Algorithm → Nat
  | .reserved => 0 | .RSA => 1 | .DSA => 2 | .ECDSA => 3 | .ed25519 => 4 | .ed448 => 6

/-- IANA "IPSECKEY Algorithm Type Field" (RFC 4025, 8005, 9373), which HIP uses as well: 0 is no key,
1 DSA, 2 RSA, 3 ECDSA, 4 EdDSA. -/
def ianaIpseckeyAlgorithm : Algorithm → Nat
  | .reserved => 0 | .DSA => 1 | .RSA => 2 | .ECDSA => 3 | .ed25519 => 4 | .ed448 => 4

/-- IANA "DNSSEC Delegation Signer (DS) Resource Record (RR) Type Digest Algorithms": SHA-512 is not
registered (5 is GOST R 34.11-2012). -/
def ianaDigest : DigestType → Option Nat
  | .SHA1 => some 1 | .SHA256 => some 2 | .SHA384 => some 4 | .SHA512 => none

end Dns.Spec
