import Verif.Spec.Canonical

/-
When a signature is to be used (RFC 4035, section 5.3.1, with the times of RFC 4034, section 3.1.5), without regard to
the crate.
-/

namespace Dns.Spec

/-- RFC 1982, section 3.2, for numbers of 32 bits: `b` is `a` or comes after it. -/
def SerialLe (a b : Nat) : Prop := ((b : Int) - (a : Int)) % 4294967296 < 2147483648

/-- RFC 4034, section 3.1.5: the signature is to be used at `now`, in seconds since the epoch; the times in it are
compared as serial numbers. -/
def InPeriod (r : Rrsig) (now : Nat) : Prop :=
  SerialLe r.sigInception.toNat now ∧ SerialLe now r.sigExpiration.toNat

/-- RFC 4035, section 5.3.1: what a validator checks beside the signature itself.  `zone` is the name of the zone that
contains the set and the key, `now` the current time in seconds. -/
structure UsableAt (r : Rrsig) (k : DnsKey) (set : RRSet) (zone : Fqdn) (now : Nat) : Prop where
  signer : SameName r.signersName zone
  type : r.typeCovered = set.type
  labels : r.labels.toNat ≤ rrsigLabels set.name
  period : InPeriod r now
  algorithm : r.algorithm = k.algorithm
  keyTag : r.keyTag.toNat = keyTag k
  zoneKey : k.zoneKey = true
  protocol : k.protocol = 3

end Dns.Spec
