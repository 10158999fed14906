import Verif.Spec.Conform

/-
Messages of RFC 1035 as they are received, and the data the crate reads from them as what they say.
-/

namespace Dns.Spec

/-- The octets of `d` up to `e` are a message of RFC 1035 (with or without compression) that says what the
packet says, with RDATA a sender may write. -/
def ReceivedMessage (cfg : Cfg) (d : Bytes) (p : Packet) (e : Nat) : Prop :=
  MessageAtWith (RDataWritten LegalName cfg) LegalName cfg d p e

/-- The data the crate reads: no SSHFP, no IPSECKEY without gateway, and an APL address without its
trailing zero octets has an even number of octets. -/
def ReadWell : RecordData → Prop
  | .SSHFP _ => False
  | .IPSECKEY r => r.gateway ≠ .none
  | .APL r => ∃ part, afdOf r.afd part ∧ part.getLast? ≠ some 0 ∧ part.length % 2 = 0
  | _ => True

end Dns.Spec
