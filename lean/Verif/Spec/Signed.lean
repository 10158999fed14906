import Verif.Model.Dnssec
import Verif.Model.Packet

/-
A signed answer: what a receiver has to verify (RFC 4035, section 5.3).
-/

namespace Dns.Spec

/-- Data of the answers with a name and a type. -/
def answersOf (p : Packet) (n : Fqdn) (t : RecordType) : List RecordData :=
  (p.answers.filter (fun r => r.name = n ∧ r.type = t)).map (·.rdata)

/-- What somebody does who got the packet: take an RRSIG record `x` of the answers, the answers that it
covers (same owner and the type covered, with the class of the RRSIG record and the original TTL) and a
DNSKEY record `y` of the additional section, and verify. -/
def Validates (cfg : Cfg) (c : Crypto) (search : Search) (p : Packet) (x y : ResourceRecord) : Prop :=
  x ∈ p.answers ∧ y ∈ p.additional ∧ ∃ r k, x.rdata = .RRSIG r ∧ y.rdata = .DNSKEY k ∧
    r.verify cfg c search k
      ⟨x.name, r.typeCovered, x.class_, r.originalTtl, answersOf p x.name r.typeCovered⟩ = .ok true

end Dns.Spec
