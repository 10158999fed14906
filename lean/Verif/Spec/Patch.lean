import Verif.Spec.Receive

/-
Messages of which some octets are changed in place.
-/

namespace Dns.Spec

/-- No two octets from `lo` on are a compression pointer to a place before `lo`. -/
def NoPointerBelow (lo : Nat) (d : Bytes) : Prop :=
  ∀ (k : Nat) (hi l : UInt8), lo ≤ k → Octets d k [hi, l] (k + 2) → 192 ≤ hi.toNat →
    lo ≤ (hi.toNat - 192) * 256 + l.toNat

/-- Names of RFC 1035 of which every pointer leads to `lo` or to a place behind it. -/
def NameFrom (lo : Nat) : NameRel := fun d i n j => LegalName d i n j ∧ NameWith 63 (fun _ t => lo ≤ t) d i n j

/-- The message `d` with another identification and other flags: the first four octets are replaced
(RFC 1035, section 4.1.1). -/
def patch (id : UInt16) (fl : Flags) (d : Bytes) : Bytes := octets16 id ++ [fl.hi, fl.lo] ++ d.drop 4

/-- The packet `p` with another identification and other flags. -/
def repatch (id : UInt16) (fl : Flags) (p : Packet) : Packet := { p with header := { p.header with id := id, flags := fl } }

end Dns.Spec
