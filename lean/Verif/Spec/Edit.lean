import Verif.Spec.Placed

/-
Encoded messages to which a record is appended, from which the last one is taken, or in which a TTL is changed.
-/

namespace Dns.Spec

/-- The octets `d` with `x` written over the ones from `i` on. -/
def overwrite (i : Nat) (x : Bytes) (d : Bytes) : Bytes := d.take i ++ x ++ d.drop (i + x.length)

/-- The message `d` with another number of additional records (ARCOUNT, RFC 1035, section 4.1.1). -/
def arcount (n : Nat) (d : Bytes) : Bytes := overwrite 10 (octets16 (UInt16.ofNat n)) d

/-- The packet `p` with other additional records, and their number in the header. -/
def withAdditional (rs : List ResourceRecord) (p : Packet) : Packet :=
  { p with header := { p.header with addCount := UInt16.ofNat rs.length }, additional := rs }

/-- The sections with records. -/
inductive Section where
  | answers | authorities | additional
  deriving DecidableEq, Repr

/-- The records of a section. -/
def Section.of : Section → Packet → List ResourceRecord
  | .answers, p => p.answers
  | .authorities, p => p.authorities
  | .additional, p => p.additional

/-- The packet `p` with other records in a section. -/
def Section.set (rs : List ResourceRecord) : Section → Packet → Packet
  | .answers, p => { p with answers := rs }
  | .authorities, p => { p with authorities := rs }
  | .additional, p => { p with additional := rs }

end Dns.Spec
