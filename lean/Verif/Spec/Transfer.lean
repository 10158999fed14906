import Verif.Spec.Wire

/-
Messages over TCP (RFC 1035, section 4.2.2) and zone transfers (RFC 5936), without regard to the crate.
-/

namespace Dns.Spec

/-- RFC 1035, section 4.2.2: a message over TCP has two octets with its length before it. -/
def tcpMessage (b : Bytes) : Bytes := octets16 (UInt16.ofNat b.length) ++ b

/-- What a sender of these messages puts into the connection. -/
def tcpStream (bs : List Bytes) : Bytes := (bs.map tcpMessage).flatten

/-- RFC 5936, section 2.2: the records of a transfer begin and end with the SOA record of the zone; they can be put into
any number of messages. -/
def transfer {α : Type} (soa : α) (others : List α) : List α := soa :: others ++ [soa]

end Dns.Spec
