import Verif.Spec.Size

/-
How many labels and elements of lists a packet has.
-/

namespace Dns.Spec

/-- The labels of all names of a packet, also those without octets. -/
def packetLabels (p : Packet) : Nat := ((packetNames p).map List.length).sum

/-- The elements of all lists in the data of a packet. -/
def packetElements (p : Packet) : Nat := ((records p).map (fun r => rdataElements r.rdata)).sum

end Dns.Spec
