import Verif.Spec.Writable

/-
How much a packet holds: the octets of its names and strings, and the elements of its lists.
-/

namespace Dns.Spec

/-- Octets of a name when it is written label by label, without the final zero. -/
def nameSize (n : Fqdn) : Nat := (n.map (fun l => l.length + 1)).sum

/-- Strings of a SVCB parameter. -/
def paramStrings : Param → List Bytes
  | .alpn ids => ids
  | .ech b => [b]
  | .private _ b => [b]
  | _ => []

/-- Elements of a SVCB parameter. -/
def paramElements : Param → Nat
  | .mandatory keys => keys.length
  | .alpn ids => ids.length
  | _ => 0

/-- The strings (octets of any length) in record data. -/
def rdataStrings : RecordData → List Bytes
  | .NULL r => [r.anything]
  | .WKS r => [r.bitmap]
  | .HINFO r => [r.cpu, r.os]
  | .TXT r => r.strings
  | .NAPTR r => [r.service, r.regexp]
  | .OPT r => r.options.map Prod.snd
  | .DS r => [r.digest]
  | .SSHFP r => [r.fingerprint]
  | .IPSECKEY r => [r.publicKey]
  | .RRSIG r => [r.signature]
  | .DNSKEY r => [r.publicKey]
  | .DHCID r => [r.digest]
  | .TLSA r => [r.associatedData]
  | .HIP r => [r.hit, r.publicKey]
  | .CDS r => [r.digest]
  | .CDNSKEY r => [r.publicKey]
  | .OPENPGPKEY r => [r.key]
  | .SVCB r => r.params.flatMap paramStrings
  | .TKEY r => [r.keyData, r.otherData]
  | .TSIG r => [r.mac, r.otherData]
  | .URI r => [r.target]
  | .CAA r => [r.tag, r.value]
  | _ => []

/-- The number of elements of the lists, sets and maps in record data. -/
def rdataElements : RecordData → Nat
  | .TXT r => r.strings.length
  | .NAPTR r => r.flags.length
  | .OPT r => r.options.length
  | .NSEC r => r.types.length
  | .CSYNC r => r.types.length
  | .SVCB r => r.params.length + (r.params.map paramElements).sum
  | _ => 0

/-- Octets and elements in record data, without the names. -/
def rdataSize (r : RecordData) : Nat := ((rdataStrings r).map List.length).sum + rdataElements r

/-- Octets and elements in a packet. -/
def packetSize (p : Packet) : Nat :=
  ((packetNames p).map nameSize).sum + ((records p).map (fun r => rdataSize r.rdata)).sum

end Dns.Spec
