import Verif.Model.Accessors
import Verif.Model.Dnssec

/-
The constructors of the record data types, the conversions of addresses, the accessors of `Packet` that
go to the header, and the two base64 texts.
-/

namespace Dns
open Buf

/-- src/rdata/a.rs:16-18 `new`; an `Ipv4Addr` is the number of its four octets, so that
`From<Ipv4Addr>` (74-76) and `From<u32>` (68-70) are the same function. -/
def A.new (addr : UInt32) : A := ⟨addr⟩
/-- src/rdata/a.rs:20-22, 28-30 `inner`, `into_inner` and 62-64 `From<A> for u32` -/
def A.intoInner (r : A) : UInt32 := r.addr
/-- src/rdata/a.rs:24-26 `inner_mut`: the caller may replace the address. -/
def A.innerMut (_ : A) (addr : UInt32) : A := ⟨addr⟩
/-- src/rdata/aaaa.rs:18-20 `new`, 72-74 `From<u128>`, 78-80 `From<Ipv6Addr>` -/
def Aaaa.new (addr : BitVec 128) : Aaaa := ⟨addr⟩
/-- src/rdata/aaaa.rs:22-24, 30-32 `inner`, `into_inner` and 66-68 `From<&Aaaa> for u128` -/
def Aaaa.intoInner (r : Aaaa) : BitVec 128 := r.addr
/-- src/rdata/aaaa.rs:26-28 `inner_mut` -/
def Aaaa.innerMut (_ : Aaaa) (addr : BitVec 128) : Aaaa := ⟨addr⟩
/-- src/rdata/ptr.rs:19-21 -/
def Ptr.new (ptrDname : Fqdn) : Ptr := ⟨ptrDname⟩
/-- src/rdata/ptr.rs:23-25, 31-33 `inner`, `into_inner` -/
def Ptr.intoInner (r : Ptr) : Fqdn := r.ptrdname
/-- src/rdata/ptr.rs:27-29 `inner_mut` -/
def Ptr.innerMut (_ : Ptr) (n : Fqdn) : Ptr := ⟨n⟩
/-- src/rdata/ns.rs:26-28 -/
def Ns.new (nsdname : Fqdn) : Ns := ⟨nsdname⟩
/-- src/rdata/cname.rs:26-28 -/
def Cname.new (cname : Fqdn) : Cname := ⟨cname⟩
/-- src/rdata/mx.rs:26-31 -/
def Mx.new (preference : UInt16) (exchange : Fqdn) : Mx := ⟨preference, exchange⟩
/-- src/rdata/minfo.rs:34-36 -/
def Minfo.new (rmailbx emailbx : Fqdn) : Minfo := ⟨rmailbx, emailbx⟩
/-- src/rdata/soa.rs:48-66 -/
def Soa.new (mname rname : Fqdn) (serial refresh retry expire minimum : UInt32) : Soa :=
  ⟨mname, rname, serial, refresh, retry, expire, minimum⟩
/-- src/rdata/srv.rs:53-60 -/
def Srv.new (priority weight port : UInt16) (target : Fqdn) : Srv := ⟨priority, weight, port, target⟩
/-- src/rdata/hinfo.rs:20-22 -/
def Hinfo.new (cpu os : Bytes) : Hinfo := ⟨cpu, os⟩
/-- src/rdata/txt.rs:14-16 -/
def Txt.new (data : List Bytes) : Txt := ⟨data⟩
/-- src/rdata/null.rs:19-21 -/
def Null.new (anything : Bytes) : Null := ⟨anything⟩
/-- src/rdata/wks.rs:39-45 -/
def Wks.new (address : UInt32) (protocol : UInt8) (bitmap : Bytes) : Wks := ⟨address, protocol, bitmap⟩
/-- src/rdata/uri.rs:43-49 -/
def Uri.new (priority weight : UInt16) (target : Bytes) : Uri := ⟨priority, weight, target⟩
/-- src/rdata/naptr.rs:73-90 -/
def Naptr.new (order preference : UInt16) (flags : List NaptrFlag) (service regexp : Bytes)
    (replacement : Fqdn) : Naptr := ⟨order, preference, flags, service, regexp, replacement⟩
/-- src/rdata/apl.rs:38-44 -/
def Apl.new (pre : UInt8) (n : Bool) (afd : Afd) : Apl := ⟨pre, n, afd⟩
/-- src/rdata/caa.rs:28-34 -/
def Caa.new (issuerCritical : Bool) (tag value : Bytes) : Caa := ⟨issuerCritical, tag, value⟩
/-- src/rdata/sshfp.rs:19-29 -/
def Sshfp.new (algorithm : Algorithm) (fingerprintType : FingerprintType) (fingerprint : Bytes) : Sshfp :=
  ⟨algorithm, fingerprintType, fingerprint⟩
/-- src/rdata/tlsa.rs:42-54 -/
def Tlsa.new (certUsage : CertUsage) (selector : Selector) (matchingType : MatchingType)
    (associatedData : Bytes) : Tlsa := ⟨certUsage, selector, matchingType, associatedData⟩
/-- src/rdata/csync.rs:67-73; the set of types is a sorted list. -/
def Csync.new (soaSerial : UInt32) (flags : CsyncFlags) (types : List RecordType) : Csync :=
  ⟨soaSerial, flags, types⟩
/-- src/rdata/csync.rs:227-229 `From<Flags> for u16` -/
def CsyncFlags.toU16 (f : CsyncFlags) : UInt16 := f.bits
/-- src/rdata/dnssec.rs:28-33 -/
def Nsec.new (next : Fqdn) : Nsec := ⟨next, []⟩
/-- src/rdata/dnssec.rs:35-41; the set of types is a sorted list. -/
def Nsec.withTypes (next : Fqdn) (types : List RecordType) : Nsec := ⟨next, types⟩
/-- src/rdata/dnssec.rs:338-350 -/
def Ds.new (keyTag : UInt16) (algorithm : SecAlgorithm) (digestType : DigestType) (digest : Bytes) : Ds :=
  ⟨keyTag, algorithm, digestType, digest⟩
/-- src/rdata/dnssec.rs:440-462 -/
def Rrsig.new (typeCovered : RecordType) (algorithm : SecAlgorithm) (labels : UInt8)
    (originalTtl sigExpiration sigInception : UInt32) (keyTag : UInt16) (signersName : Fqdn)
    (signature : Bytes) : Rrsig :=
  ⟨typeCovered, algorithm, labels, originalTtl, sigExpiration, sigInception, keyTag, signersName, signature⟩
/-- src/rdata/dnssec.rs:237-239 -/
def DnsKey.getProtocol (r : DnsKey) : UInt8 := r.protocol
/-- src/rdata/dnssec.rs:497-499 -/
def Rrsig.getKeyTag (r : Rrsig) : UInt16 := r.keyTag
/-- src/rdata/dnssec.rs:501-503 -/
def Rrsig.getSignature (r : Rrsig) : Bytes := r.signature
/-- src/resource_record_set.rs:31-45 -/
def RRSet.new (name : Fqdn) (type : RecordType) (class_ : RecordClass) (ttl : UInt32)
    (records : List RecordData) : RRSet := ⟨name, type, class_, ttl, records⟩

/-- src/buffer.rs:101-106 `extract_u16_as` with the conversion of the two-octet type as parameter -/
def Buf.extractU16As {α : Type} (conv : UInt16 → Res α) : Parser α := do
  let v ← extractU16
  Parser.lift (conv v)

namespace Packet
/-- src/packet.rs:88-90 -/
def id (p : Packet) : UInt16 := p.header.id
/-- src/packet.rs:96-98 -/
def recursionDesired (p : Packet) : Bool := p.header.recursionDesired
/-- src/packet.rs:100-102 -/
def setRecursionDesired (p : Packet) (v : Bool) : Packet := { p with header := p.header.setRecursionDesired v }
/-- src/packet.rs:104-106 -/
def truncation (p : Packet) : Bool := p.header.truncation
/-- src/packet.rs:108-111 -/
def setTruncation (p : Packet) (v : Bool) : Packet := { p with header := p.header.setTruncation v }
/-- src/packet.rs:113-115 -/
def authoritativeAnswer (p : Packet) : Bool := p.header.authoritativeAnswer
/-- src/packet.rs:117-119 -/
def setAuthoritativeAnswer (p : Packet) (v : Bool) : Packet :=
  { p with header := p.header.setAuthoritativeAnswer v }
/-- src/packet.rs:121-123 -/
def opcode (p : Packet) : OpCode := p.header.opcode
/-- src/packet.rs:125-127 -/
def setOpcode (p : Packet) (v : OpCode) : Packet := { p with header := p.header.setOpcode v }
/-- src/packet.rs:129-131 -/
def queryResponse (p : Packet) : Bool := p.header.queryResponse
/-- src/packet.rs:133-135 -/
def setQueryResponse (p : Packet) (v : Bool) : Packet := { p with header := p.header.setQueryResponse v }
/-- src/packet.rs:137-139 -/
def responseCode (p : Packet) : Res ResponseCode := p.header.responseCode
/-- src/packet.rs:141-143 -/
def setResponseCode (p : Packet) (v : ResponseCode) : Packet := { p with header := p.header.setResponseCode v }
/-- src/packet.rs:145-147 -/
def recursionAvailable (p : Packet) : Bool := p.header.recursionAvailable
/-- src/packet.rs:149-151 -/
def setRecursionAvailable (p : Packet) (v : Bool) : Packet :=
  { p with header := p.header.setRecursionAvailable v }
end Packet

namespace Base64
/-- The alphabet of the crate `base64` (not in /repo), `general_purpose::STANDARD`.
Used at src/rdata/dnssec.rs:248-251 and src/rdata/dnssec.rs:506-509. -/
def digit (n : Nat) : UInt8 :=
  if n < 26 then UInt8.ofNat (0x41 + n)
  else if n < 52 then UInt8.ofNat (0x61 + (n - 26))
  else if n < 62 then UInt8.ofNat (0x30 + (n - 52))
  else if n = 62 then 0x2B else 0x2F

/-- `general_purpose::STANDARD.encode` of the crate `base64` (not in /repo): three octets become four
digits, the last group is padded with `=`.  Used at src/rdata/dnssec.rs:248-251 and src/rdata/dnssec.rs:506-509. -/
def encode : Bytes → Bytes
  | a :: b :: c :: rest =>
    digit (a.toNat / 4) :: digit (a.toNat % 4 * 16 + b.toNat / 16) ::
      digit (b.toNat % 16 * 4 + c.toNat / 64) :: digit (c.toNat % 64) :: encode rest
  | [a, b] => [digit (a.toNat / 4), digit (a.toNat % 4 * 16 + b.toNat / 16), digit (b.toNat % 16 * 4), 0x3D]
  | [a] => [digit (a.toNat / 4), digit (a.toNat % 4 * 16), 0x3D, 0x3D]
  | [] => []
end Base64

/-- src/rdata/dnssec.rs:248-251 -/
def DnsKey.base64PublicKey (r : DnsKey) : Bytes := Base64.encode r.publicKey
/-- src/rdata/dnssec.rs:506-509 -/
def Rrsig.base64Signature (r : Rrsig) : Bytes := Base64.encode r.signature

end Dns
