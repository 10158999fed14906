import Verif.Model.Packet
import Verif.Model.RRSet

/-
The accessors: `RData::record_type` and `RData::into_record_data` of the record data types
(trait in src/rdata/mod.rs:77-85), and the setters of records and questions.
-/

namespace Dns

/-- src/rdata/mod.rs:77-85 `trait RData` -/
class RDataTrait (α : Type) where
  recordType : α → RecordType
  intoRecordData : α → RecordData

/-- src/rdata/a.rs:42-44, 46-48 -/
instance : RDataTrait A := ⟨fun _ => .A, .A⟩
/-- src/rdata/ns.rs:42-44, 46-48 -/
instance : RDataTrait Ns := ⟨fun _ => .NS, .NS⟩
/-- src/rdata/cname.rs:42-44, 46-48 -/
instance : RDataTrait Cname := ⟨fun _ => .CNAME, .CNAME⟩
/-- src/rdata/soa.rs:86-88, 90-92 -/
instance : RDataTrait Soa := ⟨fun _ => .SOA, .SOA⟩
/-- src/rdata/null.rs:35-37, 39-41 -/
instance : RDataTrait Null := ⟨fun _ => .NULL, .NULL⟩
/-- src/rdata/wks.rs:61-63, 65-67 -/
instance : RDataTrait Wks := ⟨fun _ => .WKS, .WKS⟩
/-- src/rdata/ptr.rs:45-47, 49-51 -/
instance : RDataTrait Ptr := ⟨fun _ => .PTR, .PTR⟩
/-- src/rdata/hinfo.rs:37-39, 41-43 -/
instance : RDataTrait Hinfo := ⟨fun _ => .HINFO, .HINFO⟩
/-- src/rdata/minfo.rs:51-53, 55-57 -/
instance : RDataTrait Minfo := ⟨fun _ => .MINFO, .MINFO⟩
/-- src/rdata/mx.rs:46-48, 50-52 -/
instance : RDataTrait Mx := ⟨fun _ => .MX, .MX⟩
/-- src/rdata/txt.rs:35-37, 39-41 -/
instance : RDataTrait Txt := ⟨fun _ => .TXT, .TXT⟩
/-- src/rdata/aaaa.rs:46-48, 50-52 -/
instance : RDataTrait Aaaa := ⟨fun _ => .AAAA, .AAAA⟩
/-- src/rdata/loc.rs:103-105, 107-109 -/
instance : RDataTrait Loc := ⟨fun _ => .LOC, .LOC⟩
/-- src/rdata/srv.rs:77-79, 81-83 -/
instance : RDataTrait Srv := ⟨fun _ => .SRV, .SRV⟩
/-- src/rdata/naptr.rs:112-114, 116-118 -/
instance : RDataTrait Naptr := ⟨fun _ => .NAPTR, .NAPTR⟩
/-- src/rdata/opt.rs:45-47, 49-51 -/
instance : RDataTrait Opt := ⟨fun _ => .OPT, .OPT⟩
/-- src/rdata/apl.rs:85-87, 89-91 -/
instance : RDataTrait Apl := ⟨fun _ => .APL, .APL⟩
/-- src/rdata/dnssec.rs:395-397, 399-401 -/
instance : RDataTrait Ds := ⟨fun _ => .DS, .DS⟩
/-- src/rdata/sshfp.rs:45-47, 49-51 -/
instance : RDataTrait Sshfp := ⟨fun _ => .SSHFP, .SSHFP⟩
/-- src/rdata/ipseckey.rs:64-66, 68-70 -/
instance : RDataTrait IpSecKey := ⟨fun _ => .IPSECKEY, .IPSECKEY⟩
/-- src/rdata/dnssec.rs:698-700, 702-704 -/
instance : RDataTrait Rrsig := ⟨fun _ => .RRSIG, .RRSIG⟩
/-- src/rdata/dnssec.rs:45-47, 49-51 -/
instance : RDataTrait Nsec := ⟨fun _ => .NSEC, .NSEC⟩
/-- src/rdata/dnssec.rs:294-296, 298-300 -/
instance : RDataTrait DnsKey := ⟨fun _ => .DNSKEY, .DNSKEY⟩
/-- src/rdata/dhcid.rs:81-83, 85-87 -/
instance : RDataTrait Dhcid := ⟨fun _ => .DHCID, .DHCID⟩
/-- src/rdata/tlsa.rs:71-73, 75-77 -/
instance : RDataTrait Tlsa := ⟨fun _ => .TLSA, .TLSA⟩
/-- src/rdata/hip.rs:66-68, 70-72 -/
instance : RDataTrait Hip := ⟨fun _ => .HIP, .HIP⟩
/-- src/rdata/openpgpkey.rs:27-29, 31-33 -/
instance : RDataTrait OpenPgpKey := ⟨fun _ => .OPENPGPKEY, .OPENPGPKEY⟩
/-- src/rdata/csync.rs:111-113, 115-117 -/
instance : RDataTrait Csync := ⟨fun _ => .CSYNC, .CSYNC⟩
/-- src/rdata/svcb.rs:74-76, 78-80 -/
instance : RDataTrait Svcb := ⟨fun _ => .SVCB, .SVCB⟩
/-- src/rdata/eui48.rs:22-24, 26-28 -/
instance : RDataTrait Eui48 := ⟨fun _ => .EUI48, .EUI48⟩
/-- src/rdata/eui64.rs:22-24, 26-28 -/
instance : RDataTrait Eui64 := ⟨fun _ => .EUI64, .EUI64⟩
/-- src/rdata/tkey.rs:71-73, 75-77 -/
instance : RDataTrait Tkey := ⟨fun _ => .TKEY, .TKEY⟩
/-- src/rdata/tsig.rs:89-91, 93-95 -/
instance : RDataTrait Tsig := ⟨fun _ => .TSIG, .TSIG⟩
/-- src/rdata/uri.rs:65-67, 69-71 -/
instance : RDataTrait Uri := ⟨fun _ => .URI, .URI⟩
/-- src/rdata/caa.rs:60-62, 64-66 -/
instance : RDataTrait Caa := ⟨fun _ => .CAA, .CAA⟩

namespace ResourceRecord
/-- src/resource.rs:315-317 -/
def setName (r : ResourceRecord) (n : Fqdn) : ResourceRecord := { r with name := n }
/-- src/resource.rs:323-325: the data are not changed. -/
def setRecordType (r : ResourceRecord) (t : RecordType) : ResourceRecord := { r with type := t }
/-- src/resource.rs:333-335 (feature `mdns`) -/
def setCacheFlush (r : ResourceRecord) (f : Bool) : ResourceRecord := { r with cacheFlush := f }
/-- src/resource.rs:341-343 -/
def setClass (r : ResourceRecord) (c : RecordClass) : ResourceRecord := { r with class_ := c }
/-- src/resource.rs:349-351 -/
def setTimeToLive (r : ResourceRecord) (t : UInt32) : ResourceRecord := { r with ttl := t }
/-- src/resource.rs:365-367: the type is not changed.  `data_mut` (357-359) gives the caller the same
possibility. -/
def setData (r : ResourceRecord) (d : RecordData) : ResourceRecord := { r with rdata := d }
/-- src/resource.rs:369-371 -/
def dataRaw (cfg : Cfg) (r : ResourceRecord) : Res Bytes := r.rdata.toBytes cfg
end ResourceRecord

namespace Question
/-- src/question.rs:276-278 -/
def setName (q : Question) (n : Fqdn) : Question := { q with qName := n }
/-- src/question.rs:284-286 -/
def setQueryType (q : Question) (t : QType) : Question := { q with qType := t }
/-- src/question.rs:292-294 -/
def setClass (q : Question) (c : QClass) : Question := { q with qClass := c }
/-- src/question.rs:302-304 (feature `mdns`) -/
def setUnicastResponse (q : Question) (u : Bool) : Question := { q with unicastResponse := u }
end Question

end Dns
