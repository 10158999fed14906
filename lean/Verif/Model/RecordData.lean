import Verif.Model.RDataDnssec

/-
src/rdata/mod.rs: the sum type of all RDATA types and its dispatch.
-/

namespace Dns

/-- src/rdata/mod.rs:130-174 `enum RecordData`. -/
inductive RecordData where
  | A (r : Dns.A)
  | NS (r : Dns.Ns)
  | CNAME (r : Dns.Cname)
  | SOA (r : Dns.Soa)
  | NULL (r : Dns.Null)
  | WKS (r : Dns.Wks)
  | PTR (r : Dns.Ptr)
  | HINFO (r : Dns.Hinfo)
  | MINFO (r : Dns.Minfo)
  | MX (r : Dns.Mx)
  | TXT (r : Dns.Txt)
  | AAAA (r : Dns.Aaaa)
  | LOC (r : Dns.Loc)
  | SRV (r : Dns.Srv)
  | NAPTR (r : Dns.Naptr)
  | OPT (r : Dns.Opt)
  | APL (r : Dns.Apl)
  | DS (r : Dns.Ds)
  | SSHFP (r : Dns.Sshfp)
  | IPSECKEY (r : Dns.IpSecKey)
  | RRSIG (r : Dns.Rrsig)
  | NSEC (r : Dns.Nsec)
  | DNSKEY (r : Dns.DnsKey)
  | DHCID (r : Dns.Dhcid)
  | TLSA (r : Dns.Tlsa)
  | HIP (r : Dns.Hip)
  | CDS (r : Dns.Ds)
  | CDNSKEY (r : Dns.DnsKey)
  | OPENPGPKEY (r : Dns.OpenPgpKey)
  | CSYNC (r : Dns.Csync)
  | SVCB (r : Dns.Svcb)
  | EUI48 (r : Dns.Eui48)
  | EUI64 (r : Dns.Eui64)
  | TKEY (r : Dns.Tkey)
  | TSIG (r : Dns.Tsig)
  | URI (r : Dns.Uri)
  | CAA (r : Dns.Caa)
  deriving DecidableEq, Repr

namespace RecordData

/-- The variant, i.e. the type code the data belongs to.  Corresponds to `RData::record_type` of the
variants (e.g. src/rdata/a.rs:42-44), except that CDS/CDNSKEY hold a `Ds`/`DnsKey`, whose
`record_type` is DS/DNSKEY. -/
def type : RecordData → RecordType
  | .A _ => .A
  | .NS _ => .NS
  | .CNAME _ => .CNAME
  | .SOA _ => .SOA
  | .NULL _ => .NULL
  | .WKS _ => .WKS
  | .PTR _ => .PTR
  | .HINFO _ => .HINFO
  | .MINFO _ => .MINFO
  | .MX _ => .MX
  | .TXT _ => .TXT
  | .AAAA _ => .AAAA
  | .LOC _ => .LOC
  | .SRV _ => .SRV
  | .NAPTR _ => .NAPTR
  | .OPT _ => .OPT
  | .APL _ => .APL
  | .DS _ => .DS
  | .SSHFP _ => .SSHFP
  | .IPSECKEY _ => .IPSECKEY
  | .RRSIG _ => .RRSIG
  | .NSEC _ => .NSEC
  | .DNSKEY _ => .DNSKEY
  | .DHCID _ => .DHCID
  | .TLSA _ => .TLSA
  | .HIP _ => .HIP
  | .CDS _ => .CDS
  | .CDNSKEY _ => .CDNSKEY
  | .OPENPGPKEY _ => .OPENPGPKEY
  | .CSYNC _ => .CSYNC
  | .SVCB _ => .SVCB
  | .EUI48 _ => .EUI48
  | .EUI64 _ => .EUI64
  | .TKEY _ => .TKEY
  | .TSIG _ => .TSIG
  | .URI _ => .URI
  | .CAA _ => .CAA

/-- src/rdata/mod.rs:179-225 `RecordData::from`. -/
def parse (cfg : Cfg) (t : RecordType) : Parser RecordData :=
  match t with
  | .A => do let r ← Dns.A.parse; return .A r
  | .NS => do let r ← Dns.Ns.parse; return .NS r
  | .CNAME => do let r ← Dns.Cname.parse; return .CNAME r
  | .SOA => do let r ← Dns.Soa.parse; return .SOA r
  | .NULL => do let r ← Dns.Null.parse; return .NULL r
  | .WKS => do let r ← Dns.Wks.parse; return .WKS r
  | .PTR => do let r ← Dns.Ptr.parse; return .PTR r
  | .HINFO => do let r ← Dns.Hinfo.parse; return .HINFO r
  | .MINFO => do let r ← Dns.Minfo.parse; return .MINFO r
  | .MX => do let r ← Dns.Mx.parse; return .MX r
  | .TXT => do let r ← Dns.Txt.parse; return .TXT r
  | .AAAA => do let r ← Dns.Aaaa.parse; return .AAAA r
  | .LOC => do let r ← Dns.Loc.parse; return .LOC r
  | .SRV => do let r ← Dns.Srv.parse; return .SRV r
  | .NAPTR => do let r ← Dns.Naptr.parse; return .NAPTR r
  | .OPT => do let r ← Dns.Opt.parse; return .OPT r
  | .APL => do let r ← Dns.Apl.parse; return .APL r
  | .DS => do let r ← Dns.Ds.parse; return .DS r
  | .SSHFP => do let r ← Dns.Sshfp.parse; return .SSHFP r
  | .IPSECKEY => do let r ← Dns.IpSecKey.parse; return .IPSECKEY r
  | .RRSIG => do let r ← Dns.Rrsig.parse cfg; return .RRSIG r
  | .NSEC => do let r ← Dns.Nsec.parse cfg; return .NSEC r
  | .DNSKEY => do let r ← Dns.DnsKey.parse; return .DNSKEY r
  | .DHCID => do let r ← Dns.Dhcid.parse; return .DHCID r
  | .TLSA => do let r ← Dns.Tlsa.parse; return .TLSA r
  | .HIP => do let r ← Dns.Hip.parse; return .HIP r
  | .CDS => do let r ← Dns.Ds.parse; return .CDS r
  | .CDNSKEY => do let r ← Dns.DnsKey.parse; return .CDNSKEY r
  | .OPENPGPKEY => do let r ← Dns.OpenPgpKey.parse; return .OPENPGPKEY r
  | .CSYNC => do let r ← Dns.Csync.parse cfg; return .CSYNC r
  | .SVCB => do let r ← Dns.Svcb.parse cfg; return .SVCB r
  | .EUI48 => do let r ← Dns.Eui48.parse; return .EUI48 r
  | .EUI64 => do let r ← Dns.Eui64.parse; return .EUI64 r
  | .TKEY => do let r ← Dns.Tkey.parse; return .TKEY r
  | .TSIG => do let r ← Dns.Tsig.parse; return .TSIG r
  | .URI => do let r ← Dns.Uri.parse; return .URI r
  | .CAA => do let r ← Dns.Caa.parse; return .CAA r

/-- src/rdata/mod.rs:229-275 `byte_size`. -/
def byteSize (cfg : Cfg) : RecordData → Res Nat
  | .A r => .ok r.byteSize
  | .NS r => .ok r.byteSize
  | .CNAME r => .ok r.byteSize
  | .SOA r => .ok r.byteSize
  | .NULL r => .ok r.byteSize
  | .WKS r => .ok r.byteSize
  | .PTR r => .ok r.byteSize
  | .HINFO r => .ok r.byteSize
  | .MINFO r => .ok r.byteSize
  | .MX r => .ok r.byteSize
  | .TXT r => .ok r.byteSize
  | .AAAA r => .ok r.byteSize
  | .LOC r => .ok r.byteSize
  | .SRV r => .ok r.byteSize
  | .NAPTR r => .ok r.byteSize
  | .OPT r => .ok r.byteSize
  | .APL r => .ok r.byteSize
  | .DS r => .ok r.byteSize
  | .SSHFP r => .ok r.byteSize
  | .IPSECKEY r => .ok r.byteSize
  | .RRSIG r => .ok r.byteSize
  | .NSEC r => r.byteSize cfg
  | .DNSKEY r => .ok r.byteSize
  | .DHCID r => .ok r.byteSize
  | .TLSA r => .ok r.byteSize
  | .HIP r => .ok r.byteSize
  | .CDS r => .ok r.byteSize
  | .CDNSKEY r => .ok r.byteSize
  | .OPENPGPKEY r => .ok r.byteSize
  | .CSYNC r => r.byteSize cfg
  | .SVCB r => .ok r.byteSize
  | .EUI48 r => .ok r.byteSize
  | .EUI64 r => .ok r.byteSize
  | .TKEY r => .ok r.byteSize
  | .TSIG r => .ok r.byteSize
  | .URI r => .ok r.byteSize
  | .CAA r => .ok r.byteSize

/-- src/rdata/mod.rs:277-323 `to_bytes`. -/
def toBytes (cfg : Cfg) : RecordData → Res Bytes
  | .A r => .ok r.toBytes
  | .NS r => .ok r.toBytes
  | .CNAME r => .ok r.toBytes
  | .SOA r => .ok r.toBytes
  | .NULL r => .ok r.toBytes
  | .WKS r => .ok r.toBytes
  | .PTR r => .ok r.toBytes
  | .HINFO r => .ok r.toBytes
  | .MINFO r => .ok r.toBytes
  | .MX r => .ok r.toBytes
  | .TXT r => .ok r.toBytes
  | .AAAA r => .ok r.toBytes
  | .LOC r => .ok r.toBytes
  | .SRV r => .ok r.toBytes
  | .NAPTR r => .ok r.toBytes
  | .OPT r => .ok r.toBytes
  | .APL r => .ok r.toBytes
  | .DS r => .ok r.toBytes
  | .SSHFP r => .ok r.toBytes
  | .IPSECKEY r => .ok r.toBytes
  | .RRSIG r => .ok r.toBytes
  | .NSEC r => r.toBytes cfg
  | .DNSKEY r => .ok r.toBytes
  | .DHCID r => .ok r.toBytes
  | .TLSA r => .ok r.toBytes
  | .HIP r => .ok r.toBytes
  | .CDS r => .ok r.toBytes
  | .CDNSKEY r => .ok r.toBytes
  | .OPENPGPKEY r => .ok r.toBytes
  | .CSYNC r => r.toBytes cfg
  | .SVCB r => r.toBytes cfg
  | .EUI48 r => .ok r.toBytes
  | .EUI64 r => .ok r.toBytes
  | .TKEY r => .ok r.toBytes
  | .TSIG r => .ok r.toBytes
  | .URI r => .ok r.toBytes
  | .CAA r => .ok r.toBytes

/-- src/rdata/mod.rs:327-377 `to_bytes_compressed`. -/
def toBytesCompressed (cfg : Cfg) (h : Hash) (d : RecordData) (names : Names) (offset : Nat) :
    Res (Bytes × Names) :=
  match d with
  | .A r => .ok (r.toBytes, names)
  | .NS r => .ok (r.toBytesCompressed h names offset)
  | .CNAME r => .ok (r.toBytesCompressed h names offset)
  | .SOA r => .ok (r.toBytesCompressed h names offset)
  | .NULL r => .ok (r.toBytes, names)
  | .WKS r => .ok (r.toBytes, names)
  | .PTR r => .ok (r.toBytesCompressed h names offset)
  | .HINFO r => .ok (r.toBytes, names)
  | .MINFO r => .ok (r.toBytesCompressed h names offset)
  | .MX r => .ok (r.toBytesCompressed h names offset)
  | .TXT r => .ok (r.toBytes, names)
  | .AAAA r => .ok (r.toBytes, names)
  | .LOC r => .ok (r.toBytes, names)
  | .SRV r => .ok (r.toBytesCompressed h names offset)
  | .NAPTR r => .ok (r.toBytesCompressed h names offset)
  | .OPT r => .ok (r.toBytes, names)
  | .APL r => .ok (r.toBytes, names)
  | .DS r => .ok (r.toBytes, names)
  | .SSHFP r => .ok (r.toBytes, names)
  | .IPSECKEY r => .ok (r.toBytes, names)
  | .RRSIG r => .ok (r.toBytes, names)
  | .NSEC r => r.toBytesCompressed cfg h names offset
  | .DNSKEY r => .ok (r.toBytes, names)
  | .DHCID r => .ok (r.toBytes, names)
  | .TLSA r => .ok (r.toBytes, names)
  | .HIP r => .ok (r.toBytes, names)
  | .CDS r => .ok (r.toBytes, names)
  | .CDNSKEY r => .ok (r.toBytes, names)
  | .OPENPGPKEY r => .ok (r.toBytes, names)
  | .CSYNC r => do let b ← r.toBytes cfg; return (b, names)
  | .SVCB r => do let b ← r.toBytes cfg; return (b, names)
  | .EUI48 r => .ok (r.toBytes, names)
  | .EUI64 r => .ok (r.toBytes, names)
  | .TKEY r => .ok (r.toBytes, names)
  | .TSIG r => .ok (r.toBytes, names)
  | .URI r => .ok (r.toBytes, names)
  | .CAA r => .ok (r.toBytes, names)

end RecordData
end Dns
