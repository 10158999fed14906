import Verif.Model.Basic

/-
Record types, query types and classes: src/resource.rs and src/question.rs.
Constructors that only exist with the feature `dnssec` are always present in the model; a
configuration without the feature never produces them (`ofU16`).
-/

namespace Dns

/-- src/resource.rs:65-109 `enum RecordType`. -/
inductive RecordType where
  | A | NS | CNAME | SOA | NULL | WKS | PTR | HINFO | MINFO | MX | TXT | AAAA | LOC | SRV | NAPTR | OPT | APL | DS | SSHFP | IPSECKEY | RRSIG | NSEC | DNSKEY | DHCID | TLSA | HIP | CDS | CDNSKEY | OPENPGPKEY | CSYNC | SVCB | EUI48 | EUI64 | TKEY | TSIG | URI | CAA
  deriving DecidableEq, Repr

namespace RecordType

/-- src/resource.rs:210-258 `From<RecordType> for u16`; equal to the discriminants 65-109 used by
`as u16`. -/
def toU16 : RecordType → UInt16
  | .A => 1
  | .NS => 2
  | .CNAME => 5
  | .SOA => 6
  | .NULL => 10
  | .WKS => 11
  | .PTR => 12
  | .HINFO => 13
  | .MINFO => 14
  | .MX => 15
  | .TXT => 16
  | .AAAA => 28
  | .LOC => 29
  | .SRV => 33
  | .NAPTR => 35
  | .OPT => 41
  | .APL => 42
  | .DS => 43
  | .SSHFP => 44
  | .IPSECKEY => 45
  | .RRSIG => 46
  | .NSEC => 47
  | .DNSKEY => 48
  | .DHCID => 49
  | .TLSA => 52
  | .HIP => 55
  | .CDS => 59
  | .CDNSKEY => 60
  | .OPENPGPKEY => 61
  | .CSYNC => 62
  | .SVCB => 64
  | .EUI48 => 108
  | .EUI64 => 109
  | .TKEY => 249
  | .TSIG => 250
  | .URI => 256
  | .CAA => 257

/-- src/resource.rs:161-208 `TryFrom<u16> for RecordType` (59 and 60 are missing in the code). -/
def ofU16 (cfg : Cfg) (n : UInt16) : Res RecordType :=
  match n with
  | 1 => .ok .A
  | 2 => .ok .NS
  | 5 => .ok .CNAME
  | 6 => .ok .SOA
  | 10 => .ok .NULL
  | 11 => .ok .WKS
  | 12 => .ok .PTR
  | 13 => .ok .HINFO
  | 14 => .ok .MINFO
  | 15 => .ok .MX
  | 16 => .ok .TXT
  | 28 => .ok .AAAA
  | 29 => .ok .LOC
  | 33 => .ok .SRV
  | 35 => .ok .NAPTR
  | 41 => .ok .OPT
  | 42 => .ok .APL
  | 43 => if cfg.dnssec then .ok .DS else .err (.invalidType 43)
  | 44 => .ok .SSHFP
  | 45 => .ok .IPSECKEY
  | 46 => if cfg.dnssec then .ok .RRSIG else .err (.invalidType 46)
  | 47 => if cfg.dnssec then .ok .NSEC else .err (.invalidType 47)
  | 48 => if cfg.dnssec then .ok .DNSKEY else .err (.invalidType 48)
  | 49 => .ok .DHCID
  | 52 => .ok .TLSA
  | 55 => .ok .HIP
  | 61 => .ok .OPENPGPKEY
  | 62 => .ok .CSYNC
  | 64 => .ok .SVCB
  | 108 => .ok .EUI48
  | 109 => .ok .EUI64
  | 249 => .ok .TKEY
  | 250 => .ok .TSIG
  | 256 => .ok .URI
  | 257 => .ok .CAA
  | n => .err (.invalidType n)

/-- src/resource.rs:112-158 `compression_allowed`. -/
def compressionAllowed : RecordType → Bool
  | .NS => true
  | .CNAME => true
  | .SOA => true
  | .PTR => true
  | .MINFO => true
  | .MX => true
  | .TXT => true
  | .SRV => true
  | .NAPTR => true
  | .NSEC => true
  | _ => false

end RecordType

/-- src/question.rs:74-125 `enum QType`: the record types and four query-only types. -/
inductive QType where
  | rr (t : RecordType)
  | AXFR | MAILB | MAILA | ANY
  deriving DecidableEq, Repr

namespace QType

/-- src/question.rs:181-234 `From<QType> for u16`; equal to the discriminants 74-125 used by
`as u16`.  Simplified: the 37 variants shared with `RecordType` (same names, same numbers) are
represented by `rr`. -/
def toU16 : QType → UInt16
  | .rr t => t.toU16
  | .AXFR => 252
  | .MAILB => 253
  | .MAILA => 254
  | .ANY => 255

/-- src/question.rs:127-179 `TryFrom<u16> for QType` (the lines 132-170 list the same numbers as
src/resource.rs:166-204). -/
def ofU16 (cfg : Cfg) (n : UInt16) : Res QType :=
  match n with
  | 252 => .ok .AXFR
  | 253 => .ok .MAILB
  | 254 => .ok .MAILA
  | 255 => .ok .ANY
  | n =>
    match RecordType.ofU16 cfg n with
    | .ok t => .ok (.rr t)
    | .err e => .err e
    | .panic k => .panic k
    | .hang => .hang

end QType

/-- src/question.rs:13-28 `enum QClass`. -/
inductive QClass where
  | IN | CS | CH | HS | NONE | ANY
  deriving DecidableEq, Repr

namespace QClass

/-- src/question.rs:47-58 `From<QClass> for u16`. -/
def toU16 : QClass → UInt16
  | .IN => 1
  | .CS => 2
  | .CH => 3
  | .HS => 4
  | .NONE => 254
  | .ANY => 255

/-- src/question.rs:30-45 `TryFrom<u16> for QClass`: the top bit is masked away, the error
reports the masked number. -/
def ofU16 (n : UInt16) : Res QClass :=
  match n &&& 0x7FFF with
  | 1 => .ok .IN
  | 2 => .ok .CS
  | 3 => .ok .CH
  | 4 => .ok .HS
  | 254 => .ok .NONE
  | 255 => .ok .ANY
  | m => .err (.invalidClass m)

end QClass

/-- src/resource.rs:13-24 `enum RecordClass`. -/
inductive RecordClass where
  | IN | CS | CH | HS
  | udpPayloadSize (n : UInt16)
  deriving DecidableEq, Repr

namespace RecordClass

/-- src/resource.rs:39-49 `From<RecordClass> for u16`. -/
def toU16 : RecordClass → UInt16
  | .IN => 1
  | .CS => 2
  | .CH => 3
  | .HS => 4
  | .udpPayloadSize n => n

/-- src/resource.rs:26-37 `From<u16> for RecordClass`. -/
def ofU16 (n : UInt16) : RecordClass :=
  match n &&& 0x7FFF with
  | 1 => .IN
  | 2 => .CS
  | 3 => .CH
  | 4 => .HS
  | m => .udpPayloadSize m

end RecordClass

end Dns
