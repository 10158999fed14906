import Verif.Model.RecordData
import Verif.Model.Header

/-
Numbers of the IANA registries, written down independently of the conversions of the model.
-/

namespace Dns.Spec

/-- IANA "Resource Record (RR) TYPEs". -/
def typeNumber : RecordType → Nat
  | .A => 1 | .NS => 2 | .CNAME => 5 | .SOA => 6 | .NULL => 10 | .WKS => 11 | .PTR => 12
  | .HINFO => 13 | .MINFO => 14 | .MX => 15 | .TXT => 16 | .AAAA => 28 | .LOC => 29 | .SRV => 33
  | .NAPTR => 35 | .OPT => 41 | .APL => 42 | .DS => 43 | .SSHFP => 44 | .IPSECKEY => 45
  | .RRSIG => 46 | .NSEC => 47 | .DNSKEY => 48 | .DHCID => 49 | .TLSA => 52 | .HIP => 55
  | .CDS => 59 | .CDNSKEY => 60 | .OPENPGPKEY => 61 | .CSYNC => 62 | .SVCB => 64 | .EUI48 => 108
  | .EUI64 => 109 | .TKEY => 249 | .TSIG => 250 | .URI => 256 | .CAA => 257

/-- All record types of the crate. -/
def allTypes : List RecordType :=
  [.A, .NS, .CNAME, .SOA, .NULL, .WKS, .PTR, .HINFO, .MINFO, .MX, .TXT, .AAAA, .LOC, .SRV, .NAPTR,
   .OPT, .APL, .DS, .SSHFP, .IPSECKEY, .RRSIG, .NSEC, .DNSKEY, .DHCID, .TLSA, .HIP, .CDS, .CDNSKEY,
   .OPENPGPKEY, .CSYNC, .SVCB, .EUI48, .EUI64, .TKEY, .TSIG, .URI, .CAA]

/-- IANA query types; the numbers of the record types are query types as well. -/
def qtypeNumber : QType → Nat
  | .rr t => typeNumber t
  | .AXFR => 252 | .MAILB => 253 | .MAILA => 254 | .ANY => 255

/-- IANA classes and query classes. -/
def qclassNumber : QClass → Nat
  | .IN => 1 | .CS => 2 | .CH => 3 | .HS => 4 | .NONE => 254 | .ANY => 255

/-- Class field of a record: a class, or (OPT pseudo record, RFC 6891) the UDP payload size. -/
def classNumber : RecordClass → Nat
  | .IN => 1 | .CS => 2 | .CH => 3 | .HS => 4 | .udpPayloadSize n => n.toNat

/-- Types that only exist with the feature `dnssec`. -/
def dnssecTypes : List RecordType := [.DS, .RRSIG, .NSEC, .DNSKEY, .CDS, .CDNSKEY]

/-- The record types the crate can read in a build: CDS and CDNSKEY are never recognised. -/
def Readable (cfg : Cfg) (t : RecordType) : Prop :=
  t ≠ .CDS ∧ t ≠ .CDNSKEY ∧ (t ∈ dnssecTypes → cfg.dnssec = true)

instance (cfg : Cfg) (t : RecordType) : Decidable (Readable cfg t) := by
  unfold Readable; infer_instance

/-- Key algorithms of SSHFP, IPSECKEY and HIP records as the API of the crate names them. -/
def algorithmNumber : Algorithm → Nat
  | .reserved => 0 | .RSA => 1 | .DSA => 2 | .ECDSA => 3 | .ed25519 => 4 | .ed448 => 5

/-- RFC 4255: SSHFP fingerprint types. -/
def fingerprintNumber : FingerprintType → Nat
  | .reserved => 0 | .SHA1 => 1

/-- RFC 6698: TLSA certificate usages. -/
def certUsageNumber : CertUsage → Nat
  | .ca => 0 | .serviceCertificateConstraint => 1 | .trustAnchor => 2 | .domainIssuedCertificate => 3

/-- RFC 6698: TLSA selectors. -/
def selectorNumber : Selector → Nat
  | .full => 0 | .subjectPublicKeyInfo => 1

/-- RFC 6698: TLSA matching types. -/
def matchingNumber : MatchingType → Nat
  | .exactMatch => 0 | .SHA256 => 1 | .SHA512 => 2

/-- RFC 4701: DHCID identifier types. -/
def identifierNumber : IdentifierType → Nat
  | .chaddrOfDhcpRequest => 0 | .clientIdentifierOption => 1 | .DUID => 2

/-- RFC 2930: TKEY modes. -/
def tkeyModeNumber : TkeyMode → Nat
  | .serverAssignment => 1 | .diffieHellmanExchange => 2 | .gssApiNegotiation => 3
  | .resolverAssignment => 4 | .keyDeletion => 5 | .available n => n.toNat

/-- RFC 2930: TKEY errors. -/
def tkeyErrorNumber : TkeyError → Nat
  | .none => 0 | .nonExtendedRcode n => n.toNat | .badSig => 16 | .badKey => 17 | .badTime => 18
  | .badMode => 19 | .badName => 20 | .badAlg => 21

/-- RFC 8945: TSIG errors. -/
def tsigErrorNumber : TsigError → Nat
  | .none => 0 | .badSig => 16 | .badKey => 17 | .badTime => 18 | .badTrunc => 22

/-- IANA DNSSEC algorithm numbers. -/
def secAlgorithmNumber : SecAlgorithm → Nat
  | .RSA_MD5 => 1 | .DSA_SHA1 => 3 | .RSA_SHA1 => 5 | .RSA_SHA256 => 8 | .RSA_SHA512 => 10
  | .ECDSA_P256 => 13 | .ECDSA_P384 => 14 | .ED25519 => 15 | .ED448 => 16 | .indirect => 252
  | .privateDns => 253 | .privateOid => 254

/-- DS digest types (IANA; 5 as the crate uses it). -/
def digestNumber : DigestType → Nat
  | .SHA1 => 1 | .SHA256 => 2 | .SHA384 => 4 | .SHA512 => 5

/-- RFC 9460: SvcParamKeys. -/
def paramKeyNumber : ParamKey → Nat
  | .mandatory => 0 | .alpn => 1 | .noDefaultAlpn => 2 | .port => 3 | .ipV4Hint => 4 | .ech => 5
  | .ipV6Hint => 6 | .private n => n.toNat | .invalid => 65535

/-- RFC 3403 NAPTR flags: ASCII `S`, `A`, `U`, `P`. -/
def flagNumber : NaptrFlag → Nat
  | .S => 0x53 | .A => 0x41 | .U => 0x55 | .P => 0x50

/-- The number RFC 1035 section 4.1.1 gives to an opcode. -/
def opcodeNumber : OpCode → Nat
  | .standardQuery => 0
  | .inverseQuery => 1
  | .serverStatusRequest => 2
  | .reserved => 3

/-- The number of a response code (RFC 1035 section 4.1.1, RFC 2136 section 2.2). -/
def rcodeNumber : ResponseCode → Nat
  | .noError => 0
  | .formatError => 1
  | .serverFailure => 2
  | .nameError => 3
  | .notImplemented => 4
  | .refused => 5
  | .yxDomain => 6
  | .yxRRSet => 7
  | .nxRRSet => 8
  | .notAuth => 9
  | .notZone => 10

end Dns.Spec
