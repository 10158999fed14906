import Verif.Spec.Writable

/-
The RDATA a sender has to write.  `Spec/RData.lean` says which octets mean a value; a sender may not
use all of them: unassigned flag bits must be zero, bitmaps must be as short as possible, and so on.
-/

namespace Dns.Spec
open Item

/-- Windows of a type bitmap (RFC 4034, section 4.1.2): in increasing order, 1 to 32 octets each, and
"trailing zero octets in the bitmap MUST be omitted" (and so are blocks without types). -/
def StrictWindows (ws : List (UInt8 × Bytes)) : Prop :=
  ws.Pairwise (fun a b => a.1.toNat < b.1.toNat) ∧
  ∀ w ∈ ws, 1 ≤ w.2.length ∧ w.2.length ≤ 32 ∧ w.2.getLast? ≠ some 0

/-- Flags of a DNSKEY: zone key and secure entry point, all other bits zero. -/
def dnskeyFlags (r : DnsKey) : Nat := (if r.zoneKey then 256 else 0) + (if r.secureEntryPoint then 1 else 0)

/-- The encodings of record data a sender may write. -/
def RDataStrict (cfg : Cfg) : RecordData → List Item → Prop
  | .TXT r, its => its = r.strings.map .str ++ [.eof]
  | .NAPTR r, its => its = [.u16 r.order, .u16 r.preference,
      .str (r.flags.map (fun f => UInt8.ofNat (flagNumber f))), .str r.service, .str r.regexp,
      .name r.replacement]
  | .OPT r, its => its = optionItems r.options ++ [.eof]
  -- RFC 3123, section 4: "Trailing zero octets do not bear any information [...] and MUST be omitted"
  | .APL r, its => ∃ part, its = [o16 (familyNumber r.afd), .u8 r.prefix,
      o8 ((if r.n then 128 else 0) + part.length), .raw part] ∧ afdOf r.afd part ∧
      part.getLast? ≠ some 0
  | .NSEC r, its => ∃ ws, its = .name r.nextDomainName :: windowItems ws ++ [.eof] ∧
      TypesOf cfg ws r.types ∧ StrictWindows ws
  | .CSYNC r, its => ∃ ws, its = [.u32 r.soaSerial, .u16 r.flags.bits] ++ windowItems ws ++ [.eof] ∧
      TypesOf cfg ws r.types ∧ StrictWindows ws
  | .DNSKEY r, its => its = [o16 (dnskeyFlags r), .u8 r.protocol, o8 (secAlgorithmNumber r.algorithm),
      .rest r.publicKey]
  | .CDNSKEY r, its => its = [o16 (dnskeyFlags r), .u8 r.protocol, o8 (secAlgorithmNumber r.algorithm),
      .rest r.publicKey]
  | .CAA r, its => its = [o8 (if r.issuerCritical then 128 else 0), .str r.tag, .rest r.value]
  | r, its => RData cfg r its

/-- Values that the crate does not write as the RFCs demand: an IPSECKEY without gateway, an APL address
that ends with a zero octet, and type bitmaps without a type of the first window. -/
def WrittenWell : RecordData → Prop
  | .IPSECKEY r => r.gateway ≠ .none
  | .APL r => match r.afd with
      | .ipV4 a => a.toNat % 256 ≠ 0
      | .ipV6 a => a.toNat % 256 ≠ 0
  | .NSEC r => ∃ t ∈ r.types, typeNumber t < 256
  | .CSYNC r => ∃ t ∈ r.types, typeNumber t < 256
  | _ => True

end Dns.Spec
