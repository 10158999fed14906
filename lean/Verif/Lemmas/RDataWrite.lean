import Verif.Lemmas.ItemsWrite
import Verif.Lemmas.BitmapWrite
import Verif.Lemmas.Utf8
import Verif.Lemmas.PacketParse
import Verif.Spec.Writable

/-! The RDATA writers against the formats of `Spec/RData.lean`. -/

set_option linter.unusedSimpArgs false
set_option linter.unnecessarySimpa false

namespace Dns
open Spec

/-- Types whose names are compressed by `to_bytes_compressed`. -/
def compresses : RecordData → Bool
  | .NS _ | .CNAME _ | .SOA _ | .PTR _ | .MINFO _ | .MX _ | .SRV _ | .NAPTR _ | .NSEC _ => true
  | _ => false

/-- `its` is the encoding the crate writes for `r`. -/
structure Writes (cfg : Cfg) (max : Nat) (r : RecordData) (its : List Item) : Prop where
  rdata : RData cfg r its
  bytes : r.toBytes cfg = .ok (Items.octets its)
  compressed : ∀ h names off, r.toBytesCompressed cfg h names off =
    .ok (if compresses r then Items.compress h its names off else (Items.octets its, names))
  fits : ∀ it ∈ its, it.Fits max
  opens : ∀ it ∈ its.dropLast, it.Open
  names : ∀ n, .name n ∈ its → n ∈ rdataNames r

theorem NameOk.toBytes {max : Nat} {n : Fqdn} (h : NameOk max n) : n.toBytes = nameOctets n :=
  Fqdn.toBytes_eq (fun l hl => (h l hl).1)

theorem Algorithm.toU8_eq (x : Algorithm) : x.toU8 = UInt8.ofNat (algorithmNumber x) := by cases x <;> rfl
theorem FingerprintType.toU8_eq (x : FingerprintType) : x.toU8 = UInt8.ofNat (fingerprintNumber x) := by
  cases x <;> rfl
theorem CertUsage.toU8_eq (x : CertUsage) : x.toU8 = UInt8.ofNat (certUsageNumber x) := by cases x <;> rfl
theorem Selector.toU8_eq (x : Selector) : x.toU8 = UInt8.ofNat (selectorNumber x) := by cases x <;> rfl
theorem MatchingType.toU8_eq (x : MatchingType) : x.toU8 = UInt8.ofNat (matchingNumber x) := by
  cases x <;> rfl
theorem SecAlgorithm.toU8_eq (x : SecAlgorithm) : x.toU8 = UInt8.ofNat (secAlgorithmNumber x) := by
  cases x <;> rfl
theorem DigestType.toU8_eq (x : DigestType) : x.toU8 = UInt8.ofNat (digestNumber x) := by cases x <;> rfl
theorem IdentifierType.toU16_eq (x : IdentifierType) : x.toU16 = UInt16.ofNat (identifierNumber x) := by
  cases x <;> rfl
theorem TsigError.toU16_eq (x : TsigError) : x.toU16 = UInt16.ofNat (tsigErrorNumber x) := by
  cases x <;> rfl
theorem TkeyMode.toU16_eq (x : TkeyMode) : x.toU16 = UInt16.ofNat (tkeyModeNumber x) := by
  cases x <;> simp [TkeyMode.toU16, tkeyModeNumber]
theorem TkeyError.toU16_eq (x : TkeyError) : x.toU16 = UInt16.ofNat (tkeyErrorNumber x) := by
  cases x <;> simp [TkeyError.toU16, tkeyErrorNumber]
theorem ParamKey.toU16_eq (x : ParamKey) : x.toU16 = UInt16.ofNat (paramKeyNumber x) := by
  cases x <;> simp [ParamKey.toU16, paramKeyNumber]
theorem RecordType.toU16_eq (x : RecordType) : x.toU16 = UInt16.ofNat (typeNumber x) := by
  cases x <;> rfl
theorem QType.toU16_eq (x : QType) : x.toU16 = UInt16.ofNat (qtypeNumber x) := by
  cases x with
  | rr t => exact RecordType.toU16_eq t
  | _ => rfl
theorem gatewayType_eq (g : Gateway) : g.gatewayType = UInt8.ofNat (gatewayItems g).1 := by
  cases g <;> rfl

theorem octets16_length (v : UInt16) : (octets16 v).length = 2 := rfl
theorem octets32_length (v : UInt32) : (octets32 v).length = 4 := rfl

/-- Formats without loops. -/
macro "plain_format" "[" ls:Lean.Parser.Tactic.simpLemma,* "]" : tactic => `(tactic|
  (constructor
   · simp only [RData, dsItems, and_true]
     try first | assumption | exact ⟨by assumption, by assumption⟩
   · simp only [RecordData.toBytes, Items.octets, Item.octets, ← toBE_eq_map, u16be_eq, u32be_eq,
      List.map_cons, List.map_nil, List.flatten_cons, List.flatten_nil, List.append_nil,
      List.append_assoc, List.cons_append, List.nil_append, dsItems, o8, o16, lenU8, lenU16, $ls,*]
   · intro h names off
     simp only [RecordData.toBytesCompressed, compresses, Items.compress, Item.compress, Items.octets,
      Item.octets, ← toBE_eq_map, u16be_eq, u32be_eq, if_true, if_false, Bool.false_eq_true,
      List.map_cons, List.map_nil, List.flatten_cons, List.flatten_nil, List.append_nil,
      List.append_assoc, List.cons_append, List.nil_append, dsItems, o8, o16, lenU8, lenU16, $ls,*,
      octets16_length, octets32_length, Nat.add_assoc, List.length_append, List.length_cons,
      List.length_nil, Nat.reduceAdd]
   · simp only [dsItems, o8, o16, List.forall_mem_cons, Item.Fits, List.not_mem_nil, and_true, true_and,
      false_implies, implies_true]
     try assumption
   · simp only [dsItems, o8, o16, List.dropLast, List.forall_mem_cons, Item.Open, List.not_mem_nil,
      and_true, true_and, false_implies, implies_true]
   · intro n hn
     simpa [dsItems, o8, o16, rdataNames] using hn))

theorem writes_A (cfg : Cfg) (max : Nat) (r : A) : Writes cfg max (.A r) [.u32 r.addr] := by
  plain_format [A.toBytes]
theorem writes_NS {cfg : Cfg} {max : Nat} {r : Ns} (h : Writable cfg max (.NS r)) :
    Writes cfg max (.NS r) [.name r.nsdname] := by
  plain_format [Ns.toBytes, Ns.toBytesCompressed, NameOk.toBytes h]
theorem writes_CNAME {cfg : Cfg} {max : Nat} {r : Cname} (h : Writable cfg max (.CNAME r)) :
    Writes cfg max (.CNAME r) [.name r.cname] := by
  plain_format [Cname.toBytes, Cname.toBytesCompressed, NameOk.toBytes h]
theorem writes_PTR {cfg : Cfg} {max : Nat} {r : Ptr} (h : Writable cfg max (.PTR r)) :
    Writes cfg max (.PTR r) [.name r.ptrdname] := by
  plain_format [Ptr.toBytes, Ptr.toBytesCompressed, NameOk.toBytes h]
theorem writes_MX {cfg : Cfg} {max : Nat} {r : Mx} (h : Writable cfg max (.MX r)) :
    Writes cfg max (.MX r) [.u16 r.preference, .name r.exchange] := by
  plain_format [Mx.toBytes, Mx.toBytesCompressed, NameOk.toBytes h]
theorem writes_SRV {cfg : Cfg} {max : Nat} {r : Srv} (h : Writable cfg max (.SRV r)) :
    Writes cfg max (.SRV r) [.u16 r.priority, .u16 r.weight, .u16 r.port, .name r.target] := by
  plain_format [Srv.toBytes, Srv.toBytesCompressed, NameOk.toBytes h]
theorem writes_SOA {cfg : Cfg} {max : Nat} {r : Soa} (h : Writable cfg max (.SOA r)) :
    Writes cfg max (.SOA r) [.name r.mname, .name r.rname, .u32 r.serial, .u32 r.refresh, .u32 r.retry,
      .u32 r.expire, .u32 r.minimum] := by
  plain_format [Soa.toBytes, Soa.toBytesCompressed, NameOk.toBytes h.1, NameOk.toBytes h.2]
theorem writes_MINFO {cfg : Cfg} {max : Nat} {r : Minfo} (h : Writable cfg max (.MINFO r)) :
    Writes cfg max (.MINFO r) [.name r.rmailbx, .name r.emailbx] := by
  plain_format [Minfo.toBytes, Minfo.toBytesCompressed, NameOk.toBytes h.1, NameOk.toBytes h.2]
theorem writes_NULL (cfg : Cfg) (max : Nat) (r : Null) : Writes cfg max (.NULL r)
    [.rest r.anything] := by
  plain_format [Null.toBytes]
theorem writes_WKS (cfg : Cfg) (max : Nat) (r : Wks) : Writes cfg max (.WKS r)
    [.u32 r.address, .u8 r.protocol, .rest r.bitmap] := by
  plain_format [Wks.toBytes]
theorem writes_LOC (cfg : Cfg) (max : Nat) (r : Loc) : Writes cfg max (.LOC r)
    [.u8 r.version, .u8 r.size, .u8 r.horizPre, .u8 r.vertPre, .u32 r.latitude, .u32 r.longitude,
      .u32 r.altitude] := by
  plain_format [Loc.toBytes]
theorem writes_DS (cfg : Cfg) (max : Nat) (r : Ds) : Writes cfg max (.DS r)
    (dsItems r) := by
  plain_format [Ds.toBytes, SecAlgorithm.toU8_eq, DigestType.toU8_eq]
theorem writes_CDS (cfg : Cfg) (max : Nat) (r : Ds) : Writes cfg max (.CDS r)
    (dsItems r) := by
  plain_format [Ds.toBytes, SecAlgorithm.toU8_eq, DigestType.toU8_eq]
theorem writes_SSHFP (cfg : Cfg) (max : Nat) (r : Sshfp) : Writes cfg max (.SSHFP r)
    [o8 (algorithmNumber r.algorithm), o8 (fingerprintNumber r.fingerprintType),
      .rest r.fingerprint] := by
  plain_format [Sshfp.toBytes, Algorithm.toU8_eq, FingerprintType.toU8_eq]
theorem writes_DHCID (cfg : Cfg) (max : Nat) (r : Dhcid) : Writes cfg max (.DHCID r)
    [o16 (identifierNumber r.identifierCode), .u8 1, .rest r.digest] := by
  plain_format [Dhcid.toBytes, IdentifierType.toU16_eq]
theorem writes_TLSA (cfg : Cfg) (max : Nat) (r : Tlsa) : Writes cfg max (.TLSA r)
    [o8 (certUsageNumber r.certUsage), o8 (selectorNumber r.selector),
      o8 (matchingNumber r.matchingType), .rest r.associatedData] := by
  plain_format [Tlsa.toBytes, CertUsage.toU8_eq, Selector.toU8_eq, MatchingType.toU8_eq]
theorem writes_OPENPGPKEY (cfg : Cfg) (max : Nat) (r : OpenPgpKey) : Writes cfg max (.OPENPGPKEY r)
    [.rest r.key] := by
  plain_format [OpenPgpKey.toBytes]
theorem writes_URI (cfg : Cfg) (max : Nat) (r : Uri) : Writes cfg max (.URI r)
    [.u16 r.priority, .u16 r.weight, .rest r.target] := by
  plain_format [Uri.toBytes]
theorem writes_AAAA (cfg : Cfg) (max : Nat) (r : Aaaa) : Writes cfg max (.AAAA r)
    [.num 16 r.addr.toNat] := by
  have h : r.addr.toNat < 256 ^ 16 := by have := r.addr.isLt; norm_num at this ⊢; exact this
  plain_format [Aaaa.toBytes]
theorem writes_EUI48 (cfg : Cfg) (max : Nat) (r : Eui48) : Writes cfg max (.EUI48 r)
    [.num 6 r.addr.toNat] := by
  have h : r.addr.toNat < 256 ^ 6 := by have := r.addr.isLt; norm_num at this ⊢; exact this
  plain_format [Eui48.toBytes]
theorem writes_EUI64 (cfg : Cfg) (max : Nat) (r : Eui64) : Writes cfg max (.EUI64 r)
    [.num 8 r.addr.toNat] := by
  have h : r.addr.toNat < 256 ^ 8 := by have := r.addr.isLt; norm_num at this ⊢; exact this
  plain_format [Eui64.toBytes]
theorem writes_HINFO {cfg : Cfg} {max : Nat} {r : Hinfo} (h : Writable cfg max (.HINFO r)) :
    Writes cfg max (.HINFO r) [.str r.cpu, .str r.os] := by
  simp only [Writable] at h
  plain_format [Hinfo.toBytes]
theorem writes_RRSIG {cfg : Cfg} {max : Nat} {r : Rrsig} (h : Writable cfg max (.RRSIG r)) :
    Writes cfg max (.RRSIG r) [o16 (typeNumber r.typeCovered), o8 (secAlgorithmNumber r.algorithm),
      .u8 r.labels, .u32 r.originalTtl, .u32 r.sigExpiration, .u32 r.sigInception, .u16 r.keyTag,
      .name r.signersName, .rest r.signature] := by
  simp only [Writable] at h
  have h1 := h.1
  have h2 := h.2
  plain_format [Rrsig.toBytes, NameOk.toBytes h.2, RecordType.toU16_eq, SecAlgorithm.toU8_eq]
theorem writes_TKEY {cfg : Cfg} {max : Nat} {r : Tkey} (h : Writable cfg max (.TKEY r)) :
    Writes cfg max (.TKEY r) [.name r.algorithm, .u32 r.inception, .u32 r.expiration,
      o16 (tkeyModeNumber r.mode), o16 (tkeyErrorNumber r.error), .str16 r.keyData,
      .str16 r.otherData] := by
  obtain ⟨h1, h2, h3, h4, h5⟩ := h
  have h6 := And.intro h1 (And.intro h4 h5)
  plain_format [Tkey.toBytes, NameOk.toBytes h1, TkeyMode.toU16_eq, TkeyError.toU16_eq]
theorem writes_TSIG {cfg : Cfg} {max : Nat} {r : Tsig} (h : Writable cfg max (.TSIG r)) :
    Writes cfg max (.TSIG r) [.name r.algorithm, .num 6 r.timeSigned.toNat, .u16 r.fudge, .str16 r.mac,
      .u16 r.originalId, o16 (tsigErrorNumber r.error), .str16 r.otherData] := by
  obtain ⟨h1, h2, h4, h5⟩ := h
  have h2' : r.timeSigned.toNat < 256 ^ 6 := by norm_num at h2 ⊢; exact h2
  have h6 := And.intro h1 (And.intro h2' (And.intro h4 h5))
  have ht : (u64be r.timeSigned).drop 2 = toBE 6 r.timeSigned.toNat := rfl
  plain_format [Tsig.toBytes, NameOk.toBytes h1, TsigError.toU16_eq, ht]

theorem flag_octets (fs : List NaptrFlag) : (fs.map NaptrFlag.toU8).filterMap flagOf = fs := by
  induction fs with
  | nil => rfl
  | cons f fs ih =>
    have : flagOf f.toU8 = some f := by cases f <;> decide
    simp [this, ih]

theorem writes_NAPTR {cfg : Cfg} {max : Nat} {r : Naptr} (h : Writable cfg max (.NAPTR r)) :
    Writes cfg max (.NAPTR r) [.u16 r.order, .u16 r.preference, .str (r.flags.map NaptrFlag.toU8),
      .str r.service, .str r.regexp, .name r.replacement] := by
  obtain ⟨h1, h2, h3, h4, h5⟩ := h
  have h6 : (r.flags.map NaptrFlag.toU8).length < 256 ∧ r.service.length < 256 ∧ r.regexp.length < 256 ∧
      Good max r.replacement := ⟨by simpa using h1, h2, h3, h5⟩
  have h7 : RData cfg (.NAPTR r) [.u16 r.order, .u16 r.preference, .str (r.flags.map NaptrFlag.toU8),
      .str r.service, .str r.regexp, .name r.replacement] :=
    ⟨_, rfl, (flag_octets _).symm, (utf8Valid_iff _).mpr h4⟩
  constructor
  · exact h7
  all_goals clear h7
  · simp [RecordData.toBytes, Naptr.toBytes, Naptr.headBytes, Items.octets, Item.octets, u16be_eq,
      NameOk.toBytes h5, lenU8]
  · intro h names off
    simp [RecordData.toBytesCompressed, compresses, Naptr.toBytesCompressed, Naptr.headBytes,
      Items.compress, Item.compress, Item.octets, u16be_eq, lenU8, octets16_length,
      Nat.add_assoc, Nat.add_comm, Nat.add_left_comm]
  · simpa only [List.forall_mem_cons, Item.Fits, List.not_mem_nil, and_true, true_and,
      false_implies, implies_true] using h6
  · simp [Item.Open]
  · intro n hn
    simpa [rdataNames] using hn

theorem flags_octets (r : DnsKey) : r.zoneKey = r.flags.toNat.testBit 8 ∧
    r.secureEntryPoint = r.flags.toNat.testBit 0 := by
  have key : ∀ z s : Bool,
      z = (((if z then 1 else 0 : UInt16) <<< 8) ||| (if s then 1 else 0)).toNat.testBit 8 ∧
      s = (((if z then 1 else 0 : UInt16) <<< 8) ||| (if s then 1 else 0)).toNat.testBit 0 := by decide
  exact key r.zoneKey r.secureEntryPoint

theorem dnskey_octets (r : DnsKey) : r.toBytes = Items.octets [.u16 r.flags, .u8 r.protocol,
    o8 (secAlgorithmNumber r.algorithm), .rest r.publicKey] := by
  simp [DnsKey.toBytes, Items.octets, Item.octets, o8, u16be_eq, SecAlgorithm.toU8_eq]

theorem writes_DNSKEY (cfg : Cfg) (max : Nat) (r : DnsKey) : Writes cfg max (.DNSKEY r)
    [.u16 r.flags, .u8 r.protocol, o8 (secAlgorithmNumber r.algorithm), .rest r.publicKey] := by
  constructor
  · exact ⟨_, rfl, (flags_octets r).1, (flags_octets r).2⟩
  · exact congrArg _ (dnskey_octets r)
  · intro h names off
    exact congrArg (fun b => Res.ok (b, names)) (dnskey_octets r)
  · simp [Item.Fits, o8]
  · simp [Item.Open, o8]
  · simp [o8]
theorem writes_CDNSKEY (cfg : Cfg) (max : Nat) (r : DnsKey) : Writes cfg max (.CDNSKEY r)
    [.u16 r.flags, .u8 r.protocol, o8 (secAlgorithmNumber r.algorithm), .rest r.publicKey] := by
  constructor
  · exact ⟨_, rfl, (flags_octets r).1, (flags_octets r).2⟩
  · exact congrArg _ (dnskey_octets r)
  · intro h names off
    exact congrArg (fun b => Res.ok (b, names)) (dnskey_octets r)
  · simp [Item.Fits, o8]
  · simp [Item.Open, o8]
  · simp [o8]

theorem writes_CAA {cfg : Cfg} {max : Nat} {r : Caa} (h : Writable cfg max (.CAA r)) :
    Writes cfg max (.CAA r) [.u8 ((if r.issuerCritical then 1 else 0 : UInt8) <<< 7), .str r.tag,
      .rest r.value] := by
  obtain ⟨h1, h2, h3⟩ := h
  have hc : r.issuerCritical =
      ((if r.issuerCritical then 1 else 0 : UInt8) <<< 7).toNat.testBit 7 := by
    cases r.issuerCritical <;> decide
  have hb : r.toBytes = Items.octets [.u8 ((if r.issuerCritical then 1 else 0 : UInt8) <<< 7),
      .str r.tag, .rest r.value] := by
    simp [Caa.toBytes, Items.octets, Item.octets, lenU8]
  constructor
  · exact ⟨_, r.tag, rfl, h1, hc, (utf8Lossy_of_valid ((utf8Valid_iff _).mpr h3)).symm⟩
  · exact congrArg _ hb
  · intro h names off
    exact congrArg (fun b => Res.ok (b, names)) hb
  · simpa [Item.Fits] using h2
  · simp [Item.Open]
  · simp

theorem foldl_strings (l : List Bytes) (acc : Bytes) :
    l.foldl (fun buff e => buff ++ [lenU8 e.length] ++ e) acc = acc ++ Items.octets (l.map .str) := by
  induction l generalizing acc with
  | nil => simp [Items.octets]
  | cons x xs ih =>
    rw [List.foldl_cons, ih, List.map_cons, octets_cons]
    simp [Item.octets, lenU8]

theorem opens_eof {its : List Item} (h : ∀ it ∈ its, it.Open) :
    ∀ it ∈ (its ++ [Item.eof]).dropLast, it.Open := by
  rw [List.dropLast_concat]; exact h

theorem fits_eof {max : Nat} {its : List Item} (h : ∀ it ∈ its, it.Fits max) :
    ∀ it ∈ its ++ [Item.eof], it.Fits max := by
  intro it hit
  rcases List.mem_append.mp hit with h1 | h1
  · exact h it h1
  · simp only [List.mem_singleton] at h1; subst h1; trivial

theorem octets_eof (its : List Item) : Items.octets (its ++ [.eof]) = Items.octets its := by
  simp [Items.octets, Item.octets]

theorem writes_TXT {cfg : Cfg} {max : Nat} {r : Txt} (h : Writable cfg max (.TXT r)) :
    Writes cfg max (.TXT r) (r.strings.map .str ++ [.eof]) := by
  have hb : r.toBytes = Items.octets (r.strings.map .str ++ [.eof]) := by
    rw [octets_eof, Txt.toBytes, foldl_strings]; simp
  constructor
  · refine ⟨r.strings, rfl, ?_⟩
    conv_lhs => rw [← List.map_id r.strings]
    apply List.map_congr_left
    intro s hs
    exact (utf8Lossy_of_valid ((utf8Valid_iff _).mpr (h s hs).2)).symm
  · exact congrArg _ hb
  · intro h names off
    exact congrArg (fun b => Res.ok (b, names)) hb
  · apply fits_eof
    intro it hit
    obtain ⟨s, hs, rfl⟩ := List.mem_map.mp hit
    exact (h s hs).1
  · apply opens_eof
    intro it hit
    obtain ⟨s, hs, rfl⟩ := List.mem_map.mp hit
    trivial
  · intro n hn
    simp at hn

theorem foldl_options (l : List (UInt16 × Bytes)) (acc : Bytes) :
    l.foldl (fun buff e => buff ++ u16be e.1 ++ u16be (lenU16 e.2.length) ++ e.2) acc
      = acc ++ Items.octets (optionItems l) := by
  induction l generalizing acc with
  | nil => simp [Items.octets, optionItems]
  | cons x xs ih =>
    rw [List.foldl_cons, ih]
    simp [optionItems, octets_cons, Item.octets, lenU16, u16be_eq]

theorem eraseDups_of_nodup {l : List UInt16} (h : l.Nodup) : l.eraseDups = l := by
  induction l using List.reverseRecOn with
  | nil => rfl
  | append_singleton l a ih =>
    have h' := List.nodup_append.mp h
    rw [eraseDups_snoc, if_neg (fun hm => h'.2.2 a hm a (by simp) rfl), ih h'.1]

theorem mapOf_of_nodup {kvs : List (UInt16 × Bytes)} (h : (kvs.map Prod.fst).Nodup) :
    mapOf kvs = kvs := by
  induction kvs using List.reverseRecOn with
  | nil => rfl
  | append_singleton kvs kv ih =>
    obtain ⟨k, v⟩ := kv
    rw [List.map_append] at h
    have h' := List.nodup_append.mp h
    have hk : k ∉ kvs.map Prod.fst := fun hm => h'.2.2 k hm k (by simp) rfl
    rw [mapOf_snoc, ih h'.1]
    clear ih h h'
    induction kvs with
    | nil => rfl
    | cons x xs ih2 =>
      obtain ⟨k', v'⟩ := x
      simp only [List.map_cons, List.mem_cons, not_or] at hk
      rw [mapInsert, if_neg (fun e => hk.1 e.symm), ih2 hk.2]
      rfl

theorem writes_OPT {cfg : Cfg} {max : Nat} {r : Opt} (h : Writable cfg max (.OPT r)) :
    Writes cfg max (.OPT r) (optionItems r.options ++ [.eof]) := by
  have hb : r.toBytes = Items.octets (optionItems r.options ++ [.eof]) := by
    rw [octets_eof, Opt.toBytes, foldl_options]; simp
  constructor
  · exact ⟨r.options, rfl, (mapOf_of_nodup h.1).symm⟩
  · exact congrArg _ hb
  · intro h names off
    exact congrArg (fun b => Res.ok (b, names)) hb
  · apply fits_eof
    intro it hit
    obtain ⟨s, hs, hm⟩ := List.mem_flatMap.mp hit
    simp only [List.mem_cons, List.not_mem_nil, or_false] at hm
    rcases hm with rfl | rfl
    · trivial
    · exact h.2 s hs
  · apply opens_eof
    intro it hit
    obtain ⟨s, hs, hm⟩ := List.mem_flatMap.mp hit
    simp only [List.mem_cons, List.not_mem_nil, or_false] at hm
    rcases hm with rfl | rfl <;> trivial
  · intro n hn
    simp [optionItems] at hn

theorem foldl_names {max : Nat} (l : List Fqdn) (acc : Bytes) (h : ∀ n ∈ l, NameOk max n) :
    l.foldl (fun buf n => buf ++ Fqdn.toBytes n) acc = acc ++ Items.octets (l.map .name) := by
  induction l generalizing acc with
  | nil => simp [Items.octets]
  | cons x xs ih =>
    rw [List.foldl_cons, ih _ (fun n hn => h n (List.mem_cons_of_mem _ hn)), List.map_cons, octets_cons,
      NameOk.toBytes (h x List.mem_cons_self)]
    simp [Item.octets]

theorem writes_HIP {cfg : Cfg} {max : Nat} {r : Hip} (h : Writable cfg max (.HIP r)) :
    Writes cfg max (.HIP r) ([o8 r.hit.length, o8 (algorithmNumber r.publicKeyAlgorithm),
      o16 r.publicKey.length, .raw r.hit, .raw r.publicKey] ++ (r.rendevousServer.getD []).map .name ++
      [.eof]) := by
  obtain ⟨h1, h2, h3, h4⟩ := h
  have hb : r.toBytes = Items.octets ([o8 r.hit.length, o8 (algorithmNumber r.publicKeyAlgorithm),
      o16 r.publicKey.length, .raw r.hit, .raw r.publicKey] ++ (r.rendevousServer.getD []).map .name ++
      [.eof]) := by
    rw [octets_eof, octets_append_items, Hip.toBytes]
    congr 1
    · simp [Items.octets, Item.octets, o8, o16, lenU8, lenU16, u16be_eq, Algorithm.toU8_eq]
    · cases hr : r.rendevousServer with
      | none => rfl
      | some l =>
        rw [hr] at h4
        exact (foldl_names l [] h4).trans (by simp)
  constructor
  · exact ⟨h1, h2, h3, rfl⟩
  · exact congrArg _ hb
  · intro h names off
    exact congrArg (fun b => Res.ok (b, names)) hb
  · apply fits_eof
    intro it hit
    rcases List.mem_append.mp hit with hm | hm
    · simp only [List.mem_cons, List.not_mem_nil, or_false] at hm
      rcases hm with rfl | rfl | rfl | rfl | rfl <;> trivial
    · obtain ⟨n, hn, rfl⟩ := List.mem_map.mp hm
      exact h4 n hn
  · apply opens_eof
    intro it hit
    rcases List.mem_append.mp hit with hm | hm
    · simp only [List.mem_cons, List.not_mem_nil, or_false] at hm
      rcases hm with rfl | rfl | rfl | rfl | rfl <;> trivial
    · obtain ⟨n, hn, rfl⟩ := List.mem_map.mp hm
      trivial
  · intro n hn
    simpa [o8, o16, rdataNames] using hn

theorem writes_IPSECKEY {cfg : Cfg} {max : Nat} {r : IpSecKey} (h : Writable cfg max (.IPSECKEY r))
    (hg : r.gateway ≠ .none) :
    Writes cfg max (.IPSECKEY r) ([.u8 r.precedence, o8 (gatewayItems r.gateway).1,
      o8 (algorithmNumber r.algorithm)] ++ (gatewayItems r.gateway).2 ++ [.rest r.publicKey]) := by
  obtain ⟨p, a, g, k⟩ := r
  have hf : ∀ it ∈ (gatewayItems g).2, it.Fits max ∧ it.Open ∧ ∀ n, it = .name n →
      n ∈ rdataNames (.IPSECKEY ⟨p, a, g, k⟩) := by
    cases g with
    | none => exact absurd rfl hg
    | ipV4 x => simp [gatewayItems, Item.Fits, Item.Open]
    | ipV6 x =>
      have := x.isLt
      simp only [gatewayItems, List.mem_singleton, forall_eq, Item.Fits, Item.Open]
      norm_num at this ⊢
      exact ⟨this, fun n hn => nomatch hn⟩
    | domain n =>
      simp only [gatewayItems, List.mem_singleton, forall_eq, Item.Fits, Item.Open, rdataNames]
      refine ⟨h, trivial, ?_⟩
      rintro m hm
      exact (Item.name.inj hm).symm
  have hb : IpSecKey.toBytes ⟨p, a, g, k⟩ = Items.octets ([.u8 p, o8 (gatewayItems g).1,
      o8 (algorithmNumber a)] ++ (gatewayItems g).2 ++ [.rest k]) := by
    have : g.toBytes = Items.octets (gatewayItems g).2 := by
      cases g with
      | none => exact absurd rfl hg
      | ipV4 x => simp [Gateway.toBytes, gatewayItems, Items.octets, Item.octets, u32be_eq]
      | ipV6 x => simp [Gateway.toBytes, gatewayItems, Items.octets, Item.octets, toBE_eq_map]
      | domain n =>
        have : n.toBytes = nameOctets n := NameOk.toBytes (h : NameOk max n)
        simp [Gateway.toBytes, gatewayItems, Items.octets, Item.octets, this]
    simp only [IpSecKey.toBytes, octets_append_items, this, gatewayType_eq, Algorithm.toU8_eq]
    simp [Items.octets, Item.octets, o8]
  constructor
  · rfl
  · exact congrArg _ hb
  · intro h names off
    exact congrArg (fun b => Res.ok (b, names)) hb
  · intro it hit
    simp only [List.mem_append, List.mem_cons, List.not_mem_nil, or_false] at hit
    rcases hit with ((rfl | rfl | rfl) | hm) | rfl
    · trivial
    · trivial
    · trivial
    · exact (hf it hm).1
    · trivial
  · rw [List.dropLast_concat]
    intro it hit
    simp only [List.mem_append, List.mem_cons, List.not_mem_nil, or_false] at hit
    rcases hit with (rfl | rfl | rfl) | hm
    · trivial
    · trivial
    · trivial
    · exact (hf it hm).2.1
  · intro n hn
    simp only [List.mem_append, List.mem_cons, List.not_mem_nil, or_false, o8, reduceCtorEq, false_or] at hn
    exact (hf _ hn).2.2 n rfl

theorem windowItems_open (ws : List (UInt8 × Bytes)) : ∀ it ∈ windowItems ws, it.Open := by
  intro it hit
  obtain ⟨s, hs, hm⟩ := List.mem_flatMap.mp hit
  simp only [List.mem_cons, List.not_mem_nil, or_false] at hm
  rcases hm with rfl | rfl <;> trivial

theorem windowItems_fits {max : Nat} {ws : List (UInt8 × Bytes)} (h : ∀ w ∈ ws, w.2.length ≤ 32) :
    ∀ it ∈ windowItems ws, it.Fits max := by
  intro it hit
  obtain ⟨s, hs, hm⟩ := List.mem_flatMap.mp hit
  simp only [List.mem_cons, List.not_mem_nil, or_false] at hm
  rcases hm with rfl | rfl
  · trivial
  · have := h s hs
    show s.2.length < 256
    omega

theorem windowItems_noname (ws : List (UInt8 × Bytes)) : ∀ n, .name n ∉ windowItems ws := by
  intro n hn
  simp [windowItems] at hn

/-- Windows as RFC 4034 has them, except that the last octets may be zero. -/
def WindowsOk (ws : List (UInt8 × Bytes)) : Prop :=
  ws.Pairwise (fun a b => a.1.toNat < b.1.toNat) ∧ ∀ w ∈ ws, 1 ≤ w.2.length ∧ w.2.length ≤ 32

theorem writes_NSEC {cfg : Cfg} {max : Nat} {r : Nsec} (h : Writable cfg max (.NSEC r)) :
    ∃ ws, WindowsOk ws ∧ ((∃ t ∈ r.types, typeNumber t < 256) → ∀ w ∈ ws, Tight w) ∧ TypesOf cfg ws r.types ∧
    Writes cfg max (.NSEC r) (.name r.nextDomainName :: windowItems ws ++ [.eof]) := by
  obtain ⟨h1, h2, h3⟩ := h
  obtain ⟨ws, w1, w2, w3, w4, w5, w6⟩ := Bitmap.toBytes_ok cfg h2
  refine ⟨ws, ⟨w4, w5⟩, w6, typesOf_written h2 h3 w3, ?_⟩
  constructor
  · exact ⟨ws, rfl, typesOf_written h2 h3 w3⟩
  · simp only [RecordData.toBytes, Nsec.toBytes, Nsec.byteSize, w1, w2]
    rw [octets_eof, octets_cons, Item.octets, ← NameOk.toBytes h1]
    rfl
  · intro h names off
    simp only [RecordData.toBytesCompressed, Nsec.toBytesCompressed, w1, compresses, if_true]
    rw [List.cons_append, Items.compress]
    simp only [Item.compress]
    rw [items_compress_noname _ _ _ _ (by
      intro n hn
      rcases List.mem_append.mp hn with hn | hn
      · exact windowItems_noname ws n hn
      · simp at hn), octets_eof]
    rfl
  · rw [List.cons_append]
    rw [List.forall_mem_cons]
    exact ⟨h1, fits_eof (windowItems_fits (fun w hw => (w5 w hw).2))⟩
  · apply opens_eof
    rw [List.forall_mem_cons]
    exact ⟨trivial, windowItems_open ws⟩
  · intro n hn
    simp only [List.cons_append, List.mem_cons, Item.name.injEq, List.mem_append, reduceCtorEq, or_false,
      List.not_mem_nil, windowItems_noname ws n] at hn
    simpa [rdataNames] using hn

theorem writes_CSYNC {cfg : Cfg} {max : Nat} {r : Csync} (h : Writable cfg max (.CSYNC r)) :
    ∃ ws, WindowsOk ws ∧ ((∃ t ∈ r.types, typeNumber t < 256) → ∀ w ∈ ws, Tight w) ∧ TypesOf cfg ws r.types ∧
    Writes cfg max (.CSYNC r) ([.u32 r.soaSerial, .u16 r.flags.bits] ++ windowItems ws ++ [.eof]) := by
  obtain ⟨h1, h2, h3⟩ := h
  obtain ⟨ws, w1, w2, w3, w4, w5, w6⟩ := Bitmap.toBytes_ok cfg h2
  have hb : r.toBytes cfg =
      .ok (Items.octets ([.u32 r.soaSerial, .u16 r.flags.bits] ++ windowItems ws ++ [.eof])) := by
    simp only [Csync.toBytes, w1]
    rw [octets_eof, octets_append_items]
    simp [Items.octets, Item.octets, u16be_eq, u32be_eq, bind, Res.bind, pure]
  refine ⟨ws, ⟨w4, w5⟩, w6, typesOf_written h2 h3 w3, ?_⟩
  constructor
  · exact ⟨ws, rfl, h1, typesOf_written h2 h3 w3⟩
  · exact hb
  · intro h names off
    simp only [RecordData.toBytesCompressed, hb]
    rfl
  · apply fits_eof
    intro it hit
    rcases List.mem_append.mp hit with hm | hm
    · simp only [List.mem_cons, List.not_mem_nil, or_false] at hm
      rcases hm with rfl | rfl <;> trivial
    · exact windowItems_fits (fun w hw => (w5 w hw).2) it hm
  · apply opens_eof
    intro it hit
    rcases List.mem_append.mp hit with hm | hm
    · simp only [List.mem_cons, List.not_mem_nil, or_false] at hm
      rcases hm with rfl | rfl <;> trivial
    · exact windowItems_open ws it hm
  · intro n hn
    simp [windowItems_noname ws n] at hn

theorem writes_APL (cfg : Cfg) (max : Nat) (r : Apl) :
    Writes cfg max (.APL r) [o16 (familyNumber r.afd), .u8 r.prefix,
      o8 ((if r.n then 128 else 0) + r.afd.toBytes.length), .raw r.afd.toBytes] := by
  obtain ⟨p, n, afd⟩ := r
  have hl : afd.toBytes.length = afd.byteSize := by
    cases afd <;> simp [Afd.toBytes, Afd.byteSize, u32be, toBE]
  have hb : Apl.toBytes ⟨p, n, afd⟩ = Items.octets [o16 (familyNumber afd), .u8 p,
      o8 ((if n then 128 else 0) + afd.toBytes.length), .raw afd.toBytes] := by
    have h1 : ((if n then 1 else 0 : UInt8) <<< 7) ||| lenU8 afd.byteSize =
        UInt8.ofNat ((if n then 128 else 0) + afd.toBytes.length) := by
      have key : ∀ n : Bool, ∀ m : Fin 32, ((if n then 1 else 0 : UInt8) <<< 7) ||| lenU8 m.val =
          UInt8.ofNat ((if n then 128 else 0) + m.val) := by decide
      rw [hl]
      cases afd with
      | ipV4 a => exact key n 4
      | ipV6 a => exact key n 16
    have h2 : afd.family = UInt16.ofNat (familyNumber afd) := by cases afd <;> rfl
    simp only [Apl.toBytes, h1, h2]
    simp [Items.octets, Item.octets, o16, o8, u16be_eq]
  constructor
  · refine ⟨_, rfl, ?_⟩
    cases afd with
    | ipV4 a =>
      refine ⟨by simp [hl, Afd.byteSize], ?_⟩
      simp only [hl, Afd.byteSize, Nat.sub_self, List.replicate_zero, List.append_nil, Afd.toBytes, u32be]
      exact toBE_value 4 _ (by have := a.toNat_lt; norm_num; omega)
    | ipV6 a =>
      refine ⟨by simp [hl, Afd.byteSize], ?_⟩
      simp only [hl, Afd.byteSize, Nat.sub_self, List.replicate_zero, List.append_nil, Afd.toBytes]
      exact toBE_value 16 _ (by have := a.isLt; norm_num at this ⊢; omega)
  · exact congrArg _ hb
  · intro h names off
    exact congrArg (fun b => Res.ok (b, names)) hb
  · simp [Item.Fits, o8, o16]
  · simp [Item.Open, o8, o16]
  · simp [o8, o16]

theorem foldl_keys (l : List ParamKey) (acc : Bytes) :
    l.foldl (fun buf k => buf ++ u16be k.toU16) acc
      = acc ++ Items.octets (l.map (fun k => o16 (paramKeyNumber k))) := by
  induction l generalizing acc with
  | nil => simp [Items.octets]
  | cons x xs ih =>
    rw [List.foldl_cons, ih, List.map_cons, octets_cons]
    simp [Item.octets, o16, u16be_eq, ParamKey.toU16_eq]

theorem Param.valueBytes_eq (p : Param) : p.valueBytes = Items.octets (paramValue p) := by
  cases p with
  | mandatory keys => exact (foldl_keys keys []).trans (by simp [paramValue])
  | alpn ids => exact (foldl_strings ids []).trans (by simp [paramValue])
  | ipV6Hint a => simp [Param.valueBytes, paramValue, Items.octets, Item.octets, toBE_eq_map]
  | _ => simp [Param.valueBytes, paramValue, Items.octets, Item.octets, u16be_eq, u32be_eq]

theorem Param.byteSize_eq (p : Param) : p.byteSize = 4 + (Items.octets (paramValue p)).length := by
  unfold Param.byteSize
  congr 1
  cases p with
  | mandatory keys =>
    simp only [paramValue]
    induction keys with
    | nil => rfl
    | cons k ks ih =>
      rw [List.map_cons, octets_cons, List.length_append, ← ih]
      simp [Item.octets, o16, octets16]; omega
  | alpn ids =>
    simp only [paramValue]
    have : ∀ (l : List Bytes) (a : Nat), l.foldl (fun acc a => acc + a.length + 1) a =
        a + (Items.octets (l.map .str)).length := by
      intro l
      induction l with
      | nil => intro a; simp [Items.octets]
      | cons x xs ih =>
        intro a
        rw [List.foldl_cons, ih, List.map_cons, octets_cons, List.length_append]
        simp [Item.octets]; omega
    rw [this]; simp
  | ipV6Hint a => simp [paramValue, Items.octets, Item.octets]
  | _ => simp [paramValue, Items.octets, Item.octets, octets16, octets32]

theorem subU16_ok (cfg : Cfg) {a b : Nat} (hb : b ≤ a) : subU16 cfg a b = .ok (a - b) := if_pos hb

theorem Param.toBytes_ok (cfg : Cfg) {p : Param} (h : ParamFits p) :
    p.toBytes cfg = .ok (Items.octets (paramItems p)) := by
  have h2 := h.2
  have hs := p.byteSize_eq
  simp only [Param.toBytes, hs]
  rw [Nat.mod_eq_of_lt (by omega), subU16_ok cfg (by omega), Param.valueBytes_eq,
    Nat.add_sub_cancel_left]
  simp [paramItems, Items.octets, Item.octets, o16, u16be_eq, ParamKey.toU16_eq, bind, Res.bind, pure]

theorem Svcb.paramBytes_ok (cfg : Cfg) {ps : List Param} (h : ∀ p ∈ ps, ParamFits p) :
    Svcb.paramBytes cfg ps = .ok (Items.octets (ps.flatMap paramItems)) := by
  induction ps with
  | nil => rfl
  | cons p ps ih =>
    rw [Svcb.paramBytes, Param.toBytes_ok cfg (h p List.mem_cons_self),
      ih (fun q hq => h q (List.mem_cons_of_mem _ hq)), List.flatMap_cons, octets_append_items]
    rfl

theorem writes_SVCB {cfg : Cfg} {max : Nat} {r : Svcb} (h : Writable cfg max (.SVCB r)) :
    Writes cfg max (.SVCB r)
      ([.u16 r.priority, .name r.targetName] ++ r.params.flatMap paramItems ++ [.eof]) := by
  obtain ⟨h1, h2, h3⟩ := h
  have hb : r.toBytes cfg = .ok (Items.octets
      ([.u16 r.priority, .name r.targetName] ++ r.params.flatMap paramItems ++ [.eof])) := by
    simp only [Svcb.toBytes, Svcb.paramBytes_ok cfg h3]
    rw [octets_eof, octets_append_items]
    simp [Items.octets, Item.octets, u16be_eq, NameOk.toBytes h1, bind, Res.bind, pure]
  have hp : ∀ it ∈ r.params.flatMap paramItems, it.Fits max ∧ it.Open ∧ ∀ n, it ≠ .name n := by
    intro it hit
    obtain ⟨p, hp, hm⟩ := List.mem_flatMap.mp hit
    simp only [paramItems, List.mem_cons, List.not_mem_nil, or_false] at hm
    have := (h3 p hp).2
    rcases hm with rfl | rfl
    · exact ⟨trivial, trivial, fun n hn => nomatch hn⟩
    · refine ⟨?_, trivial, fun n hn => nomatch hn⟩
      show _ < 65536
      omega
  constructor
  · exact ⟨rfl, h2, fun p hp => (h3 p hp).1⟩
  · exact hb
  · intro h names off
    simp only [RecordData.toBytesCompressed, hb]
    rfl
  · apply fits_eof
    intro it hit
    rcases List.mem_append.mp hit with hm | hm
    · simp only [List.mem_cons, List.not_mem_nil, or_false] at hm
      rcases hm with rfl | rfl
      · trivial
      · exact h1
    · exact (hp it hm).1
  · apply opens_eof
    intro it hit
    rcases List.mem_append.mp hit with hm | hm
    · simp only [List.mem_cons, List.not_mem_nil, or_false] at hm
      rcases hm with rfl | rfl <;> trivial
    · exact (hp it hm).2.1
  · intro n hn
    rcases List.mem_append.mp hn with hn | hn
    · rcases List.mem_append.mp hn with hn | hn
      · simpa [rdataNames] using hn
      · exact absurd rfl ((hp _ hn).2.2 n)
    · simp at hn

/-- Every writable value is written in a format of `Spec/RData.lean`, except an IPSECKEY without
gateway. -/
theorem RecordData.write_ok {cfg : Cfg} {max : Nat} {r : RecordData} (h : Writable cfg max r)
    (hg : ∀ k, r = .IPSECKEY k → k.gateway ≠ .none) : ∃ its, Writes cfg max r its := by
  cases r with
  | A r => exact ⟨_, writes_A _ _ _⟩
  | NS r => exact ⟨_, writes_NS h⟩
  | CNAME r => exact ⟨_, writes_CNAME h⟩
  | SOA r => exact ⟨_, writes_SOA h⟩
  | NULL r => exact ⟨_, writes_NULL _ _ _⟩
  | WKS r => exact ⟨_, writes_WKS _ _ _⟩
  | PTR r => exact ⟨_, writes_PTR h⟩
  | HINFO r => exact ⟨_, writes_HINFO h⟩
  | MINFO r => exact ⟨_, writes_MINFO h⟩
  | MX r => exact ⟨_, writes_MX h⟩
  | TXT r => exact ⟨_, writes_TXT h⟩
  | AAAA r => exact ⟨_, writes_AAAA _ _ _⟩
  | LOC r => exact ⟨_, writes_LOC _ _ _⟩
  | SRV r => exact ⟨_, writes_SRV h⟩
  | NAPTR r => exact ⟨_, writes_NAPTR h⟩
  | OPT r => exact ⟨_, writes_OPT h⟩
  | APL r => exact ⟨_, writes_APL _ _ _⟩
  | DS r => exact ⟨_, writes_DS _ _ _⟩
  | SSHFP r => exact ⟨_, writes_SSHFP _ _ _⟩
  | IPSECKEY r => exact ⟨_, writes_IPSECKEY h (hg r rfl)⟩
  | RRSIG r => exact ⟨_, writes_RRSIG h⟩
  | NSEC r => obtain ⟨ws, _, _, _, hw⟩ := writes_NSEC h; exact ⟨_, hw⟩
  | DNSKEY r => exact ⟨_, writes_DNSKEY _ _ _⟩
  | DHCID r => exact ⟨_, writes_DHCID _ _ _⟩
  | TLSA r => exact ⟨_, writes_TLSA _ _ _⟩
  | HIP r => exact ⟨_, writes_HIP h⟩
  | CDS r => exact ⟨_, writes_CDS _ _ _⟩
  | CDNSKEY r => exact ⟨_, writes_CDNSKEY _ _ _⟩
  | OPENPGPKEY r => exact ⟨_, writes_OPENPGPKEY _ _ _⟩
  | CSYNC r => obtain ⟨ws, _, _, _, hw⟩ := writes_CSYNC h; exact ⟨_, hw⟩
  | SVCB r => exact ⟨_, writes_SVCB h⟩
  | EUI48 r => exact ⟨_, writes_EUI48 _ _ _⟩
  | EUI64 r => exact ⟨_, writes_EUI64 _ _ _⟩
  | TKEY r => exact ⟨_, writes_TKEY h⟩
  | TSIG r => exact ⟨_, writes_TSIG h⟩
  | URI r => exact ⟨_, writes_URI _ _ _⟩
  | CAA r => exact ⟨_, writes_CAA h⟩

end Dns
