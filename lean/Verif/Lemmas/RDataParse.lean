import Mathlib.Tactic.IntervalCases
import Verif.Lemmas.Names
import Verif.Lemmas.Loops
import Verif.Spec.RData

/-! The RDATA parsers against the formats of `Spec/RData.lean`. -/

set_option linter.unusedSimpArgs false

namespace Dns
open Spec Buf

/-- Names as the crate decodes them. -/
def Decodes : NameRel := fun d i n j => extractFqdn d i = (.ok n, j)

theorem forall_u8 {P : UInt8 → Prop} (h : ∀ n : Fin 256, P (UInt8.ofNat n.val)) (b : UInt8) :
    P b := by
  have := h ⟨b.toNat, b.toNat_lt⟩
  simpa using this

/-! ## Enumerations -/

theorem Algorithm.ofU8_ok {a : UInt8} {x : Algorithm} :
    Algorithm.ofU8 a = .ok x ↔ a = UInt8.ofNat (algorithmNumber x) := by
  revert a; apply forall_u8; cases x <;> decide +kernel

theorem FingerprintType.ofU8_ok {a : UInt8} {x : FingerprintType} :
    FingerprintType.ofU8 a = .ok x ↔ a = UInt8.ofNat (fingerprintNumber x) := by
  revert a; apply forall_u8; cases x <;> decide +kernel

theorem CertUsage.ofU8_ok {a : UInt8} {x : CertUsage} :
    CertUsage.ofU8 a = .ok x ↔ a = UInt8.ofNat (certUsageNumber x) := by
  revert a; apply forall_u8; cases x <;> decide +kernel

theorem Selector.ofU8_ok {a : UInt8} {x : Selector} :
    Selector.ofU8 a = .ok x ↔ a = UInt8.ofNat (selectorNumber x) := by
  revert a; apply forall_u8; cases x <;> decide +kernel

theorem MatchingType.ofU8_ok {a : UInt8} {x : MatchingType} :
    MatchingType.ofU8 a = .ok x ↔ a = UInt8.ofNat (matchingNumber x) := by
  revert a; apply forall_u8; cases x <;> decide +kernel

theorem SecAlgorithm.ofU8_ok {a : UInt8} {x : SecAlgorithm} :
    SecAlgorithm.ofU8 a = .ok x ↔ a = UInt8.ofNat (secAlgorithmNumber x) := by
  revert a; apply forall_u8; cases x <;> decide +kernel

theorem DigestType.ofU8_ok {a : UInt8} {x : DigestType} :
    DigestType.ofU8 a = .ok x ↔ a = UInt8.ofNat (digestNumber x) := by
  revert a; apply forall_u8; cases x <;> decide +kernel

theorem NaptrFlag.ofU8_ok {a : UInt8} {x : NaptrFlag} :
    NaptrFlag.ofU8 a = .ok x ↔ flagOf a = some x := by
  revert a; apply forall_u8; cases x <;> decide +kernel

theorem IdentifierType.ofU16_ok {a : UInt16} {x : IdentifierType} :
    IdentifierType.ofU16 a = .ok x ↔ a = UInt16.ofNat (identifierNumber x) := by
  unfold IdentifierType.ofU16
  split <;> cases x <;> simp_all [identifierNumber]

theorem TsigError.ofU16_ok {a : UInt16} {x : TsigError} :
    TsigError.ofU16 a = .ok x ↔ a = UInt16.ofNat (tsigErrorNumber x) := by
  unfold TsigError.ofU16
  split <;> cases x <;> simp_all [tsigErrorNumber]

theorem TkeyMode.ofU16_ok {a : UInt16} {x : TkeyMode} :
    TkeyMode.ofU16 a = .ok x ↔ modeOk x ∧ a = UInt16.ofNat (tkeyModeNumber x) := by
  constructor
  · intro h
    unfold TkeyMode.ofU16 at h
    split at h
    all_goals try (cases h; exact ⟨trivial, rfl⟩)
    split at h
    · rename_i hh
      cases h
      simp only [UInt16.le_iff_toNat_le, UInt16.reduceToNat] at hh
      exact ⟨hh, by simp [tkeyModeNumber]⟩
    · cases h
  · rintro ⟨h1, rfl⟩
    cases x with
    | available n =>
      simp only [modeOk] at h1
      simp only [tkeyModeNumber, UInt16.ofNat_toNat]
      unfold TkeyMode.ofU16
      split
      all_goals try (simp at h1)
      rw [if_pos (by simp only [UInt16.le_iff_toNat_le, UInt16.reduceToNat]; exact h1)]
    | _ => rfl

theorem TkeyError.ofU16_ok {a : UInt16} {x : TkeyError} :
    TkeyError.ofU16 a = .ok x ↔ errorOk x ∧ a = UInt16.ofNat (tkeyErrorNumber x) := by
  constructor
  · intro h
    unfold TkeyError.ofU16 at h
    split at h
    all_goals try (cases h; exact ⟨trivial, rfl⟩)
    split at h
    · rename_i hh
      cases h
      simp only [UInt16.le_iff_toNat_le, UInt16.reduceToNat] at hh
      exact ⟨hh, by simp [tkeyErrorNumber]⟩
    · cases h
  · rintro ⟨h1, rfl⟩
    cases x with
    | nonExtendedRcode n =>
      simp only [errorOk] at h1
      simp only [tkeyErrorNumber, UInt16.ofNat_toNat]
      unfold TkeyError.ofU16
      split
      all_goals try (simp at h1)
      rw [if_pos (by simp only [UInt16.le_iff_toNat_le, UInt16.reduceToNat]; exact h1)]
    | _ => rfl

theorem RecordType.ofU16_ok {cfg : Cfg} {a : UInt16} {x : RecordType} :
    RecordType.ofU16 cfg a = .ok x ↔ Readable cfg x ∧ a = UInt16.ofNat (typeNumber x) := by
  constructor
  · intro h
    unfold RecordType.ofU16 at h
    split at h
    all_goals first
      | (cases h; exact ⟨⟨by decide, by decide, fun h => absurd h (by decide)⟩, rfl⟩)
      | (split at h
         · cases h; exact ⟨⟨by decide, by decide, fun _ => by assumption⟩, rfl⟩
         · cases h)
      | cases h
  · rintro ⟨⟨h1, h2, h3⟩, rfl⟩
    cases x <;> first
      | rfl
      | exact absurd rfl h1
      | exact absurd rfl h2
      | (simp only [RecordType.ofU16, typeNumber]; simp [h3 (by decide)])

theorem CsyncFlags.ofU16_ok {a : UInt16} {x : CsyncFlags} :
    CsyncFlags.ofU16 a = .ok x ↔ x.bits.toNat < 4 ∧ a = x.bits := by
  have key : ∀ v : UInt16, v &&& 0xFFFC = 0 ↔ v.toNat < 4 := by
    intro v
    have h0 : (v &&& 0xFFFC = 0) ↔ v.toNat &&& 65532 = 0 := by
      rw [← UInt16.toNat_inj]; simp
    rw [h0]
    constructor
    · intro h
      have : v.toNat = v.toNat % 2 ^ 2 := by
        apply Nat.eq_of_testBit_eq
        intro i
        rw [Nat.testBit_mod_two_pow]
        by_cases h2 : i < 2
        · simp [h2]
        · simp only [h2, decide_false, Bool.false_and]
          by_cases h3 : i < 16
          · have h4 := congrArg (fun n => n.testBit i) h
            simp only [Nat.testBit_and, Nat.zero_testBit] at h4
            have h5 : Nat.testBit 65532 i = true := by
              have : 2 ≤ i := by omega
              interval_cases i <;> rfl
            simpa [h5] using h4
          · exact Nat.testBit_lt_two_pow (lt_of_lt_of_le v.toNat_lt
              (Nat.pow_le_pow_right (by norm_num) (by omega)))
      omega
    · intro h
      interval_cases v.toNat <;> rfl
  unfold CsyncFlags.ofU16
  split
  · rename_i h
    simp only [reduceCtorEq, false_iff]
    rintro ⟨h1, rfl⟩
    exact h ((key _).mpr h1)
  · rename_i h
    simp only [ne_eq, Decidable.not_not] at h
    obtain ⟨b⟩ := x
    simp only [Res.ok.injEq, CsyncFlags.mk.injEq]
    constructor
    · rintro rfl; exact ⟨(key _).mp h, rfl⟩
    · rintro ⟨_, h⟩; exact h

/-! ## Types whose format is a fixed list of items -/

theorem Parser.map_ok {α β : Type} {f : α → β} {p : Parser α} {d : Bytes} {i j : Nat} {b : β} :
    (f <$> p) d i = (.ok b, j) ↔ ∃ a, p d i = (.ok a, j) ∧ f a = b := by
  rw [← bind_pure_comp, Parser.bind_ok]
  simp [Parser.pure_ok]

/-- `extract_u16` and `extract_bytes` of that many octets. -/
def extractStr16 : Parser Bytes := do
  let n ← extractU16
  extractBytes n.toNat

theorem extractStr16_ok' {d : Bytes} {i j : Nat} {b : Bytes} :
    extractStr16 d i = (.ok b, j) ↔
      b.length < 65536 ∧ Octets d i (octets16 (UInt16.ofNat b.length) ++ b) j := by
  rw [extractStr16, Parser.bind_ok, extractStr16_ok]

/-- Unfold a straight-line parser and a list of items. -/
macro "straight" p:ident : tactic => `(tactic|
  simp [$p:ident, Parser.bind_ok, Parser.pure_ok, Parser.map_ok, Parser.lift_ok, Items.At, Item.At,
    Decodes, extractU8_ok, extractU16_ok, extractU32_ok, extractRest_ok, extractCharacterString_ok,
    Algorithm.ofU8_ok, FingerprintType.ofU8_ok, CertUsage.ofU8_ok, Selector.ofU8_ok,
    MatchingType.ofU8_ok, SecAlgorithm.ofU8_ok, DigestType.ofU8_ok, TkeyMode.ofU16_ok,
    TkeyError.ofU16_ok, TsigError.ofU16_ok, RecordType.ofU16_ok, extractStr16_ok', dsItems, o8, o16])

theorem A.parse_ok {d : Bytes} {i j : Nat} {r : A} :
    A.parse d i = (.ok r, j) ↔ Items.At Decodes d i [.u32 r.addr] j := by
  obtain ⟨⟩ := r
  straight A.parse

theorem Ns.parse_ok {d : Bytes} {i j : Nat} {r : Ns} :
    Ns.parse d i = (.ok r, j) ↔ Items.At Decodes d i [.name r.nsdname] j := by
  obtain ⟨⟩ := r
  straight Ns.parse

theorem Cname.parse_ok {d : Bytes} {i j : Nat} {r : Cname} :
    Cname.parse d i = (.ok r, j) ↔ Items.At Decodes d i [.name r.cname] j := by
  obtain ⟨⟩ := r
  straight Cname.parse

theorem Ptr.parse_ok {d : Bytes} {i j : Nat} {r : Ptr} :
    Ptr.parse d i = (.ok r, j) ↔ Items.At Decodes d i [.name r.ptrdname] j := by
  obtain ⟨⟩ := r
  straight Ptr.parse

theorem Mx.parse_ok {d : Bytes} {i j : Nat} {r : Mx} :
    Mx.parse d i = (.ok r, j) ↔ Items.At Decodes d i [.u16 r.preference, .name r.exchange] j := by
  obtain ⟨⟩ := r
  straight Mx.parse

theorem Soa.parse_ok {d : Bytes} {i j : Nat} {r : Soa} :
    Soa.parse d i = (.ok r, j) ↔ Items.At Decodes d i [.name r.mname, .name r.rname, .u32 r.serial, .u32 r.refresh,
      .u32 r.retry, .u32 r.expire, .u32 r.minimum] j := by
  obtain ⟨⟩ := r
  straight Soa.parse

theorem Minfo.parse_ok {d : Bytes} {i j : Nat} {r : Minfo} :
    Minfo.parse d i = (.ok r, j) ↔ Items.At Decodes d i [.name r.rmailbx, .name r.emailbx] j := by
  obtain ⟨⟩ := r
  straight Minfo.parse

theorem Hinfo.parse_ok {d : Bytes} {i j : Nat} {r : Hinfo} :
    Hinfo.parse d i = (.ok r, j) ↔ Items.At Decodes d i [.str r.cpu, .str r.os] j := by
  obtain ⟨⟩ := r
  straight Hinfo.parse

theorem Wks.parse_ok {d : Bytes} {i j : Nat} {r : Wks} :
    Wks.parse d i = (.ok r, j) ↔ Items.At Decodes d i [.u32 r.address, .u8 r.protocol, .rest r.bitmap] j := by
  obtain ⟨⟩ := r
  straight Wks.parse

theorem Null.parse_ok {d : Bytes} {i j : Nat} {r : Null} :
    Null.parse d i = (.ok r, j) ↔ Items.At Decodes d i [.rest r.anything] j := by
  obtain ⟨⟩ := r
  straight Null.parse

theorem OpenPgpKey.parse_ok {d : Bytes} {i j : Nat} {r : OpenPgpKey} :
    OpenPgpKey.parse d i = (.ok r, j) ↔ Items.At Decodes d i [.rest r.key] j := by
  obtain ⟨⟩ := r
  straight OpenPgpKey.parse

theorem Uri.parse_ok {d : Bytes} {i j : Nat} {r : Uri} :
    Uri.parse d i = (.ok r, j) ↔ Items.At Decodes d i [.u16 r.priority, .u16 r.weight, .rest r.target] j := by
  obtain ⟨⟩ := r
  straight Uri.parse

theorem Loc.parse_ok {d : Bytes} {i j : Nat} {r : Loc} :
    Loc.parse d i = (.ok r, j) ↔ Items.At Decodes d i [.u8 r.version, .u8 r.size, .u8 r.horizPre, .u8 r.vertPre,
      .u32 r.latitude, .u32 r.longitude, .u32 r.altitude] j := by
  obtain ⟨⟩ := r
  straight Loc.parse

theorem Srv.parse_ok {d : Bytes} {i j : Nat} {r : Srv} :
    Srv.parse d i = (.ok r, j) ↔ Items.At Decodes d i [.u16 r.priority, .u16 r.weight, .u16 r.port, .name r.target] j := by
  obtain ⟨⟩ := r
  straight Srv.parse

theorem Tlsa.parse_ok {d : Bytes} {i j : Nat} {r : Tlsa} :
    Tlsa.parse d i = (.ok r, j) ↔ Items.At Decodes d i [o8 (certUsageNumber r.certUsage),
      o8 (selectorNumber r.selector), o8 (matchingNumber r.matchingType), .rest r.associatedData] j := by
  obtain ⟨⟩ := r
  straight Tlsa.parse

theorem Ds.parse_ok {d : Bytes} {i j : Nat} {r : Ds} :
    Ds.parse d i = (.ok r, j) ↔ Items.At Decodes d i (dsItems r) j := by
  obtain ⟨⟩ := r
  straight Ds.parse

theorem Rrsig.parse_ok {cfg : Cfg} {d : Bytes} {i j : Nat} {r : Rrsig} :
    Rrsig.parse cfg d i = (.ok r, j) ↔ Readable cfg r.typeCovered ∧ Items.At Decodes d i
      [o16 (typeNumber r.typeCovered), o8 (secAlgorithmNumber r.algorithm), .u8 r.labels,
        .u32 r.originalTtl, .u32 r.sigExpiration, .u32 r.sigInception, .u16 r.keyTag,
        .name r.signersName, .rest r.signature] j := by
  obtain ⟨⟩ := r
  straight Rrsig.parse
  rename_i t _ _ _ _ _ _ _ _
  by_cases h : Readable cfg t <;> simp [h]

theorem Tkey.parse_ok {d : Bytes} {i j : Nat} {r : Tkey} :
    Tkey.parse d i = (.ok r, j) ↔ modeOk r.mode ∧ errorOk r.error ∧ Items.At Decodes d i
      [.name r.algorithm, .u32 r.inception, .u32 r.expiration, o16 (tkeyModeNumber r.mode),
        o16 (tkeyErrorNumber r.error), .str16 r.keyData, .str16 r.otherData] j := by
  have h : Tkey.parse = (do
      let n ← extractFqdn
      let i ← extractU32
      let e ← extractU32
      let m ← extractU16
      let m ← Parser.lift (TkeyMode.ofU16 m)
      let er ← extractU16
      let er ← Parser.lift (TkeyError.ofU16 er)
      let k ← extractStr16
      let o ← extractStr16
      return ⟨n, i, e, m, er, k, o⟩) := by
    simp [Tkey.parse, extractStr16]
  obtain ⟨⟩ := r
  straight h
  rename_i m e _ _
  by_cases h1 : modeOk m <;> by_cases h2 : errorOk e <;> simp [h1, h2]

/-- The six octets of the time in a TSIG record. -/
def extractTime : Parser UInt64 := do
  let t ← extractBytes 6
  return UInt64.ofNat (ofBE (0 :: 0 :: t))

theorem extractTime_ok {d : Bytes} {i j : Nat} {t : UInt64} :
    extractTime d i = (.ok t, j) ↔ ∃ b, Octets d i b j ∧ b.length = 6 ∧ valueOf b = t.toNat := by
  have h0 : ∀ b : Bytes, ofBE (0 :: 0 :: b) = ofBE b := by intro b; simp [ofBE]
  simp only [extractTime, Parser.bind_ok, Parser.pure_ok, extractBytes_ok, h0, valueOf_eq]
  constructor
  · rintro ⟨b, _, ⟨h1, h2⟩, rfl, rfl⟩
    refine ⟨b, h2, h1, ?_⟩
    have := ofBE_lt b
    rw [h1] at this
    rw [UInt64.toNat_ofNat_of_lt']
    simp only [UInt64.size]; omega
  · rintro ⟨b, h1, h2, h3⟩; exact ⟨b, j, ⟨h2, h1⟩, by rw [h3]; simp, rfl⟩

theorem Tsig.parse_ok {d : Bytes} {i j : Nat} {r : Tsig} :
    Tsig.parse d i = (.ok r, j) ↔ Items.At Decodes d i
      [.name r.algorithm, .num 6 r.timeSigned.toNat, .u16 r.fudge, .str16 r.mac,
      .u16 r.originalId, o16 (tsigErrorNumber r.error), .str16 r.otherData] j := by
  have h : Tsig.parse = (do
      let n ← extractFqdn
      let t ← extractTime
      let f ← extractU16
      let m ← extractStr16
      let id ← extractU16
      let e ← extractU16
      let e ← Parser.lift (TsigError.ofU16 e)
      let o ← extractStr16
      return ⟨n, t, f, m, id, e, o⟩) := by
    simp [Tsig.parse, extractStr16, extractTime]
  obtain ⟨⟩ := r
  straight h
  simp only [extractTime_ok]

theorem Eui48.parse_ok {d : Bytes} {i j : Nat} {r : Eui48} :
    Eui48.parse d i = (.ok r, j) ↔ Items.At Decodes d i [.num 6 r.addr.toNat] j := by
  obtain ⟨a⟩ := r
  have := extractNum_ok (k := 6) (w := 48) (by norm_num) (d := d) (i := i) (j := j) (v := a) (N := Decodes)
  simp only [Items.At, exists_eq_right, ← this]
  straight Eui48.parse

theorem Eui64.parse_ok {d : Bytes} {i j : Nat} {r : Eui64} :
    Eui64.parse d i = (.ok r, j) ↔ Items.At Decodes d i [.num 8 r.addr.toNat] j := by
  obtain ⟨a⟩ := r
  have := extractNum_ok (k := 8) (w := 64) (by norm_num) (d := d) (i := i) (j := j) (v := a) (N := Decodes)
  simp only [Items.At, exists_eq_right, ← this]
  straight Eui64.parse

theorem Aaaa.parse_ok {d : Bytes} {i j : Nat} {r : Aaaa} :
    Aaaa.parse d i = (.ok r, j) ↔ Items.At Decodes d i [.num 16 r.addr.toNat] j := by
  obtain ⟨a⟩ := r
  simp only [Items.At, exists_eq_right, ← extractU128_ok]
  straight Aaaa.parse

theorem Dhcid.parse_ok {d : Bytes} {i j : Nat} {r : Dhcid} :
    Dhcid.parse d i = (.ok r, j) ↔ Items.At Decodes d i
      [o16 (identifierNumber r.identifierCode), .u8 1, .rest r.digest] j := by
  obtain ⟨c, b⟩ := r
  simp only [Dhcid.parse, Parser.bind_ok, Parser.lift_ok, extractU16_ok, extractU8_ok, Items.At,
    Item.At, o16, IdentifierType.ofU16_ok]
  constructor
  · rintro ⟨a, k, h1, c', m, ⟨rfl, rfl⟩, t, n, h2, h3⟩
    split at h3
    · rw [Parser.fail_ok] at h3; exact h3.elim
    · rename_i ht
      obtain rfl : t = 1 := by simpa using ht
      simp only [Parser.bind_ok, Parser.pure_ok, extractRest_ok, Dhcid.mk.injEq] at h3
      obtain ⟨x, y, h4, ⟨rfl, rfl⟩, rfl⟩ := h3
      exact ⟨k, h1, n, h2, y, h4, rfl⟩
  · rintro ⟨k, h1, n, h2, y, h4, rfl⟩
    refine ⟨_, k, h1, c, k, ⟨rfl, rfl⟩, 1, n, h2, ?_⟩
    rw [if_neg (by simp)]
    simp only [Parser.bind_ok, Parser.pure_ok, extractRest_ok]
    exact ⟨b, y, h4, rfl, rfl⟩

end Dns
