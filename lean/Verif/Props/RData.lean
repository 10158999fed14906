import Verif.Props.Codes
import Verif.Props.NameDecode
import Verif.Lemmas.ReadBack
import Verif.Spec.Strict

/-! C37, C38 and C43 to C47: record data. -/

namespace Dns
open Spec Buf

theorem item_mono {N M : NameRel} (h : ∀ d i n j, N d i n j → M d i n j) {d : Bytes} {i j : Nat} {it : Item}
    (hi : it.At N d i j) : it.At M d i j := by
  cases it with
  | name n => exact h _ _ _ _ hi
  | _ => exact hi

theorem items_mono {N M : NameRel} (h : ∀ d i n j, N d i n j → M d i n j) {d : Bytes} {its : List Item} :
    ∀ {i j : Nat}, Items.At N d i its j → Items.At M d i its j := by
  induction its with
  | nil => intro i j hi; exact hi
  | cons it its ih =>
    rintro i j ⟨k, h1, h2⟩
    exact ⟨k, item_mono h h1, ih h2⟩

/-! ## C37 -/

/-- C37 (partial): record data in the format of the RFC (names compressed as RFC 1035 allows) are read as
the value they mean, at every position of every message.  What is missing: SSHFP and IPSECKEY without
gateway, which are not read, and APL addresses with an odd number of octets; see the counterexamples. -/
theorem C37_parse_complete_partial (cfg : Cfg) (d : Bytes) (i j : Nat) (r : RecordData) (its : List Item)
    (hs : ∀ x, r ≠ .SSHFP x) (hg : ∀ k, r = .IPSECKEY k → k.gateway ≠ .none)
    (ha : ∀ x part, r = .APL x → .raw part ∈ its → part.length % 2 = 0)
    (hr : RData cfg r its) (h : Items.At LegalName d i its j) :
    RecordData.parse cfg r.type d i = (.ok r, j) :=
  RecordData.parse_complete hs hg ha hr (items_mono (fun d i n j => C08_legal_name_decoded d i j n) h)

/-- C37 (partial): what is read is what the octets mean, for every byte string (except SSHFP, APL, SVCB
and IPSECKEY without gateway; names with labels of up to 191 octets, see C02). -/
theorem C37_parse_sound_partial (cfg : Cfg) (t : RecordType) (d : Bytes) (i j : Nat) (r : RecordData)
    (hx : Exact r) (h : RecordData.parse cfg t d i = (.ok r, j)) :
    r.type = t ∧ ∃ its, RData cfg r its ∧ Items.At (NameWith 191 (fun _ _ => True)) d i its j := by
  obtain ⟨h1, its, h2, h3⟩ := (RecordData.parse_ok hx).mp h
  exact ⟨h1, its, h2, items_mono (fun d i n j => C07_decoded_name_sound d i j n) h3⟩

/-- C37: an MX record in which the name is compressed. -/
example : ∃ its, RData ⟨true, true, true⟩ (.MX ⟨10, [[98], [97]]⟩) its ∧
    Items.At LegalName ([1, 97, 0, 0, 10, 1, 98, 0xC0, 0] : Bytes) 3 its 9 := by
  refine ⟨_, rfl, 5, ⟨[1, 97, 0], [1, 98, 0xC0, 0], rfl, rfl, rfl⟩, 9, ?_, rfl⟩
  refine .label (len := 1) (by decide) (by decide) rfl ⟨[1, 97, 0, 0, 10], [0xC0, 0], rfl, rfl, rfl⟩ ?_
  refine .pointer (hi := 0xC0) (lo := 0) (k := 3) (by decide) ⟨[1, 97, 0, 0, 10, 1, 98], [], rfl, rfl, rfl⟩
    (by decide) ?_
  exact .label (len := 1) (by decide) (by decide) rfl ⟨[], [0, 0, 10, 1, 98, 0xC0, 0], rfl, rfl, rfl⟩ (.root rfl)

/-- C37 is false for SSHFP: a fingerprint is taken for a character string. -/
theorem C37_sshfp_counterexample (cfg : Cfg) :
    (∃ its, RData cfg (.SSHFP ⟨.RSA, .SHA1, [2, 7, 7]⟩) its ∧
      Items.At LegalName ([1, 1, 2, 7, 7] : Bytes) 0 its 5) ∧
    RecordData.parse cfg .SSHFP ([1, 1, 2, 7, 7] : Bytes) 0 = (.ok (.SSHFP ⟨.RSA, .SHA1, [7, 7]⟩), 5) := by
  refine ⟨⟨_, rfl, 1, ⟨[], [1, 2, 7, 7], rfl, rfl, rfl⟩, 2, ⟨[1], [2, 7, 7], rfl, rfl, rfl⟩, 5,
    ⟨⟨[1, 1], [], rfl, rfl, rfl⟩, rfl⟩, rfl⟩, ?_⟩
  show RecordData.parse ⟨true, true, true⟩ .SSHFP ([1, 1, 2, 7, 7] : Bytes) 0 = _
  decide +kernel

/-- C37 is false for IPSECKEY without gateway: an octet of the key is lost. -/
theorem C37_ipseckey_counterexample (cfg : Cfg) :
    (∃ its, RData cfg (.IPSECKEY ⟨10, .RSA, .none, [1, 2, 3]⟩) its ∧
      Items.At LegalName ([10, 0, 1, 1, 2, 3] : Bytes) 0 its 6) ∧
    RecordData.parse cfg .IPSECKEY ([10, 0, 1, 1, 2, 3] : Bytes) 0 =
      (.ok (.IPSECKEY ⟨10, .RSA, .none, [2, 3]⟩), 6) := by
  refine ⟨⟨_, rfl, 1, ⟨[], [0, 1, 1, 2, 3], rfl, rfl, rfl⟩, 2, ⟨[10], [1, 1, 2, 3], rfl, rfl, rfl⟩, 3,
    ⟨[10, 0], [1, 2, 3], rfl, rfl, rfl⟩, 6, ⟨⟨[10, 0, 1], [], rfl, rfl, rfl⟩, rfl⟩, rfl⟩, ?_⟩
  show RecordData.parse ⟨true, true, true⟩ .IPSECKEY ([10, 0, 1, 1, 2, 3] : Bytes) 0 = _
  decide +kernel

/-- C37 is false for APL: 10.1.2.0/24 as RFC 3123 prescribes it (three octets) is read as 10.1.0.0/24. -/
theorem C37_apl_counterexample (cfg : Cfg) :
    (∃ its, RData cfg (.APL ⟨24, false, .ipV4 0x0A010200⟩) its ∧
      Items.At LegalName ([0, 1, 24, 3, 10, 1, 2] : Bytes) 0 its 7) ∧
    (RecordData.parse cfg .APL ([0, 1, 24, 3, 10, 1, 2] : Bytes) 0).1 =
      .ok (.APL ⟨24, false, .ipV4 0x0A010000⟩) := by
  refine ⟨⟨_, ⟨[10, 1, 2], rfl, by decide, by decide⟩, 2, ⟨[], [24, 3, 10, 1, 2], rfl, rfl, rfl⟩, 3,
    ⟨[0, 1], [3, 10, 1, 2], rfl, rfl, rfl⟩, 4, ⟨[0, 1, 24], [10, 1, 2], rfl, rfl, rfl⟩, 7,
    ⟨[0, 1, 24, 3], [], rfl, rfl, rfl⟩, rfl⟩, ?_⟩
  show (RecordData.parse ⟨true, true, true⟩ .APL ([0, 1, 24, 3, 10, 1, 2] : Bytes) 0).1 = _
  decide +kernel

/-- C37, what is read as SSHFP: the fingerprint is taken for a character string, so that its first octet is
lost, and what follows the string is left over. -/
theorem C37_sshfp_read (cfg : Cfg) (d : Bytes) (i j : Nat) (r : Sshfp) :
    RecordData.parse cfg .SSHFP d i = (.ok (.SSHFP r), j) ↔
      Items.At LegalName d i [o8 (algorithmNumber r.algorithm), o8 (fingerprintNumber r.fingerprintType),
        .str r.fingerprint] j := by
  obtain ⟨a, f, p⟩ := r
  simp only [RecordData.parse, Sshfp.parse, Parser.bind_ok, Parser.pure_ok, Parser.lift_ok, extractU8_ok,
    extractCharacterString_ok, Algorithm.ofU8_ok, FingerprintType.ofU8_ok, Items.At, Item.At, o8]
  constructor
  · rintro ⟨_, _, ⟨_, k1, h1, _, _, ⟨rfl, rfl⟩, _, k2, h2, _, _, ⟨rfl, rfl⟩, _, k3, h3, rfl, rfl⟩, h4, rfl⟩
    cases h4
    exact ⟨_, h1, _, h2, _, h3, rfl⟩
  · rintro ⟨_, h1, _, h2, _, h3, rfl⟩
    exact ⟨_, _, ⟨_, _, h1, _, _, ⟨rfl, rfl⟩, _, _, h2, _, _, ⟨rfl, rfl⟩, _, _, h3, rfl, rfl⟩, rfl, rfl⟩

/-- C37, what is read as IPSECKEY without gateway: an octet of any value is expected in the place of the
gateway. -/
theorem C37_ipseckey_read (cfg : Cfg) (d : Bytes) (i j : Nat) (r : IpSecKey) (hg : r.gateway = .none) :
    RecordData.parse cfg .IPSECKEY d i = (.ok (.IPSECKEY r), j) ↔
      ∃ x, Items.At LegalName d i [.u8 r.precedence, o8 0, o8 (algorithmNumber r.algorithm), .u8 x,
        .rest r.publicKey] j := by
  obtain ⟨p, a, g, k⟩ := r
  subst hg
  simp only [RecordData.parse, IpSecKey.parse, Parser.bind_ok, Parser.pure_ok, Parser.lift_ok, extractU8_ok,
    Gateway.parse_ok, extractRest_ok, Algorithm.ofU8_ok, Items.At, Item.At, o8]
  constructor
  · rintro ⟨_, _, ⟨_, k1, h1, _, k2, h2, _, k3, h3, _, _, ⟨rfl, rfl⟩, _, k4, ⟨rfl, h4⟩, _, k5, h5, rfl, rfl⟩, h6, rfl⟩
    cases h6
    obtain ⟨x, h4⟩ := h4
    exact ⟨x, _, h1, _, h2, _, h3, _, h4, _, h5, rfl⟩
  · rintro ⟨x, k1, h1, k2, h2, k3, h3, k4, h4, k5, h5, rfl⟩
    exact ⟨_, _, ⟨_, _, h1, _, _, h2, _, _, h3, _, _, ⟨rfl, rfl⟩, Gateway.none, k4, ⟨rfl, x, h4⟩, _, _, h5, rfl, rfl⟩, rfl, rfl⟩

/-- C37, what is read as APL: of the length the last bit is ignored, and of the address all octets that do
not fit. -/
theorem C37_apl_read (cfg : Cfg) (d : Bytes) (i j : Nat) (r : Apl) :
    RecordData.parse cfg .APL d i = (.ok (.APL r), j) ↔
      ∃ len part, len < 128 ∧ part.length = 2 * (len / 2) ∧
        Items.At LegalName d i [o16 (familyNumber r.afd), .u8 r.prefix, o8 ((if r.n then 128 else 0) + len),
          .raw part] j ∧
        match r.afd with
        | .ipV4 _ => afdOf r.afd (part.take 4)
        | .ipV6 _ => afdOf r.afd (part.take 16) := by
  obtain ⟨p, n, a⟩ := r
  have key : ∀ n : Bool, ∀ m : Fin 128,
      (UInt8.ofNat ((if n then 128 else 0) + m.val) &&& 0x7E).toNat = 2 * (m.val / 2) ∧
      (UInt8.ofNat ((if n then 128 else 0) + m.val) &&& 0x80 != 0) = n := by decide
  have back : ∀ c : Fin 256, UInt8.ofNat ((if UInt8.ofNat c.val &&& 0x80 != 0 then 128 else 0) + c.val % 128) =
      UInt8.ofNat c.val ∧ (UInt8.ofNat c.val &&& 0x7E).toNat = 2 * (c.val % 128 / 2) := by decide +kernel
  have r4 : ∀ b : Bytes, resize 4 b = b.take 4 ++ List.replicate (4 - (b.take 4).length) 0 := by
    intro b; unfold resize; simp; omega
  have r16 : ∀ b : Bytes, resize 16 b = b.take 16 ++ List.replicate (16 - (b.take 16).length) 0 := by
    intro b; unfold resize; simp; omega
  have v4 : ∀ b : Bytes, ofBE (resize 4 b) < 2 ^ 32 := by
    intro b
    have h1 := ofBE_lt (resize 4 b)
    have h2 : (resize 4 b).length = 4 := by simp [resize]; omega
    rw [h2] at h1
    simpa using h1
  have v16 : ∀ b : Bytes, ofBE (resize 16 b) < 2 ^ 128 := by
    intro b
    have h1 := ofBE_lt (resize 16 b)
    have h2 : (resize 16 b).length = 16 := by simp [resize]; omega
    rw [h2] at h1
    simpa using h1
  simp only [RecordData.parse, Apl.parse, Parser.bind_ok, Parser.pure_ok, extractU16_ok,
    extractU8_ok, extractBytes_ok, Items.At, Item.At, o16, o8]
  constructor
  · rintro ⟨_, _, ⟨f, k1, h1, _, k2, h2, c, k3, h3, part, k4, ⟨h4, h5⟩, h6⟩, h7, rfl⟩
    cases h7
    obtain ⟨b1, b2⟩ := back ⟨c.toNat, c.toNat_lt⟩
    simp only [UInt8.ofNat_toNat] at b1 b2
    split at h6
    · obtain ⟨h6, rfl⟩ := Parser.pure_ok.mp h6
      cases h6
      refine ⟨c.toNat % 128, part, by omega, by omega, ⟨k1, h1, k2, h2, k3, ?_, k4, h5, rfl⟩, ?_, ?_⟩
      · rw [b1]; exact h3
      · simp
      · rw [← r4, valueOf_eq, UInt32.toNat_ofNat_of_lt' (v4 _)]
    · obtain ⟨h6, rfl⟩ := Parser.pure_ok.mp h6
      cases h6
      refine ⟨c.toNat % 128, part, by omega, by omega, ⟨k1, h1, k2, h2, k3, ?_, k4, h5, rfl⟩, ?_, ?_⟩
      · rw [b1]; exact h3
      · simp
      · rw [← r16, valueOf_eq, BitVec.toNat_ofNat, Nat.mod_eq_of_lt (v16 _)]
    · simp [Parser.fail] at h6
  · rintro ⟨len, part, hl, hp, ⟨k1, h1, k2, h2, k3, h3, k4, h4, rfl⟩, ha⟩
    obtain ⟨e1, e2⟩ := key n ⟨len, hl⟩
    simp only at e1 e2
    refine ⟨_, _, ⟨_, k1, h1, _, k2, h2, _, k3, h3, part, k4, ⟨by omega, h4⟩, ?_⟩, rfl, rfl⟩
    cases a with
    | ipV4 a =>
      obtain ⟨-, h6⟩ := ha
      show (pure _ : Parser _) d k4 = _
      rw [Parser.pure_ok, r4, ← valueOf_eq, h6, e2]
      simp
    | ipV6 a =>
      obtain ⟨-, h6⟩ := ha
      show (pure _ : Parser _) d k4 = _
      rw [Parser.pure_ok, r16, ← valueOf_eq, h6, e2]
      simp

/-- C37: SSHFP, IPSECKEY and APL records that are read, the last one with an odd length. -/
example : RecordData.parse ⟨true, true, true⟩ .SSHFP ([1, 1, 2, 7, 7, 9] : Bytes) 0 = (.ok (.SSHFP ⟨.RSA, .SHA1, [7, 7]⟩), 5) ∧
    RecordData.parse ⟨true, true, true⟩ .IPSECKEY ([10, 0, 1, 1, 2] : Bytes) 0 = (.ok (.IPSECKEY ⟨10, .RSA, .none, [2]⟩), 5) ∧
    RecordData.parse ⟨true, true, true⟩ .APL ([0, 1, 24, 0x83, 10, 1, 2] : Bytes) 0 =
      (.ok (.APL ⟨24, true, .ipV4 0x0A010000⟩), 6) := by decide +kernel

/-! ## C38 -/

theorem apl_last {afd : Afd} (h : match afd with
      | .ipV4 a => a.toNat % 256 ≠ 0
      | .ipV6 a => a.toNat % 256 ≠ 0) : afd.toBytes.getLast? ≠ some 0 := by
  cases afd with
  | ipV4 a =>
    intro h1
    apply h
    have h2 : some (UInt8.ofNat (a.toNat / 256 ^ 0)) = some 0 := h1
    have := congrArg UInt8.toNat (Option.some.inj h2)
    simpa using this
  | ipV6 a =>
    intro h1
    apply h
    have h2 : some (UInt8.ofNat (a.toNat / 256 ^ 0)) = some 0 := h1
    have := congrArg UInt8.toNat (Option.some.inj h2)
    simpa using this

/-- The encoding the crate writes for a value is one a sender may write. -/
theorem writes_strict {cfg : Cfg} {max : Nat} {r : RecordData} (h : Writable cfg max r) (hw : WrittenWell r) :
    ∃ its, RDataStrict cfg r its ∧ Writes cfg max r its := by
  have hf : ∀ k : DnsKey, k.flags = UInt16.ofNat (dnskeyFlags k) := by
    intro k
    unfold DnsKey.flags dnskeyFlags
    cases k.zoneKey <;> cases k.secureEntryPoint <;> rfl
  cases r with
  | TXT r => exact ⟨_, rfl, writes_TXT h⟩
  | NAPTR r =>
    refine ⟨_, rfl, ?_⟩
    have : (fun f => UInt8.ofNat (flagNumber f)) = NaptrFlag.toU8 := by funext f; cases f <;> rfl
    rw [this]
    exact writes_NAPTR h
  | OPT r => exact ⟨_, rfl, writes_OPT h⟩
  | APL r =>
    obtain ⟨part, h1, h2⟩ := (writes_APL cfg max r).rdata
    refine ⟨_, ⟨r.afd.toBytes, ?_, ?_, apl_last hw⟩, writes_APL cfg max r⟩
    · rfl
    · simp only [List.cons.injEq, and_true, Item.raw.injEq] at h1
      rw [h1.2.2.2]; exact h2
  | NSEC r =>
    obtain ⟨ws, h1, h2, h3, h4⟩ := writes_NSEC h
    exact ⟨_, ⟨ws, rfl, h3, h1.1, fun w hm => ⟨(h1.2 w hm).1, (h1.2 w hm).2, h2 hw w hm⟩⟩, h4⟩
  | CSYNC r =>
    obtain ⟨ws, h1, h2, h3, h4⟩ := writes_CSYNC h
    exact ⟨_, ⟨ws, rfl, h3, h1.1, fun w hm => ⟨(h1.2 w hm).1, (h1.2 w hm).2, h2 hw w hm⟩⟩, h4⟩
  | DNSKEY r =>
    refine ⟨_, rfl, ?_⟩
    have h1 := writes_DNSKEY cfg max r
    rw [hf] at h1
    exact h1
  | CDNSKEY r =>
    refine ⟨_, rfl, ?_⟩
    have h1 := writes_CDNSKEY cfg max r
    rw [hf] at h1
    exact h1
  | CAA r =>
    refine ⟨_, rfl, ?_⟩
    have h1 := writes_CAA h
    cases hc : r.issuerCritical <;> rw [hc] at h1 <;> exact h1
  | IPSECKEY r => exact ⟨_, (writes_IPSECKEY h hw).rdata, writes_IPSECKEY h hw⟩
  | _ =>
    obtain ⟨its, hi⟩ := RecordData.write_ok h (by intro k hk; cases hk)
    exact ⟨its, hi.rdata, hi⟩

/-- C38 (partial): every writable value is written as the RFC prescribes.  What is missing: the values
that are not `WrittenWell` (IPSECKEY without gateway, APL addresses ending with a zero octet, type bitmaps
without a type below 256), for which it is false. -/
theorem C38_write_partial (cfg : Cfg) (max : Nat) (r : RecordData) (h : Writable cfg max r)
    (hw : WrittenWell r) :
    ∃ its, RDataStrict cfg r its ∧ r.toBytes cfg = .ok (Items.octets its) := by
  obtain ⟨its, h1, h2⟩ := writes_strict h hw
  exact ⟨its, h1, h2.bytes⟩

/-- C38: values that meet the conditions. -/
example : Writable ⟨true, true, true⟩ 63 (.NSEC ⟨[[97]], [.A, .NSEC, .CAA]⟩) ∧
    WrittenWell (.NSEC ⟨[[97]], [.A, .NSEC, .CAA]⟩) ∧
    RecordData.toBytes ⟨true, true, true⟩ (.NSEC ⟨[[97]], [.A, .NSEC, .CAA]⟩) =
      .ok [1, 97, 0, 0, 6, 64, 0, 0, 0, 0, 1, 1, 1, 64] := by
  refine ⟨⟨by decide, ⟨by simp [typeNumber], by simp [Readable]⟩⟩, ⟨.A, by simp, by decide⟩, by decide +kernel⟩

/-- C38 is false for an IPSECKEY without gateway: an octet 0x2E stands for the missing gateway. -/
theorem C38_ipseckey_counterexample (cfg : Cfg) (its : List Item)
    (h : RDataStrict cfg (.IPSECKEY ⟨10, .RSA, .none, [1]⟩) its) :
    RecordData.toBytes cfg (.IPSECKEY ⟨10, .RSA, .none, [1]⟩) = .ok [10, 0, 1, 0x2E, 1] ∧
    Items.octets its = [10, 0, 1, 1] := by
  have : its = [.u8 10, o8 0, o8 1] ++ [] ++ [.rest [1]] := h
  subst this
  exact ⟨rfl, rfl⟩

/-- C38 is false for an APL address ending with a zero octet, and for an empty type bitmap, where a
block without types is written. -/
theorem C38_counterexamples (cfg : Cfg) :
    RecordData.toBytes cfg (.APL ⟨8, false, .ipV4 0x0A000000⟩) = .ok [0, 1, 8, 4, 10, 0, 0, 0] ∧
    (∀ its, RDataStrict cfg (.APL ⟨8, false, .ipV4 0x0A000000⟩) its →
      Items.octets its ≠ [0, 1, 8, 4, 10, 0, 0, 0]) ∧
    RecordData.toBytes cfg (.CSYNC ⟨0, ⟨0⟩, []⟩) = .ok [0, 0, 0, 0, 0, 0, 0, 1, 0] ∧
    (∀ its, RDataStrict cfg (.CSYNC ⟨0, ⟨0⟩, []⟩) its → Items.octets its = [0, 0, 0, 0, 0, 0]) := by
  refine ⟨rfl, ?_, ?_, ?_⟩
  · rintro _ ⟨part, rfl, h1, h2⟩ h3
    have h4 : part = [10, 0, 0, 0] := by
      simp only [Items.octets, Item.octets, o16, o8, octets16, List.map_cons, List.map_nil, List.flatten_cons,
        List.flatten_nil, List.cons_append, List.nil_append, List.append_nil, List.cons.injEq] at h3
      exact h3.2.2.2.2
    subst h4
    simp at h2
  · rfl
  · rintro _ ⟨ws, rfl, h1, h2⟩
    have : ws = [] := by
      rcases ws with _ | ⟨w, ws⟩
      · rfl
      · exfalso
        obtain ⟨h3, h4, h5⟩ := h2.2 w List.mem_cons_self
        obtain ⟨o, ho⟩ : ∃ o, w.2.getLast? = some o := by
          rcases hl : w.2.getLast? with _ | o
          · rw [List.getLast?_eq_none_iff] at hl; rw [hl] at h3; simp at h3
          · exact ⟨o, rfl⟩
        have hne : o ≠ 0 := by rintro rfl; exact h5 ho
        have key : ∀ o : UInt8, o ≠ 0 → ∃ b < 8, o.toNat.testBit (7 - b) = true := by
          apply forall_u8; decide +kernel
        obtain ⟨b, hb, hbit⟩ := key o hne
        have hbs : BitSet w (256 * w.1.toNat + 8 * (w.2.length - 1) + b) :=
          ⟨w.2.length - 1, b, o, by rw [← List.getLast?_eq_getElem?]; exact ho, hb, hbit, rfl⟩
        obtain ⟨t, ht, _⟩ := (h1.bits _).mp ⟨w, List.mem_cons_self, _, hbs, rfl⟩
        simp at ht
    subst this
    rfl

/-- What is written for a set of types without a type of the first window starts with an empty block. -/
theorem bitmap_empty_block (cfg : Cfg) {types : List RecordType}
    (hs : types.Pairwise (fun a b => typeNumber a < typeNumber b)) (h : ∀ t ∈ types, 256 ≤ typeNumber t) :
    ∃ rest, Bitmap.toBytes cfg types = .ok (0 :: 1 :: 0 :: rest) := by
  have hall : ∀ t : RecordType, 256 ≤ typeNumber t → t = .URI ∨ t = .CAA := by
    intro t; cases t <;> simp [typeNumber]
  have hcases : types = [] ∨ types = [.URI] ∨ types = [.CAA] ∨ types = [.URI, .CAA] := by
    rcases types with _ | ⟨a, _ | ⟨b, _ | ⟨c, l⟩⟩⟩
    · simp
    · rcases hall a (h a (by simp)) with rfl | rfl <;> simp
    · rcases hall a (h a (by simp)) with rfl | rfl <;> rcases hall b (h b (by simp)) with rfl | rfl <;>
        simp [typeNumber] at hs ⊢
    · rcases hall a (h a (by simp)) with rfl | rfl <;> rcases hall b (h b (by simp)) with rfl | rfl <;>
        rcases hall c (h c (by simp)) with rfl | rfl <;> simp [typeNumber] at hs
  obtain ⟨o, m, d⟩ := cfg
  rcases hcases with rfl | rfl | rfl | rfl <;> cases o <;> exact ⟨_, rfl⟩

theorem strict_no_empty_block {ws : List (UInt8 × Bytes)} (h : StrictWindows ws) (rest : Bytes) :
    Items.octets (windowItems ws) ≠ 0 :: 1 :: 0 :: rest := by
  rcases ws with _ | ⟨w, ws⟩
  · simp [windowItems, Items.octets]
  · intro he
    obtain ⟨h1, h2, h3⟩ := h.2 w List.mem_cons_self
    have h4 : w.1 :: UInt8.ofNat w.2.length :: (w.2 ++ Items.octets (windowItems ws)) = 0 :: 1 :: 0 :: rest := by
      simpa [windowItems, Items.octets, Item.octets] using he
    simp only [List.cons.injEq] at h4
    obtain ⟨_, h5, h6⟩ := h4
    have h7 : w.2.length = 1 := by
      have := congrArg UInt8.toNat h5
      rw [UInt8.toNat_ofNat_of_lt' (show _ < 256 by omega)] at this
      exact this
    obtain ⟨x, hx⟩ := List.length_eq_one_iff.mp h7
    rw [hx] at h6 h3
    simp at h6 h3
    exact h3 h6.1

/-- C38, exactly: a value that fits the fields of the wire format is written as the RFC prescribes if and
only if it is `WrittenWell`. -/
theorem C38_write_exact (cfg : Cfg) (max : Nat) (r : RecordData) (h : Writable cfg max r) :
    (∃ its, RDataStrict cfg r its ∧ r.toBytes cfg = .ok (Items.octets its)) ↔ WrittenWell r := by
  refine ⟨?_, C38_write_partial cfg max r h⟩
  rintro ⟨its, h1, h2⟩
  cases r with
  | IPSECKEY r =>
    intro hg
    obtain ⟨p, a, g, k⟩ := r
    simp only at hg
    subst hg
    have : its = [.u8 p, o8 0, o8 (algorithmNumber a)] ++ [] ++ [.rest k] := h1
    subst this
    have h3 := congrArg List.length (Res.ok.inj h2)
    simp [IpSecKey.toBytes, Gateway.toBytes, Items.octets, Item.octets, o8] at h3
  | APL r =>
    obtain ⟨part, rfl, h3, h4⟩ := h1
    obtain ⟨p, n, a⟩ := r
    have h5 : part = a.toBytes := by
      have h6 := Res.ok.inj h2
      simp only [Apl.toBytes, Items.octets, Item.octets, o16, o8, octets16, u16be_eq, List.map_cons, List.map_nil,
        List.flatten_cons, List.flatten_nil, List.append_nil, List.cons_append, List.nil_append, List.cons.injEq] at h6
      exact h6.2.2.2.2.symm
    subst h5
    cases a with
    | ipV4 a =>
      intro h0
      refine h4 (show some (UInt8.ofNat (a.toNat / 256 ^ 0)) = some 0 from congrArg some ?_)
      apply UInt8.toNat_inj.mp
      simpa using h0
    | ipV6 a =>
      intro h0
      refine h4 (show some (UInt8.ofNat (a.toNat / 256 ^ 0)) = some 0 from congrArg some ?_)
      apply UInt8.toNat_inj.mp
      simpa using h0
  | NSEC r =>
    by_contra hw
    have hw' : ∀ t ∈ r.types, 256 ≤ typeNumber t := fun t ht => Nat.le_of_not_lt fun hlt => hw ⟨t, ht, hlt⟩
    obtain ⟨rest, h3⟩ := bitmap_empty_block cfg h.2.1 hw'
    obtain ⟨ws, rfl, -, h4⟩ := h1
    obtain ⟨ws', h5, h6, -⟩ := Bitmap.toBytes_ok cfg h.2.1
    have h7 : r.toBytes cfg = .ok (r.nextDomainName.toBytes ++ (0 :: 1 :: 0 :: rest)) := by
      simp [Nsec.toBytes, Nsec.byteSize, h3, h6, bind, Res.bind, pure]
    have h8 : Res.ok _ = Res.ok _ := h7.symm.trans h2
    have h9 := Res.ok.inj h8
    rw [NameOk.toBytes h.1] at h9
    refine strict_no_empty_block h4 rest (List.append_cancel_left (as := nameOctets r.nextDomainName) ?_)
    rw [h9]
    simp [Items.octets, Item.octets]
  | CSYNC r =>
    by_contra hw
    have hw' : ∀ t ∈ r.types, 256 ≤ typeNumber t := fun t ht => Nat.le_of_not_lt fun hlt => hw ⟨t, ht, hlt⟩
    obtain ⟨rest, h3⟩ := bitmap_empty_block cfg h.2.1 hw'
    obtain ⟨ws, rfl, -, h4⟩ := h1
    have h7 : r.toBytes cfg = .ok (octets32 r.soaSerial ++ octets16 r.flags.bits ++ (0 :: 1 :: 0 :: rest)) := by
      simp [Csync.toBytes, h3, bind, Res.bind, pure, u16be_eq, u32be_eq]
    have h8 : Res.ok _ = Res.ok _ := h7.symm.trans h2
    have h9 := Res.ok.inj h8
    refine strict_no_empty_block h4 rest
      (List.append_cancel_left (as := octets32 r.soaSerial ++ octets16 r.flags.bits) ?_)
    rw [h9]
    simp [Items.octets, Item.octets]
  | _ => trivial

/-- C38: a value that is not written well. -/
example : Writable ⟨true, true, true⟩ 63 (.NSEC ⟨[[97]], [.CAA]⟩) ∧ ¬ WrittenWell (.NSEC ⟨[[97]], [.CAA]⟩) ∧
    RecordData.toBytes ⟨true, true, true⟩ (.NSEC ⟨[[97]], [.CAA]⟩) = .ok [1, 97, 0, 0, 1, 0, 1, 1, 64] := by
  refine ⟨⟨by decide, ⟨by simp, by simp [Readable]⟩⟩, by simp [WrittenWell, typeNumber], by decide +kernel⟩

/-! ## C43 -/

/-- C43: the writer.  The bitmap of a written CSYNC or NSEC record consists of windows in increasing order
with 1 to 32 octets each, and bit `n` is set exactly if the type with number `n` is in the set. -/
theorem C43_written_bits (cfg : Cfg) (serial : UInt32) (flags : CsyncFlags) (name : Fqdn)
    (types : List RecordType) (hs : types.Pairwise (fun a b => typeNumber a < typeNumber b)) :
    ∃ ws : List (UInt8 × Bytes),
      Csync.toBytes cfg ⟨serial, flags, types⟩ =
        .ok (octets32 serial ++ octets16 flags.bits ++ Items.octets (windowItems ws)) ∧
      Nsec.toBytes cfg ⟨name, types⟩ = .ok (name.toBytes ++ Items.octets (windowItems ws)) ∧
      ws.Pairwise (fun a b => a.1.toNat < b.1.toNat) ∧ (∀ w ∈ ws, 1 ≤ w.2.length ∧ w.2.length ≤ 32) ∧
      ∀ n, (∃ w ∈ ws, BitSet w n) ↔ ∃ t ∈ types, typeNumber t = n := by
  obtain ⟨ws, w1, w2, w3, w4, w5, w6⟩ := Bitmap.toBytes_ok cfg hs
  refine ⟨ws, ?_, ?_, w4, w5, w3⟩
  · simp [Csync.toBytes, w1, bind, Res.bind, pure, u16be_eq, u32be_eq]
  · simp [Nsec.toBytes, Nsec.byteSize, w1, w2, bind, Res.bind, pure]
example (cfg : Cfg) := C43_written_bits cfg 1 ⟨3⟩ [[97]] [.A, .MX, .CAA] (by decide)

theorem windowItems_at {N : NameRel} {d : Bytes} {ws : List (UInt8 × Bytes)} (hw : ∀ w ∈ ws, w.2.length ≤ 32) :
    ∀ {i j : Nat}, Octets d i (Items.octets (windowItems ws)) j → Items.At N d i (windowItems ws) j := by
  induction ws with
  | nil => intro i j h; exact (h.end_eq).symm
  | cons w ws ih =>
    intro i j h
    have h1 : Octets d i ([w.1] ++ ((UInt8.ofNat w.2.length :: w.2) ++ Items.octets (windowItems ws))) j := by
      simpa [windowItems, Items.octets, Item.octets] using h
    obtain ⟨k, h2, h3⟩ := octets_append.mp h1
    obtain ⟨k2, h3, h4⟩ := octets_append.mp h3
    have := hw w List.mem_cons_self
    exact ⟨k, h2, k2, ⟨by omega, h3⟩, ih (fun x hx => hw x (List.mem_cons_of_mem _ hx)) h4⟩

theorem windowItems_lt {N : NameRel} {d : Bytes} {ws : List (UInt8 × Bytes)} :
    ∀ {i j : Nat}, Items.At N d i (windowItems ws) j → ∀ w ∈ ws, w.2.length < 256 := by
  induction ws with
  | nil => intro i j _ w hw; simp at hw
  | cons w ws ih =>
    rintro i j ⟨k, h2, k2, ⟨h3, _⟩, h4⟩ v hv
    rcases List.mem_cons.mp hv with rfl | hv
    · exact h3
    · exact ih h4 v hv

theorem windowItems_octets {N : NameRel} {d : Bytes} {ws : List (UInt8 × Bytes)} :
    ∀ {i j : Nat}, i ≤ d.length → Items.At N d i (windowItems ws) j →
      Octets d i (Items.octets (windowItems ws)) j := by
  induction ws with
  | nil =>
    rintro i j hi rfl
    exact octets_iff.mpr ⟨rfl, hi, by simp [windowItems, Items.octets]⟩
  | cons w ws ih =>
    rintro i j hi ⟨k, h2, k2, ⟨_, h3⟩, h4⟩
    have h1 : Octets d i ([w.1] ++ ((UInt8.ofNat w.2.length :: w.2) ++ Items.octets (windowItems ws))) j :=
      octets_append.mpr ⟨k, h2, octets_append.mpr ⟨k2, h3, ih h3.le h4⟩⟩
    simpa [windowItems, Items.octets, Item.octets] using h1

theorem octets_unique {d : Bytes} {i j k : Nat} {b c : Bytes} (h : Octets d i b j) (h' : Octets d i c k)
    (hl : b.length = c.length) : b = c ∧ j = k := by
  obtain ⟨h1, _, h2⟩ := octets_iff.mp h
  obtain ⟨h3, _, h4⟩ := octets_iff.mp h'
  exact ⟨by rw [← h2, ← h4, hl], by omega⟩

theorem windowItems_unique {N : NameRel} {d : Bytes} {ws vs : List (UInt8 × Bytes)} :
    ∀ {i : Nat}, Items.At N d i (windowItems ws) d.length → Items.At N d i (windowItems vs) d.length →
      ws = vs := by
  induction ws generalizing vs with
  | nil =>
    rintro i rfl h
    rcases vs with _ | ⟨v, vs⟩
    · rfl
    · obtain ⟨k, h1, _⟩ := h
      have h1 : Octets d _ [v.1] k := h1
      have := h1.end_eq
      have := h1.le
      simp at *
      omega
  | cons w ws ih =>
    rintro i h h'
    rcases vs with _ | ⟨v, vs⟩
    · obtain rfl : i = d.length := h'
      obtain ⟨k, h1, _⟩ := h
      have h1 : Octets d _ [w.1] k := h1
      have := h1.end_eq
      have := h1.le
      simp at *
      omega
    · obtain ⟨k, h1, k2, ⟨h2, h3⟩, h4⟩ := h
      obtain ⟨m, g1, m2, ⟨g2, g3⟩, g4⟩ := h'
      obtain ⟨a1, a2⟩ := octets_unique (b := [w.1]) (c := [v.1]) h1 g1 rfl
      subst a2
      have e1 := octets_cons_getElem? h3
      have e2 := octets_cons_getElem? g3
      rw [e1] at e2
      have e3 := congrArg UInt8.toNat (Option.some.inj e2)
      rw [UInt8.toNat_ofNat_of_lt' h2, UInt8.toNat_ofNat_of_lt' g2] at e3
      obtain ⟨a3, a4⟩ := octets_unique h3 g3 (by simp [e3])
      subst a4
      obtain ⟨w1, w2⟩ := w
      obtain ⟨v1, v2⟩ := v
      simp only [List.cons.injEq, and_true] at a1 a3
      rw [a1, a3.2, ih h4 g4]

theorem bitSet_small {w : UInt8 × Bytes} {n : Nat} (hw : w.2.length ≤ 32) (h : BitSet w n) : n < 65536 := by
  obtain ⟨k, b, o, h1, h2, h3, rfl⟩ := h
  have := getElem?_lt h1
  have := w.1.toNat_lt
  omega

theorem typesOf_bits {cfg : Cfg} {ws : List (UInt8 × Bytes)} {types : List RecordType}
    (h : TypesOf cfg ws types) (hw : ∀ w ∈ ws, w.2.length ≤ 32) (n : Nat) :
    (∃ w ∈ ws, BitSet w n) ↔ ∃ t ∈ types, typeNumber t = n := by
  rw [← h.bits]
  constructor
  · rintro ⟨w, h1, h2⟩
    exact ⟨w, h1, n, h2, (Nat.mod_eq_of_lt (bitSet_small (hw w h1) h2)).symm⟩
  · rintro ⟨w, h1, m, h2, rfl⟩
    rw [Nat.mod_eq_of_lt (bitSet_small (hw w h1) h2)]
    exact ⟨w, h1, h2⟩

/-- C43: the reader of CSYNC.  The octets behind the flags are windows, and if these are windows as the
RFC allows them (at most 32 octets), then the set consists of exactly the types whose bits are set
(whatever the order of the windows; repeated windows count). -/
theorem C43_csync_bits (cfg : Cfg) (d : Bytes) (i j : Nat) (r : Csync)
    (h : Csync.parse cfg d i = (.ok r, j)) :
    r.types.Pairwise (fun a b => typeNumber a < typeNumber b) ∧
    (∃ ws, (∀ w ∈ ws, w.2.length < 256) ∧ Octets d (i + 6) (Items.octets (windowItems ws)) d.length) ∧
    ∀ ws : List (UInt8 × Bytes), (∀ w ∈ ws, w.2.length ≤ 32) →
      Octets d (i + 6) (Items.octets (windowItems ws)) d.length →
      ∀ n, (∃ w ∈ ws, BitSet w n) ↔ ∃ t ∈ r.types, typeNumber t = n := by
  obtain ⟨ws, h1, h2, h3⟩ := Csync.parse_ok.mp h
  rw [eof_append, itemsAt_append] at h3
  obtain ⟨⟨k, ⟨k1, h4, k2, h5, rfl⟩, h6⟩, rfl⟩ := h3
  have e4 := Octets.end_eq (b := octets32 r.soaSerial) h4
  have e5 := Octets.end_eq (b := octets16 r.flags.bits) h5
  have : k2 = i + 6 := by rw [e5, e4]; rfl
  rw [← this]
  refine ⟨h2.sorted, ⟨ws, windowItems_lt h6, windowItems_octets (Octets.le (b := octets16 r.flags.bits) h5) h6⟩,
    ?_⟩
  intro vs hv h7
  have := windowItems_unique h6 (windowItems_at hv h7)
  subst this
  exact typesOf_bits h2 hv
example := C43_csync_bits ⟨true, true, true⟩ [0, 0, 0, 1, 0, 3, 0, 2, 64, 1] 0 10 ⟨1, ⟨3⟩, [.A, .MX]⟩ (by decide +kernel)

/-- C43: the reader of NSEC. -/
theorem C43_nsec_bits (cfg : Cfg) (d : Bytes) (i j : Nat) (r : Nsec)
    (h : Nsec.parse cfg d i = (.ok r, j)) :
    r.types.Pairwise (fun a b => typeNumber a < typeNumber b) ∧
    ∃ k, extractFqdn d i = (.ok r.nextDomainName, k) ∧
    (∃ ws, (∀ w ∈ ws, w.2.length < 256) ∧ Octets d k (Items.octets (windowItems ws)) d.length) ∧
    ∀ ws : List (UInt8 × Bytes), (∀ w ∈ ws, w.2.length ≤ 32) →
      Octets d k (Items.octets (windowItems ws)) d.length →
      ∀ n, (∃ w ∈ ws, BitSet w n) ↔ ∃ t ∈ r.types, typeNumber t = n := by
  obtain ⟨ws, h2, h3⟩ := Nsec.parse_ok.mp h
  rw [eof_append] at h3
  obtain ⟨⟨k, h4, h6⟩, rfl⟩ := h3
  refine ⟨h2.sorted, k, h4, ⟨ws, windowItems_lt h6, windowItems_octets (extractFqdn_pos h4).2 h6⟩, ?_⟩
  intro vs hv h7
  have := windowItems_unique h6 (windowItems_at hv h7)
  subst this
  exact typesOf_bits h2 hv

/-- C43: an NSEC record with two windows. -/
example : Nsec.parse ⟨true, true, true⟩ ([1, 97, 0, 0, 1, 64, 1, 1, 64] : Bytes) 0 =
    (.ok ⟨[[97]], [.A, .CAA]⟩, 9) := by decide +kernel

/-- C43: conversely, every bitmap of which all bits stand for types the build knows is read. -/
theorem C43_read_complete (cfg : Cfg) (d : Bytes) (i : Nat) (serial : UInt32) (flags : CsyncFlags)
    (types : List RecordType) (ws : List (UInt8 × Bytes))
    (h : Octets d i (octets32 serial ++ octets16 flags.bits ++ Items.octets (windowItems ws)) d.length)
    (hf : flags.bits.toNat < 4) (hw : ∀ w ∈ ws, w.2.length ≤ 32)
    (hs : types.Pairwise (fun a b => typeNumber a < typeNumber b)) (hk : ∀ t ∈ types, Readable cfg t)
    (hb : ∀ n, (∃ w ∈ ws, BitSet w n) ↔ ∃ t ∈ types, typeNumber t = n) :
    Csync.parse cfg d i = (.ok ⟨serial, flags, types⟩, d.length) := by
  refine Csync.parse_ok.mpr ⟨ws, hf, typesOf_written hs hk hb, ?_⟩
  rw [eof_append]
  refine ⟨?_, rfl⟩
  rw [List.append_assoc, octets_append] at h
  obtain ⟨k, h1, h2⟩ := h
  rw [octets_append] at h2
  obtain ⟨k2, h2, h3⟩ := h2
  rw [itemsAt_append]
  exact ⟨k2, ⟨k, h1, k2, h2, rfl⟩, windowItems_at hw h3⟩

example : Csync.parse ⟨true, true, true⟩ ([0, 0, 0, 1, 0, 3, 1, 1, 64, 0, 1, 64] : Bytes) 0 =
    (.ok ⟨1, ⟨3⟩, [.A, .CAA]⟩, 12) := by decide +kernel

/-! ## C44 -/

/-- The fields of type `String`. -/
def rdataStrings : RecordData → List Bytes
  | .TXT r => r.strings
  | .CAA r => [r.tag]
  | .NAPTR r => [r.regexp]
  | _ => []

/-- C44: every string of a record that was read is UTF-8. -/
theorem C44_strings_utf8 (cfg : Cfg) (t : RecordType) (d : Bytes) (i j : Nat) (r : RecordData)
    (h : RecordData.parse cfg t d i = (.ok r, j)) : ∀ s ∈ rdataStrings r, IsUtf8 s := by
  intro s hs
  cases r with
  | TXT r =>
    obtain ⟨_, its, ⟨ws, _, h1⟩, _⟩ := (RecordData.parse_ok (r := .TXT r) (by trivial)).mp h
    have hs : s ∈ r.strings := hs
    rw [h1, List.mem_map] at hs
    obtain ⟨w, _, rfl⟩ := hs
    exact utf8Lossy_isUtf8 w
  | CAA r =>
    obtain ⟨_, its, ⟨_, tag, _, _, _, h1⟩, _⟩ := (RecordData.parse_ok (r := .CAA r) (by trivial)).mp h
    rw [List.mem_singleton.mp (show s ∈ [r.tag] from hs), h1]
    exact utf8Lossy_isUtf8 tag
  | NAPTR r =>
    obtain ⟨_, its, ⟨_, _, _, h1⟩, _⟩ := (RecordData.parse_ok (r := .NAPTR r) (by trivial)).mp h
    rw [List.mem_singleton.mp (show s ∈ [r.regexp] from hs)]
    exact (utf8Valid_iff _).mp h1
  | _ => exact absurd hs List.not_mem_nil

/-- C44: octets that are not UTF-8 are replaced in TXT, and refused in NAPTR. -/
example : RecordData.parse ⟨true, true, true⟩ .TXT ([2, 104, 255] : Bytes) 0 =
      (.ok (.TXT ⟨[[104, 0xEF, 0xBF, 0xBD]]⟩), 3) ∧
    RecordData.parse ⟨true, true, true⟩ .NAPTR ([0, 1, 0, 2, 0, 0, 1, 255, 0] : Bytes) 0 =
      (.err .lengthViolation, 8) := by
  constructor <;> decide +kernel

/-- C44: valid UTF-8 is returned unchanged: character strings of TXT, ... -/
theorem C44_txt_unchanged (cfg : Cfg) (d : Bytes) (i : Nat) (ws : List Bytes) (hw : ∀ w ∈ ws, IsUtf8 w)
    (h : Items.At LegalName d i (ws.map .str ++ [.eof]) d.length) :
    RecordData.parse cfg .TXT d i = (.ok (.TXT ⟨ws⟩), d.length) := by
  refine C37_parse_complete_partial cfg d i d.length (.TXT ⟨ws⟩) _ (by simp) (by simp) (by simp)
    ⟨ws, rfl, ?_⟩ h
  have : ws.map utf8Lossy = ws.map id :=
    List.map_congr_left (fun w h => utf8Lossy_of_valid ((utf8Valid_iff w).mpr (hw w h)))
  rw [this, List.map_id]

example : IsUtf8 [0xC3, 0xA9] ∧
    Items.At LegalName ([2, 0xC3, 0xA9, 0] : Bytes) 0 ([[0xC3, 0xA9], []].map .str ++ [.eof]) 4 := by
  refine ⟨⟨['é'], by decide +kernel⟩, 3, ⟨by decide, ⟨[], [0], rfl, rfl, rfl⟩⟩, 4,
    ⟨by decide, ⟨[2, 0xC3, 0xA9], [], rfl, rfl, rfl⟩⟩, 4, ⟨rfl, rfl⟩, rfl⟩

/-- ... the tag of CAA, ... -/
theorem C44_caa_unchanged (cfg : Cfg) (d : Bytes) (i : Nat) (c : Bool) (tag value : Bytes) (ht : IsUtf8 tag)
    (h0 : tag ≠ []) (h : Items.At LegalName d i [o8 (if c then 128 else 0), .str tag, .rest value] d.length) :
    RecordData.parse cfg .CAA d i = (.ok (.CAA ⟨c, tag, value⟩), d.length) := by
  refine C37_parse_complete_partial cfg d i d.length (.CAA ⟨c, tag, value⟩) _ (by simp) (by simp) (by simp)
    ⟨_, tag, rfl, h0, ?_, (utf8Lossy_of_valid ((utf8Valid_iff tag).mpr ht)).symm⟩ h
  cases c <;> rfl

example : IsUtf8 [105] ∧
    Items.At LegalName ([128, 1, 105, 99] : Bytes) 0 [o8 (if true then 128 else 0), .str [105], .rest [99]] 4 := by
  refine ⟨⟨['i'], by decide +kernel⟩, 1, ⟨[], [1, 105, 99], rfl, rfl, rfl⟩, 3,
    ⟨by decide, ⟨[128], [99], rfl, rfl, rfl⟩⟩, 4, ⟨⟨[128, 1, 105], [], rfl, rfl, rfl⟩, rfl⟩, rfl⟩

/-- ... and the regular expression of NAPTR, which is refused if it is not UTF-8 (by `C44_strings_utf8`). -/
theorem C44_naptr_unchanged (cfg : Cfg) (d : Bytes) (i j : Nat) (order pref : UInt16) (flags : List NaptrFlag)
    (service regexp : Bytes) (n : Fqdn) (ht : IsUtf8 regexp)
    (h : Items.At LegalName d i [.u16 order, .u16 pref,
      .str (flags.map (fun f => UInt8.ofNat (flagNumber f))), .str service, .str regexp, .name n] j) :
    RecordData.parse cfg .NAPTR d i = (.ok (.NAPTR ⟨order, pref, flags, service, regexp, n⟩), j) := by
  refine C37_parse_complete_partial cfg d i j (.NAPTR ⟨order, pref, flags, service, regexp, n⟩) _ (by simp)
    (by simp) (by simp) ⟨_, rfl, ?_, (utf8Valid_iff _).mpr ht⟩ h
  have : ∀ fs : List NaptrFlag, fs = (fs.map (fun f => UInt8.ofNat (flagNumber f))).filterMap flagOf := by
    intro fs
    induction fs with
    | nil => rfl
    | cons f fs ih =>
      have hf : flagOf (UInt8.ofNat (flagNumber f)) = some f := by cases f <;> decide
      rw [List.map_cons, List.filterMap_cons, hf]
      exact congrArg (f :: ·) ih
  exact this flags

example : RecordData.parse ⟨true, true, true⟩ .NAPTR ([0, 1, 0, 2, 1, 83, 0, 2, 0xC3, 0xA9, 0] : Bytes) 0 =
    (.ok (.NAPTR ⟨1, 2, [.S], [], [0xC3, 0xA9], []⟩), 11) := by decide +kernel

end Dns
