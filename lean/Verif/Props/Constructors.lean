import Verif.Model.Constructors
import Verif.Spec.Base64
import Verif.Props.RData
import Verif.Props.Dnssec
import Verif.Props.Accessors

/-
C79: what is given to the constructors of record data is what is written, in the order of the RFCs.
C81: base64 texts.
-/

namespace Dns
open Spec

/-- What is written for record data: the octets of `into_record_data()`. -/
def written {α : Type} [RDataTrait α] (cfg : Cfg) (r : α) : Res Bytes :=
  (RDataTrait.intoRecordData r).toBytes cfg

/-! ## C79 -/

/-- C79: constructors of record data with names. -/
theorem C79_names (cfg : Cfg) (n m : Fqdn) (hn : NameOk 63 n) (hm : NameOk 63 m) :
    written cfg (Ns.new n) = .ok (Items.octets [.name n]) ∧
    written cfg (Cname.new n) = .ok (Items.octets [.name n]) ∧
    written cfg (Ptr.new n) = .ok (Items.octets [.name n]) ∧
    written cfg (Minfo.new n m) = .ok (Items.octets [.name n, .name m]) ∧
    (∀ p, written cfg (Mx.new p n) = .ok (Items.octets [.u16 p, .name n])) ∧
    (∀ p w o, written cfg (Srv.new p w o n) = .ok (Items.octets [.u16 p, .u16 w, .u16 o, .name n])) ∧
    (∀ s r t e i, written cfg (Soa.new n m s r t e i)
      = .ok (Items.octets [.name n, .name m, .u32 s, .u32 r, .u32 t, .u32 e, .u32 i])) ∧
    (∀ o p fl s r, written cfg (Naptr.new o p fl s r n) = .ok (Items.octets [.u16 o, .u16 p,
      .str (fl.map (fun f => UInt8.ofNat (flagNumber f))), .str s, .str r, .name n])) ∧
    (∀ t a l ttl e i k s, written cfg (Rrsig.new t a l ttl e i k n s) = .ok (Items.octets [
      o16 (typeNumber t), o8 (secAlgorithmNumber a), .u8 l, .u32 ttl, .u32 e, .u32 i, .u16 k, .name n,
      .rest s])) := by
  have e1 := Fqdn.toBytes_eq (fun l hl => (hn l hl).1)
  have e2 := Fqdn.toBytes_eq (fun l hl => (hm l hl).1)
  have ef : ∀ f : NaptrFlag, f.toU8 = UInt8.ofNat (flagNumber f) := by intro f; cases f <;> rfl
  have ea : ∀ a : SecAlgorithm, a.toU8 = UInt8.ofNat (secAlgorithmNumber a) := by
    intro a; cases a <;> rfl
  have et : ∀ t : RecordType, t.toU16 = UInt16.ofNat (typeNumber t) := by intro t; cases t <;> rfl
  refine ⟨?_, ?_, ?_, ?_, ?_, ?_, ?_, ?_, ?_⟩ <;> intros <;>
    simp [written, RDataTrait.intoRecordData, RecordData.toBytes, Items.octets, Item.octets, u16be_eq,
      u32be_eq, e1, e2, ef, ea, et, Ns.new, Ns.toBytes, Cname.new, Cname.toBytes, Ptr.new, Ptr.toBytes,
      Minfo.new, Minfo.toBytes, Mx.new, Mx.toBytes, Srv.new, Srv.toBytes, Soa.new, Soa.toBytes, Naptr.new,
      Naptr.toBytes, Naptr.headBytes, lenU8, o8, o16, Rrsig.new, Rrsig.toBytes]
example (cfg : Cfg) : written cfg (Minfo.new [[97]] [[98]]) = .ok [1, 97, 0, 1, 98, 0] :=
  (C79_names cfg [[97]] [[98]] (show NameOk 63 [[97]] by decide) (show NameOk 63 [[98]] by decide)).2.2.2.1

/-- C79: constructors of record data without names. -/
theorem C79_data (cfg : Cfg) :
    (∀ a, written cfg (A.new a) = .ok (Items.octets [.u32 a])) ∧
    (∀ a, written cfg (Aaaa.new a) = .ok (Items.octets [.num 16 a.toNat])) ∧
    (∀ c o, written cfg (Hinfo.new c o) = .ok (Items.octets [.str c, .str o])) ∧
    (∀ ts, written cfg (Txt.new ts) = .ok (Items.octets (ts.map .str))) ∧
    (∀ b, written cfg (Null.new b) = .ok b) ∧
    (∀ a p b, written cfg (Wks.new a p b) = .ok (Items.octets [.u32 a, .u8 p, .rest b])) ∧
    (∀ p w t, written cfg (Uri.new p w t) = .ok (Items.octets [.u16 p, .u16 w, .rest t])) ∧
    (∀ p n a, written cfg (Apl.new p n (.ipV4 a))
      = .ok (Items.octets [o16 1, .u8 p, o8 ((if n then 128 else 0) + 4), .u32 a])) ∧
    (∀ p n a, written cfg (Apl.new p n (.ipV6 a))
      = .ok (Items.octets [o16 2, .u8 p, o8 ((if n then 128 else 0) + 16), .num 16 a.toNat])) ∧
    (∀ c t v, written cfg (Caa.new c t v) = .ok (Items.octets [o8 (if c then 128 else 0), .str t, .rest v])) ∧
    (∀ a t f, written cfg (Sshfp.new a t f)
      = .ok (Items.octets [o8 (algorithmNumber a), o8 (fingerprintNumber t), .rest f])) ∧
    (∀ u s m d, written cfg (Tlsa.new u s m d) = .ok (Items.octets [o8 (certUsageNumber u),
      o8 (selectorNumber s), o8 (matchingNumber m), .rest d])) ∧
    (∀ k a t d, written cfg (Ds.new k a t d) = .ok (Items.octets [.u16 k, o8 (secAlgorithmNumber a),
      o8 (digestNumber t), .rest d])) ∧
    (∀ a k, written cfg (DnsKey.new a k)
      = .ok (Items.octets [o16 0, o8 3, o8 (secAlgorithmNumber a), .rest k])) := by
  refine ⟨?_, ?_, ?_, ?_, ?_, ?_, ?_, ?_, ?_, ?_, ?_, ?_, ?_, ?_⟩
  · intro a; simp [written, RDataTrait.intoRecordData, RecordData.toBytes, Items.octets, Item.octets,
      u32be_eq, A.new, A.toBytes]
  · intro a; simp [written, RDataTrait.intoRecordData, RecordData.toBytes, Items.octets, Item.octets,
      toBE_eq_map, Aaaa.new, Aaaa.toBytes]
  · intro a b; simp [written, RDataTrait.intoRecordData, RecordData.toBytes, Items.octets, Item.octets,
      Hinfo.new, Hinfo.toBytes, lenU8]
  · intro ts
    show (Res.ok (Txt.toBytes ⟨ts⟩) : Res Bytes) = _
    rw [Txt.toBytes, foldl_strings]; simp
  · intro b; rfl
  · intro a p b; simp [written, RDataTrait.intoRecordData, RecordData.toBytes, Items.octets, Item.octets,
      u32be_eq, Wks.new, Wks.toBytes]
  · intro a p b; simp [written, RDataTrait.intoRecordData, RecordData.toBytes, Items.octets, Item.octets,
      u16be_eq, Uri.new, Uri.toBytes]
  · intro p n a; cases n <;> simp [written, RDataTrait.intoRecordData, RecordData.toBytes, Items.octets,
      Item.octets, u16be_eq, u32be_eq, Apl.new, Apl.toBytes, Afd.toBytes, Afd.family, Afd.byteSize, o16,
      o8, lenU8]; decide
  · intro p n a; cases n <;> simp [written, RDataTrait.intoRecordData, RecordData.toBytes, Items.octets,
      Item.octets, u16be_eq, toBE_eq_map, Apl.new, Apl.toBytes, Afd.toBytes, Afd.family, Afd.byteSize,
      o16, o8, lenU8]; decide
  · intro c t v; cases c <;> simp [written, RDataTrait.intoRecordData, RecordData.toBytes, Items.octets,
      Item.octets, Caa.new, Caa.toBytes, o8, lenU8]; decide
  · intro a t f
    have ea : a.toU8 = UInt8.ofNat (algorithmNumber a) := by cases a <;> rfl
    have et : t.toU8 = UInt8.ofNat (fingerprintNumber t) := by cases t <;> rfl
    simp [written, RDataTrait.intoRecordData, RecordData.toBytes, Items.octets, Item.octets, Sshfp.new,
      Sshfp.toBytes, o8, ea, et]
  · intro u s m d
    have eu : u.toU8 = UInt8.ofNat (certUsageNumber u) := by cases u <;> rfl
    have es : s.toU8 = UInt8.ofNat (selectorNumber s) := by cases s <;> rfl
    have em : m.toU8 = UInt8.ofNat (matchingNumber m) := by cases m <;> rfl
    simp [written, RDataTrait.intoRecordData, RecordData.toBytes, Items.octets, Item.octets, Tlsa.new,
      Tlsa.toBytes, o8, eu, es, em]
  · intro k a t d
    have ea : a.toU8 = UInt8.ofNat (secAlgorithmNumber a) := by cases a <;> rfl
    have et : t.toU8 = UInt8.ofNat (digestNumber t) := by cases t <;> rfl
    simp [written, RDataTrait.intoRecordData, RecordData.toBytes, Items.octets, Item.octets, u16be_eq,
      Ds.new, Ds.toBytes, o8, ea, et]
  · intro a k
    have ea : a.toU8 = UInt8.ofNat (secAlgorithmNumber a) := by cases a <;> rfl
    simp [written, RDataTrait.intoRecordData, RecordData.toBytes, Items.octets, Item.octets, u16be_eq,
      DnsKey.new, DnsKey.toBytes, DnsKey.flags, o8, o16, ea]

/-- C79: the types given to `Nsec::with_types` and `Csync::new` are the types of the written bitmap, if
one of them is in the first window (for the others see C43). -/
theorem C79_types_partial (cfg : Cfg) (n : Fqdn) (ts : List RecordType) (hn : NameOk 63 n) (ht : TypesOk cfg ts)
    (h0 : ∃ t ∈ ts, typeNumber t < 256) :
    (∃ ws, written cfg (Nsec.withTypes n ts) = .ok (Items.octets (.name n :: windowItems ws)) ∧
      TypesOf cfg ws ts ∧ StrictWindows ws) ∧
    ∀ (s : UInt32) (f : CsyncFlags), f.bits.toNat < 4 →
      ∃ ws, written cfg (Csync.new s f ts)
        = .ok (Items.octets ([.u32 s, .u16 f.toU16] ++ windowItems ws)) ∧
        TypesOf cfg ws ts ∧ StrictWindows ws := by
  refine ⟨?_, fun s f hf => ?_⟩
  · obtain ⟨its, ⟨ws, rfl, h2, h3⟩, h4⟩ := C38_write_partial cfg 63 (.NSEC ⟨n, ts⟩) ⟨hn, ht⟩ h0
    refine ⟨ws, ?_, h2, h3⟩
    show RecordData.toBytes cfg (.NSEC ⟨n, ts⟩) = _
    rw [h4]; simp [Items.octets, Item.octets]
  · obtain ⟨its, ⟨ws, rfl, h2, h3⟩, h4⟩ := C38_write_partial cfg 63 (.CSYNC ⟨s, f, ts⟩) ⟨hf, ht⟩ h0
    refine ⟨ws, ?_, h2, h3⟩
    show RecordData.toBytes cfg (.CSYNC ⟨s, f, ts⟩) = _
    rw [h4]; simp [Items.octets, Item.octets, CsyncFlags.toU16]

/-- C79, exactly: the types are written as the types of a bitmap of RFC 4034 if and only if one of them is in the first
window. -/
theorem C79_types_exact (cfg : Cfg) (n : Fqdn) (ts : List RecordType) (hn : NameOk 63 n) (ht : TypesOk cfg ts)
    (s : UInt32) (f : CsyncFlags) (hf : f.bits.toNat < 4) :
    ((∃ ws, written cfg (Nsec.withTypes n ts) = .ok (Items.octets (.name n :: windowItems ws)) ∧
      TypesOf cfg ws ts ∧ StrictWindows ws) ↔ ∃ t ∈ ts, typeNumber t < 256) ∧
    ((∃ ws, written cfg (Csync.new s f ts) = .ok (Items.octets ([.u32 s, .u16 f.toU16] ++ windowItems ws)) ∧
      TypesOf cfg ws ts ∧ StrictWindows ws) ↔ ∃ t ∈ ts, typeNumber t < 256) := by
  have h1 := C38_write_exact cfg 63 (.NSEC ⟨n, ts⟩) ⟨hn, ht⟩
  have h2 := C38_write_exact cfg 63 (.CSYNC ⟨s, f, ts⟩) ⟨hf, ht⟩
  constructor
  · refine ⟨?_, fun h => (C79_types_partial cfg n ts hn ht h).1⟩
    rintro ⟨ws, h3, h4, h5⟩
    refine h1.mp ⟨_, ⟨ws, rfl, h4, h5⟩, ?_⟩
    have h3 : RecordData.toBytes cfg (.NSEC ⟨n, ts⟩) = _ := h3
    rw [h3]; simp [Items.octets, Item.octets]
  · refine ⟨?_, fun h => (C79_types_partial cfg n ts hn ht h).2 s f hf⟩
    rintro ⟨ws, h3, h4, h5⟩
    refine h2.mp ⟨_, ⟨ws, rfl, h4, h5⟩, ?_⟩
    have h3 : RecordData.toBytes cfg (.CSYNC ⟨s, f, ts⟩) = _ := h3
    rw [h3]; simp [Items.octets, Item.octets, CsyncFlags.toU16]

/-- C79: an NSEC record that says that the name has a CAA record only. -/
example : TypesOk ⟨true, true, true⟩ [.CAA] ∧ written ⟨true, true, true⟩ (Nsec.withTypes [[97]] [.CAA]) =
      .ok [1, 97, 0, 0, 1, 0, 1, 1, 64] ∧ ¬ ∃ t ∈ [RecordType.CAA], typeNumber t < 256 :=
  ⟨⟨by simp, by simp [Readable]⟩, by decide +kernel, by simp [typeNumber]⟩

/-- C79: a record set is written with the name, type, class and time to live given to the constructor,
in front of every one of the given records. -/
theorem C79_set (cfg : Cfg) (search : Search) (n : Fqdn) (t : RecordType) (c : RecordClass) (ttl : UInt32)
    (r : RecordData) (hn : NameOk 63 n) (b out : Bytes) (hb : r.toBytes cfg = .ok b)
    (h : (RRSet.new n t c ttl [r]).toBytes cfg search = .ok out) :
    out = Items.octets [.name n, o16 (typeNumber t), o16 (classNumber c), .u32 ttl, o16 b.length, .rest b] := by
  have et : t.toU16 = UInt16.ofNat (typeNumber t) := by cases t <;> rfl
  have ec : c.toU16 = UInt16.ofNat (classNumber c) := by cases c <;> simp [RecordClass.toU16, classNumber]
  simp only [RRSet.toBytes, RRSet.new, RRSet.collect, Res.bind_ok, hb] at h
  obtain ⟨l, ⟨b', e, h1⟩, h2⟩ := h
  cases e
  simp only [RRSet.vecInsert, List.take_nil, List.drop_nil, List.nil_append] at h1
  cases h1; cases h2
  simp [Items.octets, Item.octets, RRSet.recordBytes, Fqdn.toBytes_eq (fun l hl => (hn l hl).1), u16be_eq,
    u32be_eq, et, ec, o16, lenU16]

/-- C79: a set with one record. -/
example : (RRSet.new [[97]] .A .IN 60 [.A ⟨0x01020304⟩]).toBytes ⟨true, true, true⟩ (fun _ _ => 0) =
    .ok [1, 97, 0, 0, 1, 0, 1, 0, 0, 0, 60, 0, 4, 1, 2, 3, 4] := by decide +kernel

/-- C79: keys made by the constructor have a valid protocol; a key read from the wire has one exactly if
its third octet is 3 (RFC 4034, section 2.1.2). -/
theorem C79_protocol (d : Bytes) (i j : Nat) (k : DnsKey) (h : DnsKey.parse d i = (.ok k, j)) :
    (k.validProtocol = true ↔ d[i + 2]? = some 3) ∧ d[i + 2]? = some k.getProtocol := by
  have hp : RecordData.parse ⟨true, true, true⟩ .DNSKEY d i = (.ok (.DNSKEY k), j) := by
    simp only [RecordData.parse, Parser.bind_ok, Parser.pure_ok]
    exact ⟨k, j, h, rfl, rfl⟩
  obtain ⟨-, its, ⟨fl, rfl, -, -⟩, h2⟩ := (RecordData.parse_ok (by trivial)).mp hp
  obtain ⟨k1, ⟨pre, post, rfl, rfl, rfl⟩, k2, ⟨pre2, post2, e2, e3, rfl⟩, -⟩ := h2
  have : (pre ++ octets16 fl ++ post)[pre.length + 2]? = some k.protocol := by
    rw [e2]
    have : pre.length + 2 = pre2.length := by rw [e3]; simp [octets16]
    simp [this]
  refine ⟨?_, this⟩
  rw [this]
  simp [DnsKey.validProtocol]

/-- C79: a key with a right and a key with a wrong protocol. -/
example : DnsKey.parse ([1, 0, 3, 15, 7] : Bytes) 0 = (.ok ⟨true, false, 3, .ED25519, [7]⟩, 5) ∧
    DnsKey.parse ([1, 0, 4, 15, 7] : Bytes) 0 = (.ok ⟨true, false, 4, .ED25519, [7]⟩, 5) := by
  constructor <;> decide +kernel

/-- The octets of a 16-bit number are zero exactly if it is zero. -/
theorem octets16_zero (v : UInt16) : octets16 v = [0, 0] ↔ v = 0 := by
  constructor
  · intro h
    have : octets16 v ++ [] = octets16 0 ++ [] := by rw [h]; rfl
    exact (octets16_inj this).1
  · rintro rfl; rfl

/-- C79: an SVCB record is in alias mode exactly if the priority, the first two octets, is 0 (RFC 9460,
section 2.4.1): for records that are written, and for records that are read. -/
theorem C79_mode (cfg : Cfg) (r : Svcb) :
    (∀ b, written cfg r = .ok b → (r.mode = .alias ↔ b.take 2 = [0, 0])) ∧
    ∀ d i j, Svcb.parse cfg d i = (.ok r, j) → (r.mode = .alias ↔ (d.drop i).take 2 = [0, 0]) := by
  have hm : r.mode = .alias ↔ r.priority = 0 := by
    unfold Svcb.mode; split <;> simp_all
  refine ⟨fun b h => ?_, fun d i j h => ?_⟩
  · have h' : (r.toBytes cfg) = .ok b := h
    simp only [Svcb.toBytes, Res.bind_ok] at h'
    obtain ⟨ps, -, e⟩ := h'
    cases e
    rw [hm, ← octets16_zero, u16be_eq]; rfl
  · simp only [Svcb.parse, Parser.bind_ok] at h
    obtain ⟨v, k, h1, n, k2, -, ps, k3, -, h2⟩ := h
    cases Parser.pure_ok.mp h2 |>.1
    obtain ⟨pre, post, rfl, rfl, -⟩ := extractU16_ok.mp h1
    rw [hm, ← octets16_zero]
    simp [octets16]

/-- C79: an NSEC record, an SVCB record in alias mode and a key, made by the constructors. -/
example : written ⟨true, true, true⟩ (Nsec.withTypes [[97]] [.A, .MX])
      = .ok [1, 97, 0, 0, 2, 0x40, 0x01] ∧
    written ⟨true, true, true⟩ (⟨0, [[97]], []⟩ : Svcb) = .ok [0, 0, 1, 97, 0] ∧
    Svcb.parse ⟨true, true, true⟩ [0, 0, 1, 97, 0] 0 = (.ok ⟨0, [[97]], []⟩, 5) ∧
    DnsKey.parse [1, 0, 3, 15, 7] 0 = (.ok ⟨true, false, 3, .ED25519, [7]⟩, 5) ∧
    (RRSet.new [[97]] .A .IN 5 [.A (A.new 1)]).toBytes ⟨true, true, true⟩ exSearch
      = .ok [1, 97, 0, 0, 1, 0, 1, 0, 0, 0, 5, 0, 4, 0, 0, 0, 1] := by decide +kernel

/-! ## C81 -/

theorem digit_index : ∀ n < 64, base64Alphabet.idxOf? (Base64.digit n) = some n := by decide +kernel

theorem digit_ne_pad : ∀ n < 64, Base64.digit n ≠ 0x3D := by decide +kernel

theorem digit_mem : ∀ n < 64, Base64.digit n ∈ base64Alphabet := by decide +kernel

theorem base64Value_digits (a b c d : Nat) (ha : a < 64) (hb : b < 64) (hc : c < 64) (hd : d < 64) :
    base64Value [Base64.digit a, Base64.digit b, Base64.digit c, Base64.digit d]
      = some (64 * (64 * (64 * a + b) + c) + d) := by
  simp [base64Value, digit_index, ha, hb, hc, hd]

theorem octets24_eq (a b c : UInt8) : octets24 (65536 * a.toNat + 256 * b.toNat + c.toNat) = [a, b, c] := by
  have ha := a.toNat_lt; have hb := b.toNat_lt; have hc := c.toNat_lt
  have h1 : (65536 * a.toNat + 256 * b.toNat + c.toNat) / 65536 = a.toNat := by omega
  have h2 : (65536 * a.toNat + 256 * b.toNat + c.toNat) / 256 % 256 = b.toNat := by omega
  have h3 : (65536 * a.toNat + 256 * b.toNat + c.toNat) % 256 = c.toNat := by omega
  rw [octets24, h1, h2, h3]
  simp

theorem unbase64_group (a b c d : Nat) (ha : a < 64) (hb : b < 64) (hc : c < 64) (hd : d < 64) (rest : Bytes) :
    unbase64 (Base64.digit a :: Base64.digit b :: Base64.digit c :: Base64.digit d :: rest)
      = (unbase64 rest).map (octets24 (64 * (64 * (64 * a + b) + c) + d) ++ ·) := by
  have hv := base64Value_digits a b c d ha hb hc hd
  rw [unbase64]
  · rw [hv]; cases unbase64 rest <;> rfl
  · intro h1 h2 _; exact digit_ne_pad c hc h1
  · intro h1 _; exact digit_ne_pad d hd h1

/-- Reading the text gives the octets back. -/
theorem encode_decode : ∀ b : Bytes, unbase64 (Base64.encode b) = some b
  | a :: b :: c :: rest => by
    have ha := a.toNat_lt; have hb := b.toNat_lt; have hc := c.toNat_lt
    rw [Base64.encode, unbase64_group _ _ _ _ (by omega) (by omega) (by omega) (by omega),
      encode_decode rest, Option.map_some]
    have e : 64 * (64 * (64 * (a.toNat / 4) + (a.toNat % 4 * 16 + b.toNat / 16))
        + (b.toNat % 16 * 4 + c.toNat / 64)) + c.toNat % 64
        = 65536 * a.toNat + 256 * b.toNat + c.toNat := by omega
    rw [e, octets24_eq]; rfl
  | [a, b] => by
    have ha := a.toNat_lt; have hb := b.toNat_lt
    have hv := base64Value_digits (a.toNat / 4) (a.toNat % 4 * 16 + b.toNat / 16) (b.toNat % 16 * 4) 0
      (by omega) (by omega) (by omega) (by omega)
    have e : 64 * (64 * (64 * (a.toNat / 4) + (a.toNat % 4 * 16 + b.toNat / 16)) + b.toNat % 16 * 4) + 0
        = 65536 * a.toNat + 256 * b.toNat + (0 : UInt8).toNat := by simp; omega
    have hd : Base64.digit 0 = 0x41 := rfl
    rw [e, hd] at hv
    rw [Base64.encode, unbase64, hv]
    · show (if _ then _ else _) = _
      rw [octets24_eq, if_pos (by simp; omega)]; rfl
    · intro h; exact digit_ne_pad _ (by omega) h
  | [a] => by
    have ha := a.toNat_lt
    have hv := base64Value_digits (a.toNat / 4) (a.toNat % 4 * 16) 0 0
      (by omega) (by omega) (by omega) (by omega)
    have e : 64 * (64 * (64 * (a.toNat / 4) + a.toNat % 4 * 16) + 0) + 0
        = 65536 * a.toNat + 256 * (0 : UInt8).toNat + (0 : UInt8).toNat := by simp; omega
    have hd : Base64.digit 0 = 0x41 := rfl
    rw [e, hd] at hv
    rw [Base64.encode, unbase64, hv]
    show (if _ then _ else _) = _
    rw [octets24_eq, if_pos (by simp)]; rfl
  | [] => rfl

theorem encode_shape : ∀ b : Bytes, (Base64.encode b).length = 4 * ((b.length + 2) / 3) ∧
    ∀ c ∈ Base64.encode b, c ∈ base64Alphabet ∨ c = 0x3D
  | a :: b :: c :: rest => by
    have ha := a.toNat_lt; have hb := b.toNat_lt; have hc := c.toNat_lt
    obtain ⟨h1, h2⟩ := encode_shape rest
    rw [Base64.encode]
    refine ⟨by simp only [List.length_cons, h1]; omega, ?_⟩
    simp only [List.mem_cons]
    rintro x (rfl | rfl | rfl | rfl | hx)
    · exact .inl (digit_mem _ (by omega))
    · exact .inl (digit_mem _ (by omega))
    · exact .inl (digit_mem _ (by omega))
    · exact .inl (digit_mem _ (by omega))
    · exact h2 x hx
  | [a, b] => by
    have ha := a.toNat_lt; have hb := b.toNat_lt
    rw [Base64.encode]
    refine ⟨by simp, ?_⟩
    simp only [List.mem_cons, List.not_mem_nil, or_false]
    rintro x (rfl | rfl | rfl | rfl)
    · exact .inl (digit_mem _ (by omega))
    · exact .inl (digit_mem _ (by omega))
    · exact .inl (digit_mem _ (by omega))
    · exact .inr rfl
  | [a] => by
    have ha := a.toNat_lt
    rw [Base64.encode]
    refine ⟨by simp, ?_⟩
    simp only [List.mem_cons, List.not_mem_nil, or_false]
    rintro x (rfl | rfl | rfl | rfl)
    · exact .inl (digit_mem _ (by omega))
    · exact .inl (digit_mem _ (by omega))
    · exact .inr rfl
    · exact .inr rfl
  | [] => ⟨rfl, by simp [Base64.encode]⟩

/-- C81: the texts of a public key and of a signature are base64 (RFC 4648): reading them gives the octets
back, they have four characters for each three octets begun, and no characters but those of the alphabet
and `=`. -/
theorem C81_base64 (k : DnsKey) (s : Rrsig) :
    unbase64 k.base64PublicKey = some k.publicKey ∧ unbase64 s.base64Signature = some s.signature ∧
    k.base64PublicKey.length = 4 * ((k.publicKey.length + 2) / 3) ∧
    s.base64Signature.length = 4 * ((s.signature.length + 2) / 3) ∧
    (∀ c ∈ k.base64PublicKey, c ∈ base64Alphabet ∨ c = 0x3D) ∧
    (∀ c ∈ s.base64Signature, c ∈ base64Alphabet ∨ c = 0x3D) :=
  ⟨encode_decode _, encode_decode _, (encode_shape _).1, (encode_shape _).1, (encode_shape _).2,
    (encode_shape _).2⟩

/-- C81: different keys and different signatures have different texts. -/
theorem C81_injective : (∀ k l : DnsKey, k.base64PublicKey = l.base64PublicKey → k.publicKey = l.publicKey) ∧
    ∀ r s : Rrsig, r.base64Signature = s.base64Signature → r.signature = s.signature := by
  have key : ∀ a b : Bytes, Base64.encode a = Base64.encode b → a = b := by
    intro a b h
    have h1 := encode_decode a
    rw [h, encode_decode] at h1
    exact (Option.some.inj h1).symm
  exact ⟨fun k l h => key _ _ h, fun r s h => key _ _ h⟩

/-- "foobar", "fooba" and "foob" (RFC 4648, section 10). -/
example : Base64.encode [0x66, 0x6F, 0x6F, 0x62, 0x61, 0x72] = [0x5A, 0x6D, 0x39, 0x76, 0x59, 0x6D, 0x46, 0x79] ∧
    Base64.encode [0x66, 0x6F, 0x6F, 0x62, 0x61] = [0x5A, 0x6D, 0x39, 0x76, 0x59, 0x6D, 0x45, 0x3D] ∧
    Base64.encode [0x66, 0x6F, 0x6F, 0x62] = [0x5A, 0x6D, 0x39, 0x76, 0x59, 0x67, 0x3D, 0x3D] := by decide +kernel

end Dns
