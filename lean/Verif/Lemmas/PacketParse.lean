import Verif.Lemmas.BitmapParse
import Verif.Spec.Message

/-! Parsers of record data, questions, records and packets against the specification. -/

set_option linter.unusedSimpArgs false

namespace Dns
open Spec Buf

/-- Record data of which the crate reads (and writes) the format of the RFC. -/
def Exact : RecordData → Prop
  | .SSHFP _ | .APL _ | .SVCB _ => False
  | .IPSECKEY r => r.gateway ≠ .none
  | _ => True

theorem RecordData.parse_type {cfg : Cfg} {t : RecordType} {d : Bytes} {i j : Nat} {r : RecordData}
    (h : RecordData.parse cfg t d i = (.ok r, j)) : r.type = t := by
  cases t <;>
  · simp only [RecordData.parse, Parser.bind_ok, Parser.pure_ok] at h
    obtain ⟨x, k, _, rfl, _⟩ := h
    rfl

theorem RecordData.parse_ok {cfg : Cfg} {t : RecordType} {d : Bytes} {i j : Nat} {r : RecordData}
    (hx : Exact r) :
    RecordData.parse cfg t d i = (.ok r, j) ↔
      r.type = t ∧ ∃ its, RData cfg r its ∧ Items.At Decodes d i its j := by
  have h1 : ∀ {α : Type} {p : Parser α} {f : α → RecordData} {x : α},
      (∀ a b, f a = f b → a = b) →
      ((p >>= fun a => pure (f a)) d i = (.ok (f x), j) ↔ p d i = (.ok x, j)) := by
    intro α p f x hf
    simp only [Parser.bind_ok, Parser.pure_ok]
    constructor
    · rintro ⟨a, k, h1, h2, rfl⟩; rw [← hf _ _ h2]; exact h1
    · intro h; exact ⟨x, j, h, rfl, rfl⟩
  by_cases ht : r.type = t
  · subst ht
    simp only [true_and]
    cases r
    case SSHFP => exact hx.elim
    case APL => exact hx.elim
    case SVCB => exact hx.elim
    all_goals
      simp only [RecordData.type, RecordData.parse]
      rw [h1 (by intro a b h; cases h; rfl)]
      simp only [RData, exists_eq_left]
    case A => exact A.parse_ok
    case NS => exact Ns.parse_ok
    case CNAME => exact Cname.parse_ok
    case SOA => exact Soa.parse_ok
    case NULL => exact Null.parse_ok
    case WKS => exact Wks.parse_ok
    case PTR => exact Ptr.parse_ok
    case HINFO => exact Hinfo.parse_ok
    case MINFO => exact Minfo.parse_ok
    case MX => exact Mx.parse_ok
    case TXT =>
      rw [Txt.parse_ok]
      constructor
      · rintro ⟨ws, h2, h3⟩; exact ⟨_, ⟨ws, rfl, h2⟩, h3⟩
      · rintro ⟨_, ⟨ws, rfl, h2⟩, h3⟩; exact ⟨ws, h2, h3⟩
    case AAAA => exact Aaaa.parse_ok
    case LOC => exact Loc.parse_ok
    case SRV => exact Srv.parse_ok
    case NAPTR =>
      rw [Naptr.parse_ok]
      constructor
      · rintro ⟨ws, h2, h3, h4⟩; exact ⟨_, ⟨ws, rfl, h2, h3⟩, h4⟩
      · rintro ⟨_, ⟨ws, rfl, h2, h3⟩, h4⟩; exact ⟨ws, h2, h3, h4⟩
    case OPT =>
      rw [Opt.parse_ok]
      constructor
      · rintro ⟨ws, h2, h3⟩; exact ⟨_, ⟨ws, rfl, h2⟩, h3⟩
      · rintro ⟨_, ⟨ws, rfl, h2⟩, h3⟩; exact ⟨ws, h2, h3⟩
    case DS => exact Ds.parse_ok
    case IPSECKEY => exact IpSecKey.parse_ok hx
    case RRSIG =>
      rw [Rrsig.parse_ok]
      constructor
      · rintro ⟨h2, h3⟩; exact ⟨_, ⟨h2, rfl⟩, h3⟩
      · rintro ⟨_, ⟨h2, rfl⟩, h3⟩; exact ⟨h2, h3⟩
    case NSEC =>
      rw [Nsec.parse_ok]
      constructor
      · rintro ⟨ws, h2, h3⟩; exact ⟨_, ⟨ws, rfl, h2⟩, h3⟩
      · rintro ⟨_, ⟨ws, rfl, h2⟩, h3⟩; exact ⟨ws, h2, h3⟩
    case DNSKEY => exact DnsKey.parse_ok
    case DHCID => exact Dhcid.parse_ok
    case TLSA => exact Tlsa.parse_ok
    case HIP =>
      rw [Hip.parse_ok]
      constructor
      · rintro ⟨h2, h3, h4, h5⟩; exact ⟨_, ⟨h2, h3, h4, rfl⟩, h5⟩
      · rintro ⟨_, ⟨h2, h3, h4, rfl⟩, h5⟩; exact ⟨h2, h3, h4, h5⟩
    case CDS => exact Ds.parse_ok
    case CDNSKEY => exact DnsKey.parse_ok
    case OPENPGPKEY => exact OpenPgpKey.parse_ok
    case CSYNC =>
      rw [Csync.parse_ok]
      constructor
      · rintro ⟨ws, h2, h3, h4⟩; exact ⟨_, ⟨ws, rfl, h2, h3⟩, h4⟩
      · rintro ⟨_, ⟨ws, rfl, h2, h3⟩, h4⟩; exact ⟨ws, h2, h3, h4⟩
    case EUI48 => exact Eui48.parse_ok
    case EUI64 => exact Eui64.parse_ok
    case TKEY =>
      rw [Tkey.parse_ok]
      constructor
      · rintro ⟨h2, h3, h4⟩; exact ⟨_, ⟨h2, h3, rfl⟩, h4⟩
      · rintro ⟨_, ⟨h2, h3, rfl⟩, h4⟩; exact ⟨h2, h3, h4⟩
    case TSIG => exact Tsig.parse_ok
    case URI => exact Uri.parse_ok
    case CAA =>
      rw [Caa.parse_ok]
      constructor
      · rintro ⟨f, t, h2, h3, h4, h5⟩; exact ⟨_, ⟨f, t, rfl, h2, h3, h4⟩, h5⟩
      · rintro ⟨_, ⟨f, t, rfl, h2, h3, h4⟩, h5⟩; exact ⟨f, t, h2, h3, h4, h5⟩
  · constructor
    · intro h; exact absurd (RecordData.parse_type h) ht
    · rintro ⟨h, _⟩; exact absurd h ht

/-! ## Classes and types -/

theorem mask_7fff (x : UInt16) : (x &&& 0x7FFF).toNat = x.toNat % 32768 := by
  rw [UInt16.toNat_and]
  exact Nat.and_two_pow_sub_one_eq_mod x.toNat 15

theorem topBit (x : UInt16) : x &&& 0x8000 > 0 ↔ 32768 ≤ x.toNat := by
  have h1 : (x &&& 0x8000).toNat = (x.toNat.testBit 15).toNat * 2 ^ 15 := by
    rw [UInt16.toNat_and]
    exact Nat.and_two_pow x.toNat 15
  have h2 : x.toNat.testBit 15 = decide (32768 ≤ x.toNat) := by
    have := x.toNat_lt
    rw [Nat.testBit_eq_decide_div_mod_eq]
    simp only [decide_eq_decide]
    omega
  rw [gt_iff_lt, UInt16.lt_iff_toNat_lt, h1, h2]
  by_cases h : 32768 ≤ x.toNat <;> simp [h]

theorem clearTop (x : UInt16) : x &&& ~~~0x8000 = x &&& 0x7FFF := rfl

theorem mask_idem (x : UInt16) : x &&& 0x7FFF &&& 0x7FFF = x &&& 0x7FFF := by
  apply UInt16.toNat_inj.mp
  rw [mask_7fff, mask_7fff]; omega

theorem RecordClass.ofU16_eq {v : UInt16} {c : RecordClass} :
    RecordClass.ofU16 v = c ↔ classOk c ∧ v.toNat % 32768 = classNumber c := by
  have hm := mask_7fff v
  constructor
  · intro h
    unfold RecordClass.ofU16 at h
    split at h
    all_goals try (rename_i h1; subst h; rw [h1] at hm; exact ⟨trivial, hm.symm⟩)
    rename_i h1 h2 h3 h4
    subst h
    refine ⟨⟨?_, ?_, ?_, ?_⟩, hm.symm⟩ <;>
      (intro h; first | exact h1 (UInt16.toNat_inj.mp h) | exact h2 (UInt16.toNat_inj.mp h) |
        exact h3 (UInt16.toNat_inj.mp h) | exact h4 (UInt16.toNat_inj.mp h))
  · rintro ⟨h1, h2⟩
    unfold RecordClass.ofU16
    have h3 : (v &&& 0x7FFF) = c.toU16 := by
      apply UInt16.toNat_inj.mp
      rw [hm, h2]
      cases c <;> rfl
    rw [h3]
    cases c with
    | udpPayloadSize n =>
      simp only [classOk] at h1
      simp only [RecordClass.toU16]
      split <;> simp_all
    | _ => rfl

theorem QClass.ofU16_ok {v : UInt16} {c : QClass} :
    QClass.ofU16 v = .ok c ↔ v.toNat % 32768 = qclassNumber c := by
  have hm := mask_7fff v
  constructor
  · intro h
    unfold QClass.ofU16 at h
    split at h
    all_goals first
      | (rename_i h1; cases h; rw [h1] at hm; exact hm.symm)
      | cases h
  · intro h2
    unfold QClass.ofU16
    have h3 : (v &&& 0x7FFF) = c.toU16 := by
      apply UInt16.toNat_inj.mp
      rw [hm, h2]
      cases c <;> rfl
    rw [h3]
    cases c <;> rfl

theorem QType.ofU16_ok {cfg : Cfg} {a : UInt16} {x : QType} :
    QType.ofU16 cfg a = .ok x ↔ QReadable cfg x ∧ a = UInt16.ofNat (qtypeNumber x) := by
  have hn : ∀ t, UInt16.ofNat (typeNumber t) ≠ 252 ∧ UInt16.ofNat (typeNumber t) ≠ 253 ∧
      UInt16.ofNat (typeNumber t) ≠ 254 ∧ UInt16.ofNat (typeNumber t) ≠ 255 := by
    intro t; cases t <;> decide
  constructor
  · intro h
    unfold QType.ofU16 at h
    split at h
    all_goals try (cases h; exact ⟨trivial, rfl⟩)
    split at h
    · rename_i t ht
      cases h
      exact RecordType.ofU16_ok.mp ht
    all_goals cases h
  · rintro ⟨h1, rfl⟩
    cases x with
    | rr t =>
      have h2 := (RecordType.ofU16_ok (x := t)).mpr ⟨h1, rfl⟩
      obtain ⟨h3, h4, h5, h6⟩ := hn t
      unfold QType.ofU16
      simp only [qtypeNumber]
      rw [h2]
    | _ => rfl

theorem ResourceRecord.parseClass_ok {cfg : Cfg} {d : Bytes} {i j : Nat} {c : RecordClass} {f : Bool} :
    ResourceRecord.parseClass cfg d i = (.ok (c, f), j) ↔ classOk c ∧
      ∃ v, ClassField cfg (classNumber c) f v ∧ Octets d i (octets16 v) j := by
  have hcl : ∀ v : UInt16, RecordClass.ofU16 (v &&& ~~~0x8000) = RecordClass.ofU16 v := by
    intro v
    unfold RecordClass.ofU16
    rw [clearTop, mask_idem]
  simp only [ResourceRecord.parseClass, Parser.bind_ok, extractU16_ok, ClassField]
  constructor
  · rintro ⟨v, k, h1, h2⟩
    cases hm : cfg.mdns
    · simp only [hm, Bool.false_eq_true, if_false, Parser.pure_ok, Prod.mk.injEq] at h2
      obtain ⟨⟨h3, rfl⟩, rfl⟩ := h2
      obtain ⟨h4, h5⟩ := RecordClass.ofU16_eq.mp h3
      exact ⟨h4, v, ⟨h5, rfl⟩, h1⟩
    · simp only [hm, if_true] at h2
      by_cases ht : v &&& 0x8000 > 0
      · rw [if_pos ht, Parser.pure_ok] at h2
        simp only [Prod.mk.injEq, hcl] at h2
        obtain ⟨⟨h3, rfl⟩, rfl⟩ := h2
        obtain ⟨h4, h5⟩ := RecordClass.ofU16_eq.mp h3
        exact ⟨h4, v, ⟨h5, by simp [(topBit v).mp ht]⟩, h1⟩
      · rw [if_neg ht, Parser.pure_ok] at h2
        simp only [Prod.mk.injEq] at h2
        obtain ⟨⟨h3, rfl⟩, rfl⟩ := h2
        obtain ⟨h4, h5⟩ := RecordClass.ofU16_eq.mp h3
        have := mt (topBit v).mpr ht
        exact ⟨h4, v, ⟨h5, by simpa using this⟩, h1⟩
  · rintro ⟨h4, v, ⟨h5, rfl⟩, h1⟩
    refine ⟨v, j, h1, ?_⟩
    have h3 := RecordClass.ofU16_eq.mpr ⟨h4, h5⟩
    cases hm : cfg.mdns
    · simp [hm, Parser.pure_ok, h3]
    · simp only [if_true, Bool.true_and]
      by_cases ht : v &&& 0x8000 > 0
      · rw [if_pos ht, Parser.pure_ok, hcl, h3]; simp [(topBit v).mp ht]
      · have := mt (topBit v).mpr ht
        rw [if_neg ht, Parser.pure_ok, h3]; simpa using this

theorem Question.parse_ok {cfg : Cfg} {d : Bytes} {i j : Nat} {q : Question} :
    Question.parse cfg d i = (.ok q, j) ↔ QuestionAt Decodes cfg d i q j := by
  have hcl : ∀ v : UInt16, QClass.ofU16 (v &&& ~~~0x8000) = QClass.ofU16 v := by
    intro v
    unfold QClass.ofU16
    rw [clearTop, mask_idem]
  obtain ⟨n, t, c, f⟩ := q
  simp only [Question.parse, Parser.bind_ok, Parser.lift_ok, extractU16_ok, QuestionAt, Items.At,
    Item.At, ClassField, QType.ofU16_ok, o16]
  constructor
  · rintro ⟨_, k1, h1, _, k2, h2, _, _, ⟨⟨h3, rfl⟩, rfl⟩, v, k4, h4, h5⟩
    cases hm : cfg.mdns
    · simp only [hm, Bool.false_eq_true, if_false] at h5
      simp only [Parser.bind_ok, Parser.lift_ok, Parser.pure_ok] at h5
      obtain ⟨_, _, ⟨h6, rfl⟩, h7, rfl⟩ := h5
      cases h7
      exact ⟨h3, v, ⟨QClass.ofU16_ok.mp h6, rfl⟩, k1, h1, k2, h2, _, h4, rfl⟩
    · simp only [hm, if_true] at h5
      by_cases ht : v &&& 0x8000 > 0
      · rw [if_pos ht, hcl] at h5
        simp only [Parser.bind_ok, Parser.lift_ok, Parser.pure_ok] at h5
        obtain ⟨_, _, ⟨h6, rfl⟩, h7, rfl⟩ := h5
        cases h7
        exact ⟨h3, v, ⟨QClass.ofU16_ok.mp h6, by simp [(topBit v).mp ht]⟩, k1, h1, k2, h2, _, h4, rfl⟩
      · rw [if_neg ht] at h5
        simp only [Parser.bind_ok, Parser.lift_ok, Parser.pure_ok] at h5
        obtain ⟨_, _, ⟨h6, rfl⟩, h7, rfl⟩ := h5
        cases h7
        have := mt (topBit v).mpr ht
        exact ⟨h3, v, ⟨QClass.ofU16_ok.mp h6, by simpa using this⟩, k1, h1, k2, h2, _, h4, rfl⟩
  · rintro ⟨h3, v, ⟨h6, rfl⟩, k1, h1, k2, h2, _, h4, rfl⟩
    refine ⟨_, k1, h1, _, k2, h2, _, _, ⟨⟨h3, rfl⟩, rfl⟩, v, _, h4, ?_⟩
    have h7 := QClass.ofU16_ok.mpr h6
    cases hm : cfg.mdns
    · simp [hm, Parser.bind_ok, Parser.map_ok, Parser.lift_ok, h7]
    · simp only [if_true, Bool.true_and]
      by_cases ht : v &&& 0x8000 > 0
      · rw [if_pos ht, hcl]; simp [Parser.map_ok, Parser.lift_ok, h7, (topBit v).mp ht]
      · have := mt (topBit v).mpr ht
        rw [if_neg ht]; simpa [Parser.map_ok, Parser.lift_ok, h7] using this

theorem withSubBuffer_ok {α : Type} {len : Nat} {p : Parser α} {d : Bytes} {i j : Nat} {x : α × Nat} :
    withSubBuffer len p d i = (.ok x, j) ↔ len + i ≤ d.length ∧ j = i ∧
      p (d.take (len + i)) i = (.ok x.1, x.2) := by
  obtain ⟨a, e⟩ := x
  unfold withSubBuffer
  split
  · simp only [Prod.mk.injEq, reduceCtorEq, false_and, false_iff]; omega
  · rename_i h
    rcases hp : p (List.take (len + i) d) i with ⟨r, k⟩
    cases r
    · simp only [Prod.mk.injEq, Res.ok.injEq]
      constructor
      · rintro ⟨⟨rfl, rfl⟩, rfl⟩; exact ⟨by omega, rfl, rfl, rfl⟩
      · rintro ⟨_, rfl, rfl, rfl⟩; exact ⟨⟨rfl, rfl⟩, rfl⟩
    all_goals simp

theorem advance_ok {len : Nat} {d : Bytes} {i j : Nat} :
    advance len d i = (.ok (), j) ↔ len + i ≤ d.length ∧ j = len + i := by
  unfold advance
  split
  · simp; omega
  · simp; constructor
    · rintro rfl; exact ⟨by omega, rfl⟩
    · rintro ⟨_, rfl⟩; rfl

/-- What `RecordData.parse` reads. -/
def ParsedData (cfg : Cfg) (t : RecordType) (d : Bytes) (k : Nat) (r : RecordData) : Prop :=
  ∃ e, RecordData.parse cfg t d k = (.ok r, e)

theorem ResourceRecord.parse_ok {cfg : Cfg} {d : Bytes} {i j : Nat} {r : ResourceRecord} :
    ResourceRecord.parse cfg d i = (.ok r, j) ↔ RecordAtWith (ParsedData cfg) Decodes cfg d i r j := by
  obtain ⟨n, t, f, c, ttl, rd⟩ := r
  simp only [ResourceRecord.parse, Parser.bind_ok, Parser.lift_ok, Parser.pure_ok, extractU16_ok,
    extractU32_ok, RecordType.ofU16_ok, RecordAtWith, ParsedData, recordHead, Items.At, Item.At, o16,
    withSubBuffer_ok]
  constructor
  · rintro ⟨_, k1, h1, _, k2, h2, _, _, ⟨⟨h3, rfl⟩, rfl⟩, ⟨c', f'⟩, k3, h4, _, k4, h5, len, k5, h6,
      ⟨rd', e⟩, _, ⟨h7, rfl, h8⟩, ⟨⟩, k7, h9, h10, rfl⟩
    cases h10
    obtain ⟨h11, rfl⟩ := advance_ok.mp h9
    obtain ⟨h12, v, h13, h14⟩ := ResourceRecord.parseClass_ok.mp h4
    exact ⟨h3, h12, v, len, _, h13, ⟨k1, h1, k2, h2, k3, h14, k4, h5, _, h6, rfl⟩, Nat.add_comm _ _, h11, e, h8⟩
  · rintro ⟨h3, h12, v, len, k, h13, ⟨k1, h1, k2, h2, k3, h14, k4, h5, _, h6, rfl⟩, rfl, h11, e, h8⟩
    rw [Nat.add_comm] at h11 h8 ⊢
    exact ⟨_, k1, h1, _, k2, h2, t, _, ⟨⟨h3, rfl⟩, rfl⟩, (c, f), k3,
      ResourceRecord.parseClass_ok.mpr ⟨h12, v, h13, h14⟩, _, k4, h5, len, _, h6,
      (rd, e), _, ⟨h11, rfl, h8⟩, (), _, advance_ok.mpr ⟨h11, rfl⟩, rfl, rfl⟩

theorem Header.parse_ok {d : Bytes} {i j : Nat} {h : Header} {N : NameRel} :
    Header.parse d i = (.ok h, j) ↔ Items.At N d i (headerItems h) j := by
  obtain ⟨id, ⟨hi, lo⟩, q, an, au, ad⟩ := h
  simp only [Header.parse, Parser.bind_ok, Parser.pure_ok, extractU16_ok, extractBytes_ok, headerItems,
    Items.At, Item.At, Header.mk.injEq, Flags.mk.injEq]
  constructor
  · rintro ⟨_, k1, h1, b, k2, ⟨hl, h2⟩, _, k3, h3, _, k4, h4, _, k5, h5, _, k6, h6,
      ⟨rfl, ⟨rfl, rfl⟩, rfl, rfl, rfl, rfl⟩, rfl⟩
    obtain ⟨x, y, rfl⟩ := List.length_eq_two.mp hl
    obtain ⟨m, h7, h8⟩ := octets_append.mp (show Octets d k1 ([x] ++ [y]) k2 from h2)
    exact ⟨k1, h1, m, h7, k2, h8, k3, h3, k4, h4, k5, h5, k6, h6, rfl⟩
  · rintro ⟨k1, h1, m, h7, k2, h8, k3, h3, k4, h4, k5, h5, k6, h6, rfl⟩
    exact ⟨_, k1, h1, [hi] ++ [lo], k2, ⟨rfl, octets_append.mpr ⟨m, h7, h8⟩⟩, _, k3, h3, _, k4, h4, _, k5, h5, _,
      k6, h6, ⟨rfl, ⟨rfl, rfl⟩, rfl, rfl, rfl, rfl⟩, rfl⟩

theorem seq_listAt {α : Type} {p : Parser α} {d : Bytes} {R : Nat → α → Nat → Prop}
    (h : ∀ i x j, p d i = (.ok x, j) ↔ R i x j) {i j : Nat} {xs : List α} :
    Seq p d i xs j ↔ ListAt R i xs j := by
  induction xs generalizing i with
  | nil => rfl
  | cons x xs ih => simp only [Seq, ListAt, h, ih]

theorem Packet.parseBuf_ok {cfg : Cfg} {d : Bytes} {e : Nat} {p : Packet} :
    Packet.parseBuf cfg d 0 = (.ok p, e) ↔ MessageAtWith (ParsedData cfg) Decodes cfg d p e := by
  obtain ⟨h, q, an, au, ad⟩ := p
  simp only [Packet.parseBuf, Parser.bind_ok, Parser.pure_ok, Header.parse_ok (N := Decodes), seq_times,
    seq_listAt (fun i x j => Question.parse_ok), seq_listAt (fun i x j => ResourceRecord.parse_ok),
    MessageAtWith]
  constructor
  · rintro ⟨h, i1, h1, q, i2, ⟨h2, h3⟩, an, i3, ⟨h4, h5⟩, au, i4, ⟨h6, h7⟩, ad, i5, ⟨h8, h9⟩, h10, rfl⟩
    cases h10
    exact ⟨h2, h4, h6, h8, i1, i2, i3, i4, h1, h3, h5, h7, h9⟩
  · rintro ⟨h2, h4, h6, h8, i1, i2, i3, i4, h1, h3, h5, h7, h9⟩
    exact ⟨h, i1, h1, q, i2, ⟨h2, h3⟩, an, i3, ⟨h4, h5⟩, au, i4, ⟨h6, h7⟩, ad, e, ⟨h8, h9⟩, rfl, rfl⟩

theorem Packet.parse_ok {cfg : Cfg} {d : Bytes} {p : Packet} :
    Packet.parse cfg d = .ok p ↔ ∃ e, MessageAtWith (ParsedData cfg) Decodes cfg d p e := by
  simp only [← Packet.parseBuf_ok, Packet.parse]
  constructor
  · intro h; exact ⟨(Packet.parseBuf cfg d 0).2, Prod.ext h rfl⟩
  · rintro ⟨e, h⟩; rw [h]

end Dns
