import Verif.Spec.Edns
import Verif.Props.Sizes
import Verif.Props.Svcb
import Verif.Lemmas.Distinct
import Verif.Lemmas.Fails
import Verif.Props.Truncated

/-! C126: what is told with EDNS arrives, and is written as RFC 6891 says. -/

namespace Dns
open Spec Buf

theorem optionsOctets_eq (os : List (UInt16 × Bytes)) : optionsOctets os = Items.octets (optionItems os) := by
  induction os with
  | nil => rfl
  | cons o os ih => obtain ⟨c, v⟩ := o; rw [options_cons, optionsOctets, ih]; simp

theorem option_lt {os : List (UInt16 × Bytes)} (h : (optionsOctets os).length < 65536) :
    ∀ o ∈ os, o.2.length < 65536 := by
  intro o ho
  rw [optionsOctets_eq, options_data] at h
  have := List.le_sum_of_mem (List.mem_map_of_mem (f := fun x : UInt16 × Bytes => x.2.length) ho)
  omega

/-- The time to live whose octets are the response code, the version and the flags. -/
def Spec.Edns.ttl (e : Edns) : UInt32 :=
  UInt32.ofNat (e.extRcode.toNat * 16777216 + e.version.toNat * 65536 + e.flags.toNat)

theorem Spec.Edns.flags_toNat {e : Edns} (h : e.z < 32768) :
    e.flags.toNat = (if e.dnssecOk then 32768 else 0) + e.z := by
  unfold Edns.flags
  rw [UInt16.toNat_ofNat']
  split <;> omega

theorem Spec.Edns.ttl_toNat (e : Edns) :
    e.ttl.toNat = e.extRcode.toNat * 16777216 + e.version.toNat * 65536 + e.flags.toNat := by
  unfold Edns.ttl
  rw [UInt32.toNat_ofNat']
  have := e.extRcode.toNat_lt
  have := e.version.toNat_lt
  have := e.flags.toNat_lt
  omega

theorem Spec.Edns.ttl_octets (e : Edns) : octets32 e.ttl = [e.extRcode, e.version] ++ octets16 e.flags := by
  have h := e.ttl_toNat
  have := e.extRcode.toNat_lt
  have := e.version.toNat_lt
  have := e.flags.toNat_lt
  simp only [octets32, octets16, List.cons_append, List.nil_append, List.cons.injEq, and_true, ← UInt8.toNat_inj]
  simp only [UInt32.toNat_toUInt8, UInt16.toNat_toUInt8, UInt32.toNat_shiftRight, UInt16.toNat_shiftRight, h,
    Nat.shiftRight_eq_div_pow]
  refine ⟨?_, ?_, ?_, ?_⟩ <;> simp <;> omega

/-- C126: the OPT record of RFC 6891, wherever it stands in a message, is read; the name is the root; the response code, the
version, the flag DO and the other flags are in the time to live; each option has the value it has last; and the
class is the payload size modulo 32768 (see `C126_payload_exact`). -/
theorem C126_read_partial (cfg : Cfg) (e : Edns) (pre post : Bytes) (he : e.Fits) :
    ∃ (r : ResourceRecord) (o : Opt),
      ResourceRecord.parse cfg (pre ++ e.octets ++ post) pre.length = (.ok r, (pre ++ e.octets).length) ∧
      r.name = [] ∧ r.type = .OPT ∧ r.rdata = .OPT o ∧
      classNumber r.class_ = e.payload.toNat % 32768 ∧
      r.cacheFlush = (cfg.mdns && decide (32768 ≤ e.payload.toNat)) ∧
      r.ttl.toNat = e.extRcode.toNat * 2 ^ 24 + e.version.toNat * 2 ^ 16 +
        (if e.dnssecOk then 2 ^ 15 else 0) + e.z ∧
      ∀ k v, (k, v) ∈ o.options ↔ e.options.reverse.lookup k = some v := by
  have hdata : (Items.octets (optionItems e.options ++ [.eof])) = optionsOctets e.options := by
    rw [octets_eof, optionsOctets_eq]
  obtain ⟨hc1, hc2⟩ := (RecordClass.ofU16_eq (v := e.payload) (c := RecordClass.ofU16 e.payload)).mp rfl
  have hlen : (UInt16.ofNat (optionsOctets e.options).length).toNat = (optionsOctets e.options).length :=
    UInt16.toNat_ofNat_of_lt' (by simpa [UInt16.size] using he.2)
  let r : ResourceRecord := ⟨[], .OPT, cfg.mdns && decide (32768 ≤ e.payload.toNat), RecordClass.ofU16 e.payload, e.ttl,
    .OPT ⟨mapOf e.options⟩⟩
  let head := recordHead r e.payload (UInt16.ofNat (optionsOctets e.options).length)
  have hoct : e.octets = Items.octets head ++ optionsOctets e.options := by
    simp [head, recordHead, Items.octets, Item.octets, r, Edns.octets, e.ttl_octets, o16, nameOctets, typeNumber]
  have h1 : Items.At Decodes (pre ++ Items.octets head) pre.length head (pre ++ Items.octets head).length :=
    items_decode (Nat.le_refl _) head pre (by simp [head, recordHead, Item.Fits, o16, r, Good])
      (by simp [head, recordHead, Item.Open, o16])
  have h2 := items_extend decodes_extends (by simp [head, recordHead, Item.Open, o16]) h1
    (optionsOctets e.options ++ post)
  have h3 := items_decode (Nat.le_refl 191) (optionItems e.options ++ [.eof]) (pre ++ Items.octets head) (by
      apply fits_eof
      intro it hit
      obtain ⟨s, hs, hm⟩ := List.mem_flatMap.mp hit
      simp only [List.mem_cons, List.not_mem_nil, or_false] at hm
      rcases hm with rfl | rfl
      · trivial
      · exact option_lt he.2 s hs) (by
      rw [List.dropLast_concat]
      intro it hit
      obtain ⟨s, hs, hm⟩ := List.mem_flatMap.mp hit
      simp only [List.mem_cons, List.not_mem_nil, or_false] at hm
      rcases hm with rfl | rfl <;> trivial)
  rw [hdata] at h3
  have h4 : RecordData.parse cfg .OPT (pre ++ Items.octets head ++ optionsOctets e.options) (pre ++ Items.octets head).length
      = (.ok (.OPT ⟨mapOf e.options⟩), (pre ++ Items.octets head ++ optionsOctets e.options).length) :=
    RecordData.parse_complete (r := .OPT ⟨mapOf e.options⟩) (by simp) (by simp) (by simp) ⟨e.options, rfl, rfl⟩ h3
  refine ⟨r, ⟨mapOf e.options⟩, ?_, rfl, rfl, rfl, hc2.symm, rfl, ?_, fun k v => mem_mapOf⟩
  · apply ResourceRecord.parse_ok.mpr
    have hall : pre ++ e.octets ++ post = pre ++ Items.octets head ++ (optionsOctets e.options ++ post) := by
      rw [hoct]; simp
    have hend : pre ++ e.octets = pre ++ Items.octets head ++ optionsOctets e.options := by rw [hoct]; simp
    refine ⟨by simp [Readable, r, dnssecTypes], hc1, e.payload, UInt16.ofNat (optionsOctets e.options).length, (pre ++ Items.octets head).length, ⟨hc2, rfl⟩, ?_, ?_, ?_, ?_⟩
    · rw [hall]; exact h2
    · rw [hlen, hend]; simp [Nat.add_assoc]
    · simp
    · rw [List.take_left, hend]; exact ⟨_, h4⟩
  · rw [show r.ttl = e.ttl from rfl, e.ttl_toNat, Edns.flags_toNat he.1]
    split <;> omega
/-- What a resolver tells that takes 1232 octets and signed answers, with a cookie. -/
def exEdnsRecord : Edns := ⟨1232, 0, 0, true, 0, [(10, [1, 2, 3, 4, 5, 6, 7, 8])]⟩
theorem exEdnsRecord_fits : exEdnsRecord.Fits := ⟨by decide, by decide +kernel⟩
example (cfg : Cfg) (pre post : Bytes) := C126_read_partial cfg exEdnsRecord pre post exEdnsRecord_fits

/-- C126, exactly: the payload size told by the sender is the class of the record that is read if and only if it is less than
32768 and not one of the numbers of the four classes. -/
theorem C126_payload_exact (cfg : Cfg) (e : Edns) (pre post : Bytes) (he : e.Fits) :
    (∃ r, ResourceRecord.parse cfg (pre ++ e.octets ++ post) pre.length = (.ok r, (pre ++ e.octets).length) ∧
        r.class_ = .udpPayloadSize e.payload) ↔
      e.payload.toNat < 32768 ∧ e.payload ≠ 1 ∧ e.payload ≠ 2 ∧ e.payload ≠ 3 ∧ e.payload ≠ 4 := by
  obtain ⟨r, o, h1, _, _, _, h2, _⟩ := C126_read_partial cfg e pre post he
  have hr := ResourceRecord.parse_ok.mp h1
  have hcl : classOk r.class_ := hr.2.1
  have hne : ∀ n : UInt16, e.payload ≠ n ↔ e.payload.toNat ≠ n.toNat := fun n => by rw [ne_eq, ne_eq, UInt16.toNat_inj]
  have e1 : (1 : UInt16).toNat = 1 := rfl
  have e2 : (2 : UInt16).toNat = 2 := rfl
  have e3 : (3 : UInt16).toNat = 3 := rfl
  have e4 : (4 : UInt16).toNat = 4 := rfl
  rw [hne, hne, hne, hne, e1, e2, e3, e4]
  constructor
  · rintro ⟨r', h3, h4⟩
    rw [h1] at h3
    obtain rfl : r = r' := by simpa using h3
    rw [h4] at h2 hcl
    simp only [classNumber, classOk] at h2 hcl
    have := e.payload.toNat_lt
    omega
  · rintro ⟨h5, h6, h7, h8, h9⟩
    refine ⟨r, h1, ?_⟩
    rw [Nat.mod_eq_of_lt h5] at h2
    cases hc : r.class_ with
    | udpPayloadSize n =>
      rw [hc] at h2
      simp only [classNumber] at h2
      rw [UInt16.toNat_inj.mp h2]
    | _ => rw [hc] at h2; simp only [classNumber] at h2; omega
example (cfg : Cfg) (pre post : Bytes) :
    ∃ r, ResourceRecord.parse cfg (pre ++ exEdnsRecord.octets ++ post) pre.length = (.ok r, (pre ++ exEdnsRecord.octets).length) ∧
      r.class_ = .udpPayloadSize 1232 :=
  (C126_payload_exact cfg exEdnsRecord pre post exEdnsRecord_fits).mpr (by decide)

/-- C126, counterexample: the size 65494 that resolvers in use tell is read as 32726. -/
theorem C126_counterexample :
    (ResourceRecord.parse ⟨true, false, true⟩ (Edns.octets ⟨65494, 0, 0, false, 0, []⟩) 0).1 =
      .ok ⟨[], .OPT, false, .udpPayloadSize 32726, 0, .OPT ⟨[]⟩⟩ := by decide +kernel

/-- C126: the writer of packets (`to_bytes_compressed()`) writes an OPT record as RFC 6891 says, wherever it stands and
whatever names were written before: the class is the payload size, the time to live has the response code, the version and
the flags. -/
theorem C126_written (cfg : Cfg) (h : Hash) (names : Names) (off : Nat) (e : Edns) (he : e.Fits) (ttl : UInt32)
    (ht : ttl.toNat = e.extRcode.toNat * 2 ^ 24 + e.version.toNat * 2 ^ 16 + (if e.dnssecOk then 2 ^ 15 else 0) + e.z) :
    ResourceRecord.toBytesCompressed cfg h ⟨[], .OPT, false, .udpPayloadSize e.payload, ttl, .OPT ⟨e.options⟩⟩ names off =
      .ok (e.octets, names) := by
  have htt : ttl = e.ttl := by
    apply UInt32.toNat_inj.mp
    rw [ht, e.ttl_toNat, Edns.flags_toNat he.1]
    split <;> omega
  have hb : Opt.toBytes ⟨e.options⟩ = optionsOctets e.options := by
    rw [Opt.toBytes, foldl_options, optionsOctets_eq]; simp
  subst htt
  simp only [ResourceRecord.toBytesCompressed, ResourceRecord.headCompressed, RecordData.toBytesCompressed,
    Fqdn.toBytesCompressed, hb, ResourceRecord.classBits, RecordClass.toU16, u16be_eq, u32be_eq, e.ttl_octets, bind, Res.bind,
    pure, lenU16]
  simp [Edns.octets]
  rfl
example (cfg : Cfg) (h : Hash) (names : Names) (off : Nat) :
    ResourceRecord.toBytesCompressed cfg h ⟨[], .OPT, false, .udpPayloadSize 1232, 32768, .OPT ⟨exEdnsRecord.options⟩⟩ names off =
      .ok (exEdnsRecord.octets, names) :=
  C126_written cfg h names off exEdnsRecord exEdnsRecord_fits 32768 (by decide)

theorem opt_toBytes (os : List (UInt16 × Bytes)) : Opt.toBytes ⟨os⟩ = optionsOctets os := by
  rw [Opt.toBytes, foldl_options, optionsOctets_eq]; simp

/-- C126: `to_bytes()` of the same record never writes the octets of RFC 6891. -/
theorem C126_plain (cfg : Cfg) (e : Edns) (he : e.Fits) (flush : Bool) (c : RecordClass) (ttl : UInt32) :
    ResourceRecord.toBytes cfg ⟨[], .OPT, flush, c, ttl, .OPT ⟨e.options⟩⟩ ≠ .ok e.octets := by
  intro h
  obtain ⟨l, h1, h2⟩ := C35_exact cfg ⟨[], .OPT, flush, c, ttl, .OPT ⟨e.options⟩⟩ (optionsOctets e.options)
    (congrArg Res.ok (opt_toBytes _)) trivial he.2
  rw [h] at h1
  have h1 := Res.ok.inj h1
  rw [Edns.octets] at h1
  rw [List.append_assoc _ (octets16 _) (optionsOctets _), List.append_assoc _ (octets16 _) (optionsOctets _)] at h1
  have h3 := (List.append_inj' h1 (by simp [octets16_length])).2
  have h4 := (octets16_inj h3).1
  have h5 := h2.mp (by
    rw [← h4]
    exact UInt16.toNat_ofNat_of_lt' (by simpa [UInt16.size] using he.2))
  exact h5.1 rfl
example (cfg : Cfg) (c : RecordClass) (ttl : UInt32) :
    ResourceRecord.toBytes cfg ⟨[], .OPT, false, c, ttl, .OPT ⟨exEdnsRecord.options⟩⟩ ≠ .ok exEdnsRecord.octets :=
  C126_plain cfg exEdnsRecord exEdnsRecord_fits false c ttl

theorem data_read {cfg : Cfg} {d : Bytes} {i j k : Nat} {r r' : ResourceRecord} {v l : UInt16}
    (h : Items.At Decodes d i (recordHead r v l) k) (hr : ResourceRecord.parse cfg d i = (.ok r', j)) :
    r'.type = r.type ∧ j = k + l.toNat ∧ j ≤ d.length ∧ ParsedData cfg r.type (d.take j) k r'.rdata := by
  obtain ⟨_, _, v', l', k', _, h', h5, h6, h7⟩ := ResourceRecord.parse_ok.mp hr
  simp only [recordHead, Items.At, Item.At, o16] at h h'
  obtain ⟨a1, n1, a2, n2, a3, n3, a4, n4, a5, n5, rfl⟩ := h
  obtain ⟨b1, m1, b2, m2, b3, m3, b4, m4, b5, m5, rfl⟩ := h'
  obtain ⟨_, rfl⟩ := decodes_fun n1 m1
  obtain ⟨t1, rfl⟩ := octets_unique n2 m2 rfl
  obtain ⟨_, rfl⟩ := octets_unique n3 m3 rfl
  obtain ⟨_, rfl⟩ := octets_unique n4 m4 rfl
  obtain ⟨t2, rfl⟩ := octets_unique n5 m5 rfl
  have t3 := (octets16_inj (congrArg (· ++ []) t1)).1
  have t4 := (octets16_inj (congrArg (· ++ []) t2)).1
  have ht : r.type = r'.type := by
    have h1 : ∀ t, typeNumber t < 65536 := by intro t; cases t <;> decide
    have := congrArg UInt16.toNat t3
    rw [UInt16.toNat_ofNat_of_lt' (h1 _), UInt16.toNat_ofNat_of_lt' (h1 _)] at this
    exact typeNumber_inj this
  subst t4
  exact ⟨ht.symm, h5, h6, by rw [ht]; exact h7⟩

/-- C126: an OPT record with no option or one option that was written with `to_bytes()` is refused, wherever it stands in a
message and whatever follows. -/
theorem C126_plain_refused (cfg : Cfg) (flush : Bool) (c : RecordClass) (ttl : UInt32) (os : List (UInt16 × Bytes))
    (ho : os.length ≤ 1) (hl : (optionsOctets os).length < 65536) (b pre post : Bytes)
    (hb : ResourceRecord.toBytes cfg ⟨[], .OPT, flush, c, ttl, .OPT ⟨os⟩⟩ = .ok b) (r : ResourceRecord) (j : Nat) :
    ResourceRecord.parse cfg (pre ++ b ++ post) pre.length ≠ (.ok r, j) := by
  intro hr
  let x : ResourceRecord := ⟨[], .OPT, flush, c, ttl, .OPT ⟨os⟩⟩
  have hd : x.rdata.toBytes cfg = .ok (optionsOctets os) := congrArg Res.ok (opt_toBytes _)
  obtain ⟨n, h1, h2⟩ := RecordData.size (cfg := cfg) (r := x.rdata) trivial hd
  let head := Items.octets (recordHead x (x.classBits cfg) (UInt16.ofNat n))
  have hb' : x.toBytes cfg = .ok (head ++ optionsOctets os) := by
    unfold ResourceRecord.toBytes
    rw [h1, hd]
    simp [bind, Res.bind, pure, head, recordHead, Items.octets, Item.octets, o16, x, Fqdn.toBytes, nameOctets, Fqdn.labelBytes,
      RecordType.toU16_eq, u16be_eq, u32be_eq, lenU16]
  obtain rfl : head ++ optionsOctets os = b := Res.ok.inj (hb'.symm.trans hb)
  have h3 : Items.At Decodes (pre ++ head) pre.length (recordHead x (x.classBits cfg) (UInt16.ofNat n))
      (pre ++ head).length :=
    items_decode (Nat.le_refl 191) _ pre (by simp [recordHead, Item.Fits, o16, x, Good])
      (by simp [recordHead, Item.Open, o16])
  have h4 := items_extend decodes_extends (by simp [Item.Open, o16, recordHead]) h3 (optionsOctets os ++ post)
  rw [show pre ++ (head ++ optionsOctets os) ++ post = pre ++ head ++ (optionsOctets os ++ post) by simp] at hr
  obtain ⟨-, h5, h6, k, h7⟩ := data_read h4 hr
  have hx : x.type = .OPT := rfl
  rw [hx] at h7
  simp only [RecordData.parse, Parser.bind_ok, Parser.pure_ok] at h7
  obtain ⟨o, k', h8, -, rfl⟩ := h7
  obtain ⟨kvs, -, h9⟩ := Opt.parse_ok.mp h8
  rw [h5, take_behind] at h9
  have hT : ((optionsOctets os ++ post).take (UInt16.ofNat n).toNat).length = (UInt16.ofNat n).toNat := by
    rw [List.length_take]
    rw [h5, List.length_append (as := pre ++ head)] at h6
    omega
  obtain ⟨m, h10, h11⟩ := itemsAt_append.mp h9
  obtain ⟨_, ⟨h11, h12⟩, -⟩ := h11
  rw [List.length_append, hT] at h11
  have hn : (UInt16.ofNat n).toNat = n % 65536 := rfl
  rw [hn] at h11
  simp only [x, sizeError] at h2
  cases kvs with
  | nil =>
    have h10 : _ = m := h10
    cases os with
    | nil => simp [optionsOctets] at h2; omega
    | cons p os =>
      obtain rfl : os = [] := List.length_eq_zero_iff.mp (by simpa using ho)
      obtain ⟨p1, p2⟩ := p
      simp [optionsOctets, octets16] at h2 hl
      omega
  | cons kv kvs =>
    obtain ⟨m1, g1, m2, ⟨g2, g3⟩, g4⟩ := h10
    have e1 := g1.end_eq
    have e2 := g3.end_eq
    have e3 := g3.le
    rw [List.length_append (as := pre ++ head), hT, hn] at e3
    rw [octets16_length] at e1
    rw [List.length_append, octets16_length] at e2
    cases os with
    | nil => simp [optionsOctets] at h2; omega
    | cons p os =>
      obtain rfl : os = [] := List.length_eq_zero_iff.mp (by simpa using ho)
      obtain ⟨p1, p2⟩ := p
      simp [optionsOctets, octets16] at h2 hl
      have hT4 : (optionsOctets [(p1, p2)] ++ post).take (UInt16.ofNat n).toNat =
          octets16 p1 ++ octets16 (UInt16.ofNat p2.length) ++ (p2 ++ post).take (n % 65536 - 4) := by
        rw [hn, show n % 65536 = (octets16 p1 ++ octets16 (UInt16.ofNat p2.length)).length + (n % 65536 - 4) by
          simp only [List.length_append, octets16_length]; omega,
          show optionsOctets [(p1, p2)] ++ post = octets16 p1 ++ octets16 (UInt16.ofNat p2.length) ++ (p2 ++ post) by
            simp [optionsOctets], take_behind]
        simp [octets16_length]
      rw [hT4] at g3
      have g5 : Octets (pre ++ head ++ (octets16 p1 ++ octets16 (UInt16.ofNat p2.length) ++
          (p2 ++ post).take (n % 65536 - 4))) m1 (octets16 (UInt16.ofNat p2.length)) (m1 + 2) :=
        ⟨pre ++ head ++ octets16 p1, (p2 ++ post).take (n % 65536 - 4), by simp, by
          rw [e1, List.length_append (as := pre ++ head)]; rfl, rfl⟩
      have g6 := (octets_unique (octets_append.mp g3).choose_spec.1 g5 rfl).1
      have g7 := congrArg UInt16.toNat (octets16_inj (congrArg (· ++ []) g6)).1
      rw [UInt16.toNat_ofNat_of_lt' (by simpa [UInt16.size] using g2),
        UInt16.toNat_ofNat_of_lt' (by simp [UInt16.size]; omega)] at g7
      omega
example (pre post : Bytes) (r : ResourceRecord) (j : Nat) :
    ResourceRecord.parse ⟨true, true, true⟩ (pre ++ [0, 0, 41, 4, 208, 0, 0, 0, 0, 0, 2] ++ post) pre.length ≠ (.ok r, j) :=
  C126_plain_refused ⟨true, true, true⟩ false (.udpPayloadSize 1232) 0 [] (by decide) (by decide) _ pre post
    (by decide +kernel) r j

/-- C126: a query with EDNS (questions, and in the additional section first an OPT record with no option or one option) that
is written with `to_bytes()` cannot be read. -/
theorem C126_plain_query (cfg : Cfg) (p : Packet) (hp : PacketOk cfg 191 p) (flush : Bool) (c : RecordClass) (ttl : UInt32)
    (os : List (UInt16 × Bytes)) (ho : os.length ≤ 1) (more : List ResourceRecord) (h1 : p.answers = [])
    (h2 : p.authorities = []) (h3 : p.additional = ⟨[], .OPT, flush, c, ttl, .OPT ⟨os⟩⟩ :: more) (b rest : Bytes)
    (hb : p.toBytes cfg = .ok b) (p' : Packet) : Packet.parse cfg (b ++ rest) ≠ .ok p' := by
  intro h'
  obtain ⟨hq, hrec, c1, c2, c3, c4⟩ := hp
  have hok : RecordOk cfg 191 ⟨[], .OPT, flush, c, ttl, .OPT ⟨os⟩⟩ := hrec _ (by simp [records, h3])
  have hol : (optionsOctets os).length < 65536 := hok.2.2.2.2.2.2.2 _ (congrArg Res.ok (opt_toBytes os))
  obtain ⟨b1, e1, l1⟩ := questions_read_back (Nat.le_refl 191) p.questions p.headerBytes hq
  unfold Packet.toBytes at hb
  rw [e1, h1, h2, h3] at hb
  simp only [Res.bind_ok, Packet.recordsBytes] at hb
  obtain ⟨_, hw1, _, hw2, xb, e6, e7⟩ := hb
  cases hw1
  cases hw2
  obtain ⟨mb, rfl⟩ := written_prefix _ e7
  obtain ⟨end_, n1, n2, n3, n4, i1, i2, i3, i4, g1, g2, g3, g4, g5⟩ := Packet.parse_ok.mp h'
  have hh := header_items_at (withCounts p).header (b1 ++ xb ++ mb ++ rest)
  rw [← headerBytes_eq] at hh
  simp only [← List.append_assoc] at hh
  have hhd := ((Header.parse_ok (N := Decodes)).mpr g1).symm.trans ((Header.parse_ok (N := Decodes)).mpr hh)
  obtain ⟨hhe, rfl⟩ : p'.header = (withCounts p).header ∧ i1 = p.headerBytes.length := by
    rw [Prod.mk.injEq, Res.ok.injEq] at hhd; exact hhd
  obtain ⟨w1, w2, w3, w4⟩ := withCounts_ok c1 c2 c3 c4
  rw [hhe] at n1 n2 n3 n4
  have l1' := listAt_mono (fun i y j hy => questionAt_extend decodes_extends hy (xb ++ mb ++ rest)) _ _ _ l1
  simp only [← List.append_assoc] at l1'
  obtain ⟨zs, z1, z2⟩ := listAt_prefix questionAt_unique _ _ _ _ _ l1' g2
    (by rw [n1, w1]; exact Nat.le_refl _)
  have hz : zs = [] := by
    have := congrArg List.length z1
    rw [List.length_append, n1, w1] at this
    exact List.length_eq_zero_iff.mp (by have : (withCounts p).questions.length = p.questions.length := rfl; omega)
  subst hz
  obtain rfl : _ = i2 := z2
  have hea : p'.answers = [] := List.length_eq_zero_iff.mp (by
    rw [n2, w2]; show p.answers.length = 0; rw [h1]; rfl)
  have heu : p'.authorities = [] := List.length_eq_zero_iff.mp (by
    rw [n3, w3]; show p.authorities.length = 0; rw [h2]; rfl)
  rw [hea] at g3
  rw [heu] at g4
  obtain rfl : _ = i3 := g3
  obtain rfl : _ = i4 := g4
  have hel : p'.additional.length = more.length + 1 := by
    rw [n4, w4]; show p.additional.length = _; rw [h3]; rfl
  cases hed : p'.additional with
  | nil => rw [hed] at hel; simp at hel
  | cons y ys =>
    rw [hed] at g5
    obtain ⟨j, z5, _⟩ := g5
    have z6 := ResourceRecord.parse_ok.mpr z5
    rw [List.append_assoc _ mb rest] at z6
    exact C126_plain_refused cfg flush c ttl os ho hol xb _ _ e6 y j z6

/-- C126: a query for the address of `a` with EDNS, and what `to_bytes()` writes for it. -/
example : PacketOk ⟨true, true, true⟩ 191
    ⟨exPacket.header, [⟨[[97]], .rr .A, .IN, false⟩], [], [], [⟨[], .OPT, false, .udpPayloadSize 1232, 0, .OPT ⟨[]⟩⟩]⟩ := by
  refine ⟨?_, ?_, by decide, by decide, by decide, by decide⟩
  · simp [QuestionOk, NameOk, QReadable, Readable, dnssecTypes]
  · intro r hr
    obtain rfl : r = _ := by simpa [records] using hr
    refine ⟨by simp [NameOk], by simp [Readable, dnssecTypes], rfl, ?_, ?_, by simp, ?_, ?_⟩
    · simp [classOk]
    · simp [classNumber]
    · simp [Writable]
    · intro b hb
      cases hb
      simp [Opt.toBytes]

/-- C126: what a resolver tells (with the flag DO and a cookie), and records that are written. -/
example : Edns.Fits ⟨1232, 0, 0, true, 0, [(10, [1, 2, 3, 4, 5, 6, 7, 8])]⟩ ∧
    Edns.octets ⟨1232, 0, 0, true, 0, [(10, [1, 2, 3, 4, 5, 6, 7, 8])]⟩ =
      [0, 0, 41, 4, 208, 0, 0, 128, 0, 0, 12, 0, 10, 0, 8, 1, 2, 3, 4, 5, 6, 7, 8] ∧
    ResourceRecord.toBytes ⟨true, true, true⟩ ⟨[], .OPT, false, .udpPayloadSize 1232, 0, .OPT ⟨[]⟩⟩ =
      .ok [0, 0, 41, 4, 208, 0, 0, 0, 0, 0, 2] := by
  refine ⟨⟨by decide, by decide +kernel⟩, by decide +kernel, by decide +kernel⟩

end Dns
