import Verif.Model.Accessors
import Verif.Model.Errors
import Verif.Props.Buffer
import Verif.Props.Accessors
import Verif.Props.NameDecode
import Verif.Props.NameWrite
import Verif.Props.NameText
import Verif.Props.Header
import Verif.Props.Compression
import Verif.Props.Constructors
import Verif.Props.Exchange
import Verif.Props.Dnssec

/-!
# Calls of the API that only pass something on

The functions here are short; what a user relies on is that they pass on the right thing.
-/

namespace Dns
open Spec Buf

/-! ## C02: `extract_u16_as` -/

/-- C02: `extract_u16_as` returns what the conversion makes of the number in the next two octets, most
significant first, and moves by two octets also if the conversion fails; with less than two octets left
it fails with `LengthViolation` and does not move. -/
theorem C02_extract_u16_as {α : Type} (conv : UInt16 → Res α) (d : Bytes) (i : Nat) (hi : i ≤ d.length) :
    (∀ v, Octets d i (octets16 v) (i + 2) → extractU16As conv d i = (conv v, i + 2)) ∧
    (d.length - i < 2 → extractU16As conv d i = (.err .lengthViolation, i)) := by
  constructor
  · intro v hv
    have h : extractU16 d i = (.ok v, i + 2) := extractU16_ok.mpr hv
    show Parser.bind extractU16 _ d i = _
    simp [Parser.bind, h, Parser.lift]
  · intro h
    have h := (C02_extract_ints d i hi).2.1.2 h
    show Parser.bind extractU16 _ d i = _
    simp [Parser.bind, h]

/-- C02: the class of a question; 5 is not one. -/
example : extractU16As QClass.ofU16 [9, 0, 3, 9] 1 = (.ok .CH, 3) ∧
    extractU16As QClass.ofU16 [9, 0, 5, 9] 1 = (.err (.invalidClass 5), 3) := by decide +kernel
example : Octets [9, 0, 3, 9] 1 (octets16 3) (1 + 2) := ⟨[9], [9], rfl, rfl, rfl⟩

/-! ## C13 -/

theorem nameWith_labels {max : Nat} {a : Nat → Nat → Prop} {d : Bytes} {i j : Nat} {n : Fqdn}
    (h : NameWith max a d i n j) : ∀ l ∈ n, 1 ≤ l.length ∧ l.length ≤ max := by
  induction h with
  | root _ => simp
  | label _ b c _ _ ih =>
    intro l hl
    rcases List.mem_cons.mp hl with rfl | hl
    · omega
    · exact ih l hl
  | pointer _ _ _ _ ih => exact ih

/-- C13, exactly: a name is read back from its `to_bytes()` if and only if each of its labels has 1 to 191
octets. -/
theorem C13_name_exact (n : Fqdn) (pre post : Bytes) :
    extractFqdn (pre ++ n.toBytes ++ post) pre.length = (.ok n, pre.length + n.toBytes.length) ↔
      ∀ l ∈ n, 1 ≤ l.length ∧ l.length ≤ 191 :=
  ⟨fun h => nameWith_labels (C07_decoded_name_sound _ _ _ _ h), fun h => C13_name_round_trip n h pre post⟩

/-- C13: a name that is read back, and one that is not. -/
example : (∀ l ∈ ([[97], [98, 99]] : Fqdn), 1 ≤ l.length ∧ l.length ≤ 191) ∧
    ¬ ∀ l ∈ ([[97], []] : Fqdn), 1 ≤ l.length ∧ l.length ≤ 191 := by decide

/-! ## C15: `append_label` and names made from labels -/

theorem Fqdn.new_append (s t : Bytes) : Fqdn.new (s ++ [0x2E] ++ t) = Fqdn.new s ++ Fqdn.new t := by
  obtain ⟨p, hp, hd, rfl⟩ := C15_every_string s
  obtain ⟨q, hq, hd', rfl⟩ := C15_every_string t
  have e : ([0x2E] : Bytes).intercalate p ++ [0x2E] ++ ([0x2E] : Bytes).intercalate q
      = ([0x2E] : Bytes).intercalate (p ++ q) := by
    clear hd hd'
    induction p with
    | nil => exact absurd rfl hp
    | cons a p ih =>
      cases p with
      | nil =>
        cases q with
        | nil => exact absurd rfl hq
        | cons b q => simp [List.intercalate]
      | cons b p =>
        have := ih (by simp)
        simp only [List.intercalate, List.cons_append, List.intersperse_cons_cons, List.flatten_cons,
          List.append_assoc] at this ⊢
        rw [this]
  rw [e, C15_new_labels _ hp hd, C15_new_labels _ hq hd', C15_new_labels _ (by simp [hp])
    (by intro x hx; rcases List.mem_append.mp hx with h | h; exacts [hd x h, hd' x h]), List.filter_append]

/-- C15: appending a label to a name made from text is the same as making the name from the text with a
dot and the label appended, if and only if the label is not empty and has no dot. -/
theorem C15_append_label_exact (s l : Bytes) :
    (Fqdn.new s).appendLabel l = Fqdn.new (s ++ [0x2E] ++ l) ↔ l ≠ [] ∧ (0x2E : UInt8) ∉ l := by
  rw [Fqdn.new_append]
  constructor
  · intro h
    have h : [l] = Fqdn.new l := List.append_cancel_left h
    exact C15_new_no_dots l l (h ▸ List.mem_singleton.mpr rfl)
  · intro ⟨h1, h2⟩
    have := C15_new_labels [l] (by simp) (by simpa using h2)
    simp only [List.intercalate, List.intersperse, List.flatten_cons, List.flatten_nil, List.append_nil] at this
    rw [this]
    simp [Fqdn.appendLabel, h1]

/-- C15: the text form of a name with a label appended is the text form with a dot and the label
appended; there is no dot before a first label. -/
theorem C15_append_label_display (n : Fqdn) (l : Bytes) :
    (n.appendLabel l).display = if n = [] then l else n.display ++ [0x2E] ++ l := by
  rw [C15_display, C15_display]
  induction n with
  | nil => simp [Fqdn.appendLabel, List.intercalate]
  | cons a n ih =>
    cases n with
    | nil => simp [Fqdn.appendLabel, List.intercalate]
    | cons b n =>
      simp only [Fqdn.appendLabel, List.cons_append, reduceCtorEq, if_false, List.intercalate,
        List.intersperse_cons_cons, List.flatten_cons, List.append_assoc] at ih ⊢
      rw [ih]

/-- C15: a name made from a list of labels is the name made from their text, joined by dots, if and only
if no label is empty or has a dot. -/
theorem C15_from_labels_exact (ls : List Bytes) :
    Fqdn.ofLabels ls = Fqdn.new ([0x2E].intercalate ls) ↔ ∀ l ∈ ls, l ≠ [] ∧ (0x2E : UInt8) ∉ l := by
  constructor
  · intro h l hl
    have e : ls = Fqdn.new ([0x2E].intercalate ls) := h
    rw [e] at hl
    exact C15_new_no_dots _ l hl
  · intro h
    have := C15_new_display ls h
    rw [C15_display] at this
    exact this.symm

/-- C15: `a.b` and the label `c`; and the label `c.d`, which stays one label. -/
example : (Fqdn.new [97, 0x2E, 98]).appendLabel [99] = Fqdn.new [97, 0x2E, 98, 0x2E, 99] ∧
    (Fqdn.new [97]).appendLabel [99, 0x2E, 100] ≠ Fqdn.new [97, 0x2E, 99, 0x2E, 100] := by decide
example : ∀ l ∈ ([[97], [98]] : List Bytes), l ≠ [] ∧ (0x2E : UInt8) ∉ l := by decide

/-! ## C20 -/

/-- C20: the size the header reports is the number of octets it is written with, which is 12. -/
theorem C20_byte_size (h : Header) : h.byteSize = h.toBytes.length ∧ h.byteSize = 12 := by
  obtain ⟨_, _, _, _, _, -, hl, -⟩ := C20_header_layout h
  exact ⟨hl.symm ▸ rfl, rfl⟩

example : (Header.newQuery 7 true).byteSize = 12 := rfl

/-! ## C21: the setters of the packet -/

/-- C21: the getters of a packet report what the getters of its header report, and each setter of a packet
changes what it names and nothing else, except for the couplings documented for the header; the questions
and records stay. -/
theorem C21_packet_setters (p : Packet) (v : Bool) (o : OpCode) (c : ResponseCode) (i : UInt16) :
    (p.reported = ⟨p.header.view.id, p.header.view.queryResponse, p.header.view.opcode,
      p.header.view.authoritativeAnswer, p.header.view.truncation, p.header.view.recursionDesired,
      p.header.view.recursionAvailable, p.header.view.responseCode⟩) ∧
    ((p.setId i).reported = { p.reported with id := i } ∧ (p.setId i).sections = p.sections) ∧
    ((p.setRecursionDesired v).reported = { p.reported with recursionDesired := v } ∧
      (p.setRecursionDesired v).sections = p.sections) ∧
    ((p.setTruncation v).reported = { p.reported with truncation := v } ∧
      (p.setTruncation v).sections = p.sections) ∧
    ((p.setAuthoritativeAnswer v).reported = { p.reported with authoritativeAnswer := v } ∧
      (p.setAuthoritativeAnswer v).sections = p.sections) ∧
    ((p.setOpcode o).reported = { p.reported with opcode := o } ∧ (p.setOpcode o).sections = p.sections) ∧
    ((p.setQueryResponse v).reported =
      (if v then { p.reported with queryResponse := true }
       else { p.reported with queryResponse := false, recursionAvailable := false,
                              responseCode := .ok .noError }) ∧
      (p.setQueryResponse v).sections = p.sections) ∧
    ((p.setResponseCode c).reported =
      (if c = .noError then { p.reported with responseCode := .ok .noError }
       else { p.reported with responseCode := .ok c, queryResponse := true }) ∧
      (p.setResponseCode c).sections = p.sections) ∧
    ((p.setRecursionAvailable v).reported =
      (if v then { p.reported with recursionAvailable := true, queryResponse := true }
       else { p.reported with recursionAvailable := false }) ∧
      (p.setRecursionAvailable v).sections = p.sections) := by
  let f (w : HeaderView) : Reported := ⟨w.id, w.queryResponse, w.opcode, w.authoritativeAnswer, w.truncation,
    w.recursionDesired, w.recursionAvailable, w.responseCode⟩
  have hf : ∀ q : Packet, q.reported = f q.header.view := fun _ => rfl
  obtain ⟨h1, h2, h3, h4, h5, h6, h7⟩ := C21_setters_independent p.header v o c
  refine ⟨rfl, ⟨rfl, rfl⟩, ⟨?_, rfl⟩, ⟨?_, rfl⟩, ⟨?_, rfl⟩, ⟨?_, rfl⟩, ⟨?_, rfl⟩, ⟨?_, rfl⟩, ⟨?_, rfl⟩⟩
  · rw [hf]; exact congrArg f h1
  · rw [hf]; exact congrArg f h2
  · rw [hf]; exact congrArg f h3
  · rw [hf]; exact congrArg f h4
  · rw [hf]; refine (congrArg f h5).trans ?_; cases v <;> rfl
  · rw [hf]; refine (congrArg f h6).trans ?_; split <;> rfl
  · rw [hf]; refine (congrArg f h7).trans ?_; cases v <;> rfl

/-- C21: the response code of a reply with an answer. -/
example : ((exPacket.setQueryResponse true).setResponseCode .refused).responseCode = .ok .refused ∧
    ((exPacket.setQueryResponse true).setResponseCode .refused).sections = exPacket.sections := by
  decide +kernel

/-! ## C63: `compression_allowed` -/

/-- C63: what `compression_allowed()` says: the types in whose data names may be compressed (RFC 3597,
section 4), TXT, whose data have no names, and, against their specifications, SRV, NAPTR and NSEC. -/
theorem C63_compression_allowed (t : RecordType) :
    t.compressionAllowed = true ↔ mayCompress t = true ∨ t ∈ [.TXT, .SRV, .NAPTR, .NSEC] := by
  cases t <;> decide

/-- C63: data of a type for which `compression_allowed()` is false are written as by `to_bytes()`, and their
names are not used for compression later. -/
theorem C63_not_allowed_not_compressed (cfg : Cfg) (h : Hash) (r : RecordData) (names : Names) (off : Nat)
    (ht : r.type.compressionAllowed = false) :
    r.toBytesCompressed cfg h names off = (do let b ← r.toBytes cfg; return (b, names)) := by
  have := (C63_compression_allowed r.type).not.mp (by simp [ht])
  push Not at this
  exact C63_uncompressed_partial cfg h r names off (by simpa using this.1)
    (fun hm => this.2 (List.mem_cons_of_mem _ hm))
example (cfg : Cfg) (h : Hash) (names : Names) (off : Nat) :
    RecordData.toBytesCompressed cfg h (.A ⟨0x01020304⟩) names off = .ok ([1, 2, 3, 4], names) :=
  C63_not_allowed_not_compressed cfg h (.A ⟨0x01020304⟩) names off rfl

/-- C63: for each type with names in its data for which `compression_allowed()` is true there are data and
names written before with which the data are compressed. -/
theorem C63_allowed_compressed (t : RecordType) (ht : t.compressionAllowed = true) (hx : t ≠ .TXT) :
    ∃ r : RecordData, r.type = t ∧ ∀ h : Hash, ∃ (b : Bytes) (c : Bytes × Names),
      r.toBytes ⟨true, true, true⟩ = .ok b ∧
      r.toBytesCompressed ⟨true, true, true⟩ h (Fqdn.toBytesCompressed h [[98]] Names.empty 12).2 40 = .ok c ∧
      c.1 ≠ b := by
  have hn : ∀ h : Hash, Fqdn.toBytesCompressed h [[98]] (Fqdn.toBytesCompressed h [[98]] Names.empty 12).2
      = fun _ => ([192, 12], (Fqdn.toBytesCompressed h [[98]] Names.empty 12).2) := by
    intro h
    funext off
    simp [Fqdn.toBytesCompressed, Names.empty, Names.insert]
    decide
  have hm : t ∈ [RecordType.NS, .CNAME, .SOA, .PTR, .MINFO, .MX, .SRV, .NAPTR, .NSEC] := by
    cases t <;> simp_all [RecordType.compressionAllowed]
  simp only [List.mem_cons, List.not_mem_nil, or_false] at hm
  rcases hm with rfl | rfl | rfl | rfl | rfl | rfl | rfl | rfl | rfl
  · refine ⟨.NS ⟨[[98]]⟩, rfl, fun h => ⟨_, _, rfl, rfl, ?_⟩⟩
    simp only [Ns.toBytesCompressed, hn]; decide +kernel
  · refine ⟨.CNAME ⟨[[98]]⟩, rfl, fun h => ⟨_, _, rfl, rfl, ?_⟩⟩
    simp only [Cname.toBytesCompressed, hn]; decide +kernel
  · refine ⟨.SOA ⟨[[98]], [[98]], 1, 2, 3, 4, 5⟩, rfl, fun h => ⟨_, _, rfl, rfl, ?_⟩⟩
    simp only [Soa.toBytesCompressed, hn]; decide +kernel
  · refine ⟨.PTR ⟨[[98]]⟩, rfl, fun h => ⟨_, _, rfl, rfl, ?_⟩⟩
    simp only [Ptr.toBytesCompressed, hn]; decide +kernel
  · refine ⟨.MINFO ⟨[[98]], [[98]]⟩, rfl, fun h => ⟨_, _, rfl, rfl, ?_⟩⟩
    simp only [Minfo.toBytesCompressed, hn]; decide +kernel
  · refine ⟨.MX ⟨1, [[98]]⟩, rfl, fun h => ⟨_, _, rfl, rfl, ?_⟩⟩
    simp only [Mx.toBytesCompressed, hn]; decide +kernel
  · exact ⟨_, rfl, (C63_counterexamples (.SRV ⟨1, 1, 1, [[98]]⟩) (by simp)).2⟩
  · exact ⟨_, rfl, (C63_counterexamples (.NAPTR ⟨1, 1, [], [], [], [[98]]⟩) (by simp)).2⟩
  · exact ⟨_, rfl, (C63_counterexamples (.NSEC ⟨[[98]], [.A]⟩) (by simp)).2⟩

example : RecordType.compressionAllowed .A = false ∧ RecordType.compressionAllowed .MX = true := by decide

/-! ## C65: `data_raw` -/

/-- C65: `data_raw()` gives the octets of the data: those at the end of `to_bytes()` of the record, after
the name and ten octets. -/
theorem C65_data_raw (cfg : Cfg) (r : ResourceRecord) (b : Bytes) (h : r.toBytes cfg = .ok b) :
    r.dataRaw cfg = .ok (b.drop (r.name.byteSize + 10)) := by
  obtain ⟨size, -, h⟩ := Res.bind_ok.mp h
  obtain ⟨raw, h2, h⟩ := Res.bind_ok.mp h
  cases h
  rw [ResourceRecord.dataRaw, h2, (C14_byte_size r.name).1]
  congr 1
  exact (List.drop_left' (by simp [u16be, u32be])).symm

/-- C65: a record with an address. -/
example : exRecord.toBytes ⟨true, true, true⟩ = .ok [1, 97, 1, 98, 0, 0, 1, 0, 1, 0, 0, 1, 44, 0, 4, 1, 2, 3, 4] ∧
    exRecord.dataRaw ⟨true, true, true⟩ = .ok [1, 2, 3, 4] := by decide +kernel

/-! ## C79 -/

/-- C79: a question is written with the name, type and class given to the constructor; it does not ask for
a unicast response. -/
theorem C79_question (cfg : Cfg) (n : Fqdn) (t : QType) (c : QClass) (hn : NameOk 63 n) :
    (Question.new n t c).toBytes cfg
      = Items.octets [.name n, o16 (qtypeNumber t), o16 (qclassNumber c)] := by
  have et : t.toU16 = UInt16.ofNat (qtypeNumber t) := by
    cases t with
    | rr t => cases t <;> rfl
    | _ => rfl
  have ec : c.toU16 = UInt16.ofNat (qclassNumber c) := by cases c <;> rfl
  simp [Question.new, Question.toBytes, Question.classBits, Items.octets, Item.octets,
    Fqdn.toBytes_eq (fun l hl => (hn l hl).1), u16be_eq, et, ec, o16]
example (cfg : Cfg) : (Question.new [[97]] .ANY .IN).toBytes cfg = [1, 97, 0, 0, 255, 0, 1] :=
  C79_question cfg [[97]] .ANY .IN (show NameOk 63 [[97]] by decide)

/-- C79: a record is written with the name, type, class, time to live and data given to the constructor;
it does not ask to flush caches. -/
theorem C79_record (cfg : Cfg) (n : Fqdn) (t : RecordType) (c : RecordClass) (ttl : UInt32) (d : RecordData)
    (hn : NameOk 63 n) (b : Bytes) (hb : d.toBytes cfg = .ok b) (hs : d.byteSize cfg = .ok b.length) :
    (ResourceRecord.new n t c ttl d).toBytes cfg = .ok (Items.octets
      [.name n, o16 (typeNumber t), o16 (classNumber c), .u32 ttl, o16 b.length, .rest b]) := by
  have et : t.toU16 = UInt16.ofNat (typeNumber t) := by cases t <;> rfl
  have ec : c.toU16 = UInt16.ofNat (classNumber c) := by cases c <;> simp [RecordClass.toU16, classNumber]
  refine Res.bind_ok.mpr ⟨_, hs, Res.bind_ok.mpr ⟨_, hb, ?_⟩⟩
  simp [ResourceRecord.new, ResourceRecord.classBits, Items.octets, Item.octets,
    Fqdn.toBytes_eq (fun l hl => (hn l hl).1), u16be_eq, u32be_eq, et, ec, o16, lenU16]
example (cfg : Cfg) : (ResourceRecord.new [[97]] .A .IN 60 (.A ⟨0x01020304⟩)).toBytes cfg
      = .ok [1, 97, 0, 0, 1, 0, 1, 0, 0, 0, 60, 0, 4, 1, 2, 3, 4] :=
  C79_record cfg [[97]] .A .IN 60 (.A ⟨0x01020304⟩) (show NameOk 63 [[97]] by decide) [1, 2, 3, 4] rfl rfl

/-- C79: an NSEC record made without types is written with the name and an empty block of types. -/
theorem C79_nsec_new (cfg : Cfg) (n : Fqdn) (hn : NameOk 63 n) :
    written cfg (Nsec.new n) = .ok (Items.octets (.name n :: windowItems [(0, [0])])) := by
  have e := Fqdn.toBytes_eq (fun l hl => (hn l hl).1)
  obtain ⟨o, m, d⟩ := cfg
  have hb : Bitmap.toBytes ⟨o, m, d⟩ [] = .ok [0, 1, 0] := by cases o <;> rfl
  have hs : Bitmap.byteSize ⟨o, m, d⟩ [] = .ok 3 := by cases o <;> rfl
  simp only [written, RDataTrait.intoRecordData, RecordData.toBytes, Nsec.new, Nsec.toBytes, Nsec.byteSize,
    Res.bind_ok]
  refine ⟨_, ⟨_, hs, rfl⟩, _, hb, ?_⟩
  simp [Items.octets, Item.octets, e, windowItems]

/-- C79: a question and a record. -/
example : (Question.new [[97]] .ANY .IN).toBytes ⟨true, true, true⟩ = [1, 97, 0, 0, 255, 0, 1] ∧
    (ResourceRecord.new [[97]] .A .IN 60 (.A ⟨0x01020304⟩)).toBytes ⟨true, true, true⟩
      = .ok [1, 97, 0, 0, 1, 0, 1, 0, 0, 0, 60, 0, 4, 1, 2, 3, 4] := by decide +kernel
example : RecordData.toBytes ⟨true, true, true⟩ (.A ⟨0x01020304⟩) = .ok [1, 2, 3, 4] ∧
    RecordData.byteSize ⟨true, true, true⟩ (.A ⟨0x01020304⟩) = .ok [1, 2, 3, 4].length ∧
    NameOk 63 ([[97]] : Fqdn) := by
  refine ⟨by decide, by decide, ?_⟩
  show NameOk 63 _
  decide

/-- C79: what is taken out of record data is what was put in, and what is put in through `inner_mut()`
replaces it. -/
theorem C79_inner (a a' : UInt32) (b b' : BitVec 128) (n n' : Fqdn) :
    (A.new a).intoInner = a ∧ ((A.new a).innerMut a').intoInner = a' ∧
    (Aaaa.new b).intoInner = b ∧ ((Aaaa.new b).innerMut b').intoInner = b' ∧
    (Ptr.new n).intoInner = n ∧ ((Ptr.new n).innerMut n').intoInner = n' := ⟨rfl, rfl, rfl, rfl, rfl, rfl⟩

/-- C79: what is taken out of record data that were read is what is on the wire. -/
theorem C79_inner_read (cfg : Cfg) (d : Bytes) (i j : Nat) :
    (∀ r, RecordData.parse cfg .A d i = (.ok (.A r), j) → Octets d i (octets32 r.intoInner) j) ∧
    (∀ r, RecordData.parse cfg .AAAA d i = (.ok (.AAAA r), j) →
      j = i + 16 ∧ valueOf ((d.drop i).take 16) = r.intoInner.toNat) ∧
    (∀ r, RecordData.parse cfg .PTR d i = (.ok (.PTR r), j) →
      NameWith 191 (fun _ _ => True) d i r.intoInner j) := by
  refine ⟨fun r h => ?_, fun r h => ?_, fun r h => ?_⟩
  · obtain ⟨-, its, rfl, k, h2, rfl⟩ := (RecordData.parse_ok (by trivial)).mp h
    exact h2
  · obtain ⟨-, its, rfl, k, h2, rfl⟩ := (RecordData.parse_ok (by trivial)).mp h
    obtain ⟨b, hb, hl, hv⟩ := h2
    obtain ⟨e, -, hb⟩ := octets_iff.mp hb
    rw [hl] at e hb
    exact ⟨e, by rw [hb]; exact hv⟩
  · obtain ⟨-, its, rfl, k, h2, rfl⟩ := (RecordData.parse_ok (by trivial)).mp h
    exact C07_decoded_name_sound _ _ _ _ h2

/-- C79: an address and a name that are read. -/
example : RecordData.parse ⟨true, true, true⟩ .A [9, 1, 2, 3, 4] 1 = (.ok (.A ⟨0x01020304⟩), 5) ∧
    RecordData.parse ⟨true, true, true⟩ .PTR [1, 97, 0] 0 = (.ok (.PTR ⟨[[97]]⟩), 3) ∧
    RecordData.parse ⟨true, true, true⟩ .AAAA [0, 1, 2, 3, 4, 5, 6, 7, 8, 9, 10, 11, 12, 13, 14, 15] 0
      = (.ok (.AAAA ⟨0x000102030405060708090A0B0C0D0E0F⟩), 16) := by decide +kernel

/-- C79: the key tag and the signature of a signature that was read are those on the wire: the two octets
from the 17th of the data, and all that follows the name of the signer. -/
theorem C79_signature (cfg : Cfg) (d : Bytes) (i j : Nat) (r : Rrsig)
    (h : Rrsig.parse cfg d i = (.ok r, j)) :
    Octets d (i + 16) (octets16 r.getKeyTag) (i + 18) ∧
    ∃ n k, NameWith 191 (fun _ _ => True) d (i + 18) n k ∧ Octets d k r.getSignature d.length := by
  have hp : RecordData.parse cfg .RRSIG d i = (.ok (.RRSIG r), j) := by
    simp only [RecordData.parse, Parser.bind_ok, Parser.pure_ok]
    exact ⟨r, j, h, rfl, rfl⟩
  obtain ⟨-, its, ⟨-, rfl⟩, k1, h1, k2, h2, k3, h3, k4, h4, k5, h5, k6, h6, k7, h7, k8, h8, k9, h9, rfl⟩ :=
    (RecordData.parse_ok (by trivial)).mp hp
  have e1 := (octets_iff.mp h1).1
  have e2 := (octets_iff.mp h2).1
  have e3 := (octets_iff.mp h3).1
  have e4 := (octets_iff.mp h4).1
  have e5 := (octets_iff.mp h5).1
  have e6 := (octets_iff.mp h6).1
  have e7 := (octets_iff.mp h7).1
  simp only [octets16, octets32, List.length_cons, List.length_nil] at e1 e2 e3 e4 e5 e6 e7
  have e : k6 = i + 16 := by omega
  have e' : k7 = i + 18 := by omega
  subst e; subst e'
  exact ⟨h7, _, k8, C07_decoded_name_sound _ _ _ _ h8, h9.2 ▸ h9.1⟩

/-- C79: a signature that is read. -/
example : Rrsig.parse ⟨true, true, true⟩ [0, 1, 15, 2, 0, 0, 0, 60, 0, 0, 0, 9, 0, 0, 0, 8, 1, 2, 1, 97, 0, 7, 7] 0
    = (.ok ⟨.A, .ED25519, 2, 60, 9, 8, 0x0102, [[97]], [7, 7]⟩, 23) := by decide +kernel

end Dns
