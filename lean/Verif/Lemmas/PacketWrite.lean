import Verif.Lemmas.ReadBack
import Verif.Lemmas.ByteSize

/-! Written questions, records and packets are read back. -/

namespace Dns
open Spec Buf

/-! ## Extension -/

theorem questionAt_extend {N : NameRel} (hN : Extends N) {cfg : Cfg} {d : Bytes} {i j : Nat} {q : Question}
    (h : QuestionAt N cfg d i q j) (e : Bytes) : QuestionAt N cfg (d ++ e) i q j := by
  obtain ⟨h1, v, h2, h3⟩ := h
  exact ⟨h1, v, h2, items_extend hN (by simp [Item.Open, o16]) h3 e⟩

theorem recordAt_extend {RD : RecordType → Bytes → Nat → RecordData → Prop} {N : NameRel} (hN : Extends N)
    {cfg : Cfg} {d : Bytes} {i j : Nat} {r : ResourceRecord}
    (h : RecordAtWith RD N cfg d i r j) (e : Bytes) : RecordAtWith RD N cfg (d ++ e) i r j := by
  obtain ⟨h1, h2, v, len, k, h3, h4, h5, h6, h7⟩ := h
  refine ⟨h1, h2, v, len, k, h3, items_extend hN (by simp [Item.Open, o16, recordHead]) h4 e, h5, ?_, ?_⟩
  · rw [List.length_append]; omega
  · rw [List.take_append_of_le_length h6]; exact h7

theorem listAt_mono {α : Type} {R S : Nat → α → Nat → Prop} (h : ∀ i x j, R i x j → S i x j) :
    ∀ (xs : List α) (i j : Nat), ListAt R i xs j → ListAt S i xs j := by
  intro xs
  induction xs with
  | nil => intro i j h; exact h
  | cons x xs ih => rintro i j ⟨k, h1, h2⟩; exact ⟨k, h _ _ _ h1, ih _ _ h2⟩

/-! ## Fields -/

theorem classNumber_eq (c : RecordClass) : c.toU16 = UInt16.ofNat (classNumber c) := by
  cases c <;> simp [RecordClass.toU16, classNumber]
theorem qclassNumber_eq (c : QClass) : c.toU16 = UInt16.ofNat (qclassNumber c) := by
  cases c <;> rfl
theorem qclassNumber_lt (c : QClass) : qclassNumber c < 32768 := by cases c <;> decide

theorem setTop {n : Nat} (h : n < 32768) : (UInt16.ofNat n ||| 0x8000).toNat = 32768 + n := by
  rw [UInt16.toNat_or, UInt16.toNat_ofNat_of_lt' (by simp [UInt16.size]; omega)]
  have h2 := Nat.two_pow_add_eq_or_of_lt (i := 15) (b := n) (by omega) 1
  rw [Nat.or_comm]
  exact h2.symm

theorem classField_write {cfg : Cfg} {n : Nat} {f : Bool} (h : n < 32768) (hf : f = true → cfg.mdns = true) :
    ClassField cfg n f (if cfg.mdns then (if f then UInt16.ofNat n ||| 0x8000 else UInt16.ofNat n)
      else UInt16.ofNat n) := by
  have h1 : (UInt16.ofNat n).toNat = n := UInt16.toNat_ofNat_of_lt' (by simp [UInt16.size]; omega)
  unfold ClassField
  cases hm : cfg.mdns
  · cases f
    · simp [h1]; omega
    · rw [hm] at hf; exact absurd (hf rfl) (by simp)
  · cases f
    · simp [h1]; omega
    · simp only [if_true, setTop h]; simp; omega

theorem Question.toBytes_eq (cfg : Cfg) {max : Nat} {q : Question} (h : NameOk max q.qName) :
    q.toBytes cfg = Items.octets [.name q.qName, o16 (qtypeNumber q.qType), .u16 (q.classBits cfg)] := by
  simp [Question.toBytes, NameOk.toBytes h, Items.octets, Item.octets, o16, QType.toU16_eq, u16be_eq]

theorem Question.compressed_eq (cfg : Cfg) (h : Hash) (q : Question) (names : Names) (off : Nat) :
    q.toBytesCompressed cfg h names off =
      Items.compress h [.name q.qName, o16 (qtypeNumber q.qType), .u16 (q.classBits cfg)] names off := by
  simp [Question.toBytesCompressed, Items.compress, Item.compress, Item.octets, o16, QType.toU16_eq, u16be_eq]

theorem Question.classBits_ok {cfg : Cfg} {max : Nat} {q : Question} (h : QuestionOk cfg max q) :
    ClassField cfg (qclassNumber q.qClass) q.unicastResponse (q.classBits cfg) := by
  unfold Question.classBits
  rw [qclassNumber_eq]
  exact classField_write (qclassNumber_lt _) h.2.2

theorem Question.read_back {cfg : Cfg} {max : Nat} (hmax : max ≤ 191) {q : Question}
    (h : QuestionOk cfg max q) (pre : Bytes) :
    QuestionAt Decodes cfg (pre ++ q.toBytes cfg) pre.length q (pre ++ q.toBytes cfg).length := by
  refine ⟨h.2.1, q.classBits cfg, Question.classBits_ok h, ?_⟩
  rw [Question.toBytes_eq cfg h.1]
  refine items_decode hmax _ pre ?_ (by simp [Item.Open, o16])
  have : Good max q.qName := h.1
  simp [Item.Fits, o16, this]

theorem Question.read_back_compressed {cfg : Cfg} {max : Nat} (hmax : max ≤ 191)
    {h : Hash} {U : Fqdn → Prop} (hU : TailClosed U) (hinj : InjOn U h) {q : Question}
    (hq : QuestionOk cfg max q) (hn : U q.qName) (names : Names) (pre : Bytes) (hm : MapOk max U h names pre)
    (hlen : (pre ++ (q.toBytesCompressed cfg h names pre.length).1).length ≤ 16384) :
    QuestionAt Decodes cfg (pre ++ (q.toBytesCompressed cfg h names pre.length).1) pre.length q
      (pre ++ (q.toBytesCompressed cfg h names pre.length).1).length ∧
    MapOk max U h (q.toBytesCompressed cfg h names pre.length).2
      (pre ++ (q.toBytesCompressed cfg h names pre.length).1) := by
  have hg : Good max q.qName := hq.1
  rw [Question.compressed_eq] at hlen ⊢
  obtain ⟨h1, h2⟩ := items_compressed decodes_extends hmax hU hinj
    (fun pre n names a b c d => decodes_compressed hmax hU hinj pre n names a b c d)
    _ names pre (by simp [Item.Fits, o16, hg]) (by simp [Item.Open, o16])
    (by simp [o16, hn]) hm hlen
  exact ⟨⟨hq.2.1, q.classBits cfg, Question.classBits_ok hq, h1⟩, h2⟩

/-! ## Records -/

theorem ResourceRecord.classBits_ok {cfg : Cfg} {max : Nat} {r : ResourceRecord} (h : RecordOk cfg max r) :
    ClassField cfg (classNumber r.class_) r.cacheFlush (r.classBits cfg) := by
  unfold ResourceRecord.classBits
  rw [classNumber_eq]
  exact classField_write h.2.2.2.2.1 h.2.2.2.2.2.1

/-- From head and data to a record. -/
theorem recordAt_of_parts {cfg : Cfg} {max : Nat} {r : ResourceRecord} (h : RecordOk cfg max r)
    {pre head data : Bytes} (hlen : data.length < 65536)
    (h1 : Items.At Decodes (pre ++ head) pre.length
      (recordHead r (r.classBits cfg) (UInt16.ofNat data.length)) (pre ++ head).length)
    (h2 : RecordData.parse cfg r.rdata.type (pre ++ head ++ data) (pre ++ head).length
      = (.ok r.rdata, (pre ++ head ++ data).length)) :
    RecordAtWith (ParsedData cfg) Decodes cfg (pre ++ head ++ data) pre.length r
      (pre ++ head ++ data).length := by
  have hl : (UInt16.ofNat data.length).toNat = data.length :=
    UInt16.toNat_ofNat_of_lt' (by simpa [UInt16.size] using hlen)
  refine ⟨h.2.1, h.2.2.2.1, r.classBits cfg, UInt16.ofNat data.length, (pre ++ head).length,
    ResourceRecord.classBits_ok h,
    items_extend decodes_extends (by simp [Item.Open, o16, recordHead]) h1 data, ?_, Nat.le_refl _,
    (pre ++ head ++ data).length, ?_⟩
  · rw [hl]; simp only [List.length_append]
  · rw [List.take_length, ← h.2.2.1]; exact h2

theorem ResourceRecord.read_back {cfg : Cfg} {max : Nat} (hmax : max ≤ 191) {r : ResourceRecord}
    (h : RecordOk cfg max r) (hs : ∀ x, r.rdata ≠ .SSHFP x) (hz : sizeError r.rdata = 0) (hset : SetsOk r.rdata)
    (pre : Bytes) :
    ∃ b, r.toBytes cfg = .ok b ∧
      RecordAtWith (ParsedData cfg) Decodes cfg (pre ++ b) pre.length r (pre ++ b).length := by
  have hn : Good max r.name := h.1
  let head (n : Nat) := Items.octets (recordHead r (r.classBits cfg) (UInt16.ofNat n))
  have hdata : ∃ data, r.rdata.toBytes cfg = .ok data := by
    obtain ⟨b, h1, _⟩ := RecordData.read_back hmax h.2.2.2.2.2.2.1 hs pre
    exact ⟨b, h1⟩
  obtain ⟨data, hd⟩ := hdata
  have hdl := h.2.2.2.2.2.2.2 data hd
  obtain ⟨n, h3, h4⟩ := RecordData.size hset hd
  rw [hz] at h4
  have hnd : n = data.length := by omega
  subst hnd
  have hb : r.toBytes cfg = .ok (head data.length ++ data) := by
    unfold ResourceRecord.toBytes
    rw [h3, hd]
    simp [bind, Res.bind, pure, head, recordHead, Items.octets, Item.octets, o16, NameOk.toBytes h.1,
      RecordType.toU16_eq, u16be_eq, u32be_eq, lenU16]
  refine ⟨_, hb, ?_⟩
  rw [← List.append_assoc]
  have h1 : Items.At Decodes (pre ++ head data.length) pre.length
      (recordHead r (r.classBits cfg) (UInt16.ofNat data.length)) (pre ++ head data.length).length :=
    items_decode hmax _ pre (by simp [recordHead, Item.Fits, o16, hn]) (by simp [recordHead, Item.Open, o16])
  refine recordAt_of_parts h hdl h1 ?_
  obtain ⟨b, h5, h6⟩ := RecordData.read_back hmax h.2.2.2.2.2.2.1 hs (pre ++ head data.length)
  rw [hd] at h5
  cases h5
  exact h6

theorem ResourceRecord.read_back_compressed {cfg : Cfg} {max : Nat} (hmax : max ≤ 191)
    {h : Hash} {U : Fqdn → Prop} (hU : TailClosed U) (hinj : InjOn U h) {r : ResourceRecord}
    (hr : RecordOk cfg max r) (hs : ∀ x, r.rdata ≠ .SSHFP x) (hn : U r.name)
    (hn2 : ∀ n ∈ rdataNames r.rdata, U n) (names : Names) (pre : Bytes) :
    ∃ b names', r.toBytesCompressed cfg h names pre.length = .ok (b, names') ∧
      (MapOk max U h names pre → (pre ++ b).length ≤ 16384 →
        RecordAtWith (ParsedData cfg) Decodes cfg (pre ++ b) pre.length r (pre ++ b).length ∧
        MapOk max U h names' (pre ++ b)) := by
  have hg : Good max r.name := hr.1
  let its (n : Nat) := recordHead r (r.classBits cfg) (UInt16.ofNat n)
  let hc := r.headCompressed cfg h names pre.length
  have hcl : ∀ n, Items.compress h (its n) names pre.length = (hc.1 ++ u16be (lenU16 n), hc.2) := by
    intro n
    simp [its, hc, recordHead, ResourceRecord.headCompressed, Items.compress, Item.compress, Item.octets,
      o16, RecordType.toU16_eq, u16be_eq, u32be_eq, lenU16]
  have hlen2 : ∀ n, (pre ++ (hc.1 ++ u16be (lenU16 n))).length = pre.length + hc.1.length + 2 := by
    intro n; simp [u16be_length]; omega
  -- the data are written at the same offset and with the same map, whatever the length field says
  obtain ⟨data, names', h1, _⟩ := RecordData.read_back_compressed hmax hU hinj hr.2.2.2.2.2.2.1 hs hn2
    hc.2 (pre ++ (hc.1 ++ u16be (lenU16 0)))
  have hw : r.toBytesCompressed cfg h names pre.length = .ok (hc.1 ++ u16be (lenU16 data.length) ++ data, names') := by
    unfold ResourceRecord.toBytesCompressed
    rw [hlen2 0] at h1
    simp only
    show (do
      let data ← r.rdata.toBytesCompressed cfg h hc.2 (pre.length + hc.1.length + 2)
      return (hc.1 ++ u16be (lenU16 data.1.length) ++ data.1, data.2) : Res _) = _
    rw [h1]; rfl
  refine ⟨_, _, hw, fun hm hlen => ?_⟩
  rw [← List.append_assoc] at hlen ⊢
  have hle : (pre ++ (hc.1 ++ u16be (lenU16 data.length))).length ≤ 16384 := by
    rw [List.length_append] at hlen; omega
  have hdl : data.length < 65536 := by
    rw [List.length_append] at hlen; omega
  obtain ⟨h3, h4⟩ := items_compressed decodes_extends hmax hU hinj
    (fun pre n names a b c d => decodes_compressed hmax hU hinj pre n names a b c d)
    (its data.length) names pre (by simp [its, recordHead, Item.Fits, o16, hg])
    (by simp [its, recordHead, Item.Open, o16])
    (by simp [its, recordHead, o16, hn]) hm (by rw [hcl]; exact hle)
  rw [hcl] at h3 h4
  obtain ⟨data2, names2, h5, h6⟩ := RecordData.read_back_compressed hmax hU hinj hr.2.2.2.2.2.2.1 hs hn2
    hc.2 (pre ++ (hc.1 ++ u16be (lenU16 data.length)))
  rw [hlen2] at h1 h5
  rw [h1] at h5
  cases h5
  obtain ⟨h7, h8⟩ := h6 h4 hlen
  exact ⟨recordAt_of_parts hr hdl h3 h7, h8⟩

/-! ## Sections -/

theorem questions_read_back {cfg : Cfg} {max : Nat} (hmax : max ≤ 191) : ∀ (qs : List Question) (bin : Bytes),
    (∀ q ∈ qs, QuestionOk cfg max q) →
    ∃ b, qs.foldl (fun bin q => bin ++ q.toBytes cfg) bin = bin ++ b ∧
      ListAt (QuestionAt Decodes cfg (bin ++ b)) bin.length qs (bin ++ b).length := by
  intro qs
  induction qs with
  | nil => intro bin _; exact ⟨[], by simp, by simp [ListAt]⟩
  | cons q qs ih =>
    intro bin hq
    obtain ⟨b, h1, h2⟩ := ih (bin ++ q.toBytes cfg) (fun x hx => hq x (List.mem_cons_of_mem _ hx))
    refine ⟨q.toBytes cfg ++ b, by rw [List.foldl_cons, h1, List.append_assoc], ?_⟩
    rw [← List.append_assoc]
    exact ⟨_, questionAt_extend decodes_extends (Question.read_back hmax (hq q List.mem_cons_self) bin) b, h2⟩

theorem records_read_back {cfg : Cfg} {max : Nat} (hmax : max ≤ 191) :
    ∀ (rs : List ResourceRecord) (bin : Bytes),
    (∀ r ∈ rs, RecordOk cfg max r) → (∀ r ∈ rs, (∀ x, r.rdata ≠ .SSHFP x) ∧ sizeError r.rdata = 0 ∧ SetsOk r.rdata) →
    ∃ b, Packet.recordsBytes cfg rs bin = .ok (bin ++ b) ∧
      ListAt (RecordAtWith (ParsedData cfg) Decodes cfg (bin ++ b)) bin.length rs (bin ++ b).length := by
  intro rs
  induction rs with
  | nil => intro bin _ _; exact ⟨[], by simp [Packet.recordsBytes, pure], by simp [ListAt]⟩
  | cons r rs ih =>
    intro bin hr hs
    obtain ⟨a, h1, h2⟩ := ResourceRecord.read_back hmax (hr r List.mem_cons_self) (hs r List.mem_cons_self).1
      (hs r List.mem_cons_self).2.1 (hs r List.mem_cons_self).2.2 bin
    obtain ⟨b, h3, h4⟩ := ih (bin ++ a) (fun x hx => hr x (List.mem_cons_of_mem _ hx))
      (fun x hx => hs x (List.mem_cons_of_mem _ hx))
    refine ⟨a ++ b, ?_, ?_⟩
    · rw [Packet.recordsBytes, h1, ← List.append_assoc]; exact h3
    · rw [← List.append_assoc]
      exact ⟨_, recordAt_extend decodes_extends h2 b, h4⟩

theorem questions_read_back_compressed {cfg : Cfg} {max : Nat} (hmax : max ≤ 191)
    {h : Hash} {U : Fqdn → Prop} (hU : TailClosed U) (hinj : InjOn U h) :
    ∀ (qs : List Question) (names : Names) (bin : Bytes),
    (∀ q ∈ qs, QuestionOk cfg max q ∧ U q.qName) →
    ∃ b, (Packet.questionsCompressed cfg h qs names bin).1 = bin ++ b ∧
      (MapOk max U h names bin → (bin ++ b).length ≤ 16384 →
        ListAt (QuestionAt Decodes cfg (bin ++ b)) bin.length qs (bin ++ b).length ∧
        MapOk max U h (Packet.questionsCompressed cfg h qs names bin).2 (bin ++ b)) := by
  intro qs
  induction qs with
  | nil => intro names bin _; exact ⟨[], by simp [Packet.questionsCompressed], by simp [ListAt, Packet.questionsCompressed]; exact fun h _ => h⟩
  | cons q qs ih =>
    intro names bin hq
    obtain ⟨b, h1, h2⟩ := ih (q.toBytesCompressed cfg h names bin.length).2
      (bin ++ (q.toBytesCompressed cfg h names bin.length).1) (fun x hx => hq x (List.mem_cons_of_mem _ hx))
    refine ⟨(q.toBytesCompressed cfg h names bin.length).1 ++ b, ?_, fun hm hlen => ?_⟩
    · rw [Packet.questionsCompressed]; simp only [h1, List.append_assoc]
    · rw [← List.append_assoc] at hlen ⊢
      have hle : (bin ++ (q.toBytesCompressed cfg h names bin.length).1).length ≤ 16384 := by
        rw [List.length_append] at hlen; omega
      obtain ⟨h3, h4⟩ := Question.read_back_compressed hmax hU hinj (hq q List.mem_cons_self).1
        (hq q List.mem_cons_self).2 names bin hm hle
      obtain ⟨h5, h6⟩ := h2 h4 hlen
      exact ⟨⟨_, questionAt_extend decodes_extends h3 b, h5⟩, h6⟩

theorem records_read_back_compressed {cfg : Cfg} {max : Nat} (hmax : max ≤ 191)
    {h : Hash} {U : Fqdn → Prop} (hU : TailClosed U) (hinj : InjOn U h) :
    ∀ (rs : List ResourceRecord) (names : Names) (bin : Bytes),
    (∀ r ∈ rs, RecordOk cfg max r ∧ (∀ x, r.rdata ≠ .SSHFP x) ∧ U r.name ∧ ∀ n ∈ rdataNames r.rdata, U n) →
    ∃ b names', Packet.recordsCompressed cfg h rs names bin = .ok (bin ++ b, names') ∧
      (MapOk max U h names bin → (bin ++ b).length ≤ 16384 →
        ListAt (RecordAtWith (ParsedData cfg) Decodes cfg (bin ++ b)) bin.length rs (bin ++ b).length ∧
        MapOk max U h names' (bin ++ b)) := by
  intro rs
  induction rs with
  | nil =>
    intro names bin _
    exact ⟨[], names, by simp [Packet.recordsCompressed, pure], by simp [ListAt]; exact fun h _ => h⟩
  | cons r rs ih =>
    intro names bin hr
    obtain ⟨hr1, hr2, hr3, hr4⟩ := hr r List.mem_cons_self
    obtain ⟨a, names1, h1, h2⟩ := ResourceRecord.read_back_compressed hmax hU hinj hr1 hr2 hr3 hr4 names bin
    obtain ⟨b, names2, h3, h4⟩ := ih names1 (bin ++ a) (fun x hx => hr x (List.mem_cons_of_mem _ hx))
    refine ⟨a ++ b, names2, ?_, fun hm hlen => ?_⟩
    · rw [Packet.recordsCompressed, h1, ← List.append_assoc]; exact h3
    · rw [← List.append_assoc] at hlen ⊢
      have hle : (bin ++ a).length ≤ 16384 := by
        rw [List.length_append] at hlen; omega
      obtain ⟨h5, h6⟩ := h2 hm hle
      obtain ⟨h7, h8⟩ := h4 h6 hlen
      exact ⟨⟨_, recordAt_extend decodes_extends h5 b, h7⟩, h8⟩

/-! ## Packets -/

theorem headerBytes_eq (p : Packet) : p.headerBytes = Items.octets (headerItems (withCounts p).header) := by
  obtain ⟨⟨id, ⟨hi, lo⟩, a, b, c, d⟩, q, an, au, ad⟩ := p
  simp [Packet.headerBytes, Header.toBytes, withCounts, headerItems, Items.octets, Item.octets, u16be_eq,
    lenU16, octets16]

theorem header_toBytes_eq (h : Header) : h.toBytes = Items.octets (headerItems h) := by
  obtain ⟨id, ⟨hi, lo⟩, a, b, c, d⟩ := h
  simp [Header.toBytes, headerItems, Items.octets, Item.octets, u16be_eq]

theorem header_items_at (h : Header) (e : Bytes) :
    Items.At Decodes (Items.octets (headerItems h) ++ e) 0 (headerItems h) (Items.octets (headerItems h)).length := by
  have := items_decode (max := 191) (Nat.le_refl _) (headerItems h) [] (by simp [headerItems, Item.Fits])
    (by simp [headerItems, Item.Open])
  exact items_extend decodes_extends (by simp [headerItems, Item.Open]) (by simpa using this) e

theorem withCounts_ok {p : Packet} (h1 : p.questions.length < 65536) (h2 : p.answers.length < 65536)
    (h3 : p.authorities.length < 65536) (h4 : p.additional.length < 65536) : CountsOk (withCounts p) := by
  simp only [CountsOk, withCounts]
  refine ⟨?_, ?_, ?_, ?_⟩ <;> exact UInt16.toNat_ofNat_of_lt' (by simpa [UInt16.size])

theorem Packet.read_back {cfg : Cfg} {max : Nat} (hmax : max ≤ 191) {p : Packet} (hp : PacketOk cfg max p)
    (hs : ∀ r ∈ records p, (∀ x, r.rdata ≠ .SSHFP x) ∧ sizeError r.rdata = 0 ∧ SetsOk r.rdata) :
    ∃ b, p.toBytes cfg = .ok b ∧ ∀ e, Packet.parseBuf cfg (b ++ e) 0 = (.ok (withCounts p), b.length) := by
  obtain ⟨hq, hr, c1, c2, c3, c4⟩ := hp
  obtain ⟨b1, e1, l1⟩ := questions_read_back hmax p.questions p.headerBytes hq
  obtain ⟨b2, e2, l2⟩ := records_read_back hmax p.answers (p.headerBytes ++ b1)
    (fun r h => hr r (by simp [records, h])) (fun r h => hs r (by simp [records, h]))
  obtain ⟨b3, e3, l3⟩ := records_read_back hmax p.authorities (p.headerBytes ++ b1 ++ b2)
    (fun r h => hr r (by simp [records, h])) (fun r h => hs r (by simp [records, h]))
  obtain ⟨b4, e4, l4⟩ := records_read_back hmax p.additional (p.headerBytes ++ b1 ++ b2 ++ b3)
    (fun r h => hr r (by simp [records, h])) (fun r h => hs r (by simp [records, h]))
  refine ⟨p.headerBytes ++ b1 ++ b2 ++ b3 ++ b4, ?_, fun e => ?_⟩
  · unfold Packet.toBytes
    rw [e1]
    simp only [e2, e3, e4, bind, Res.bind]
  · rw [Packet.parseBuf_ok]
    obtain ⟨w1, w2, w3, w4⟩ := withCounts_ok c1 c2 c3 c4
    refine ⟨w1.symm, w2.symm, w3.symm, w4.symm, p.headerBytes.length, (p.headerBytes ++ b1).length,
      (p.headerBytes ++ b1 ++ b2).length, _, ?_, ?_, ?_, ?_,
      listAt_mono (fun i x j hx => recordAt_extend decodes_extends hx e) _ _ _ l4⟩
    · rw [headerBytes_eq]
      simp only [List.append_assoc]
      exact header_items_at _ _
    · refine listAt_mono (fun i x j hx => ?_) _ _ _ l1
      simpa using questionAt_extend decodes_extends hx (b2 ++ b3 ++ b4 ++ e)
    · refine listAt_mono (fun i x j hx => ?_) _ _ _ l2
      simpa using recordAt_extend decodes_extends hx (b3 ++ b4 ++ e)
    · refine listAt_mono (fun i x j hx => ?_) _ _ _ l3
      simpa using recordAt_extend decodes_extends hx (b4 ++ e)

theorem Packet.read_back_compressed {cfg : Cfg} {max : Nat} (hmax : max ≤ 191) {p : Packet}
    {h : Hash} {U : Fqdn → Prop} (hU : TailClosed U) (hinj : InjOn U h)
    (hp : PacketOk cfg max p) (hc : CountsOk p)
    (hs : ∀ r ∈ records p, ∀ x, r.rdata ≠ .SSHFP x) (hn : ∀ n ∈ packetNames p, U n) :
    ∃ b, p.toBytesCompressed cfg h = .ok b ∧
      (b.length ≤ 16384 → ∀ e, Packet.parseBuf cfg (b ++ e) 0 = (.ok p, b.length)) := by
  obtain ⟨hq, hr, _, _, _, _⟩ := hp
  have hnr : ∀ r ∈ records p, U r.name ∧ ∀ n ∈ rdataNames r.rdata, U n := by
    intro r hr
    refine ⟨hn _ ?_, fun n hm => hn _ ?_⟩
    · simp only [packetNames, List.mem_append, List.mem_flatMap]
      exact .inr ⟨r, hr, by simp⟩
    · simp only [packetNames, List.mem_append, List.mem_flatMap]
      exact .inr ⟨r, hr, by simp [hm]⟩
  obtain ⟨b1, e1, l1⟩ := questions_read_back_compressed hmax hU hinj p.questions Names.empty p.header.toBytes
    (fun q hm => ⟨hq q hm, hn _ (by
      simp only [packetNames, List.mem_append, List.mem_map]; exact .inl ⟨q, hm, rfl⟩)⟩)
  have hall : ∀ r ∈ records p, RecordOk cfg max r ∧ (∀ x, r.rdata ≠ .SSHFP x) ∧ U r.name ∧
      ∀ n ∈ rdataNames r.rdata, U n := fun r hm => ⟨hr r hm, hs r hm, hnr r hm⟩
  obtain ⟨b2, n2, e2, l2⟩ := records_read_back_compressed hmax hU hinj p.answers
    (Packet.questionsCompressed cfg h p.questions Names.empty p.header.toBytes).2 (p.header.toBytes ++ b1)
    (fun r hm => hall r (by simp [records, hm]))
  obtain ⟨b3, n3, e3, l3⟩ := records_read_back_compressed hmax hU hinj p.authorities n2
    (p.header.toBytes ++ b1 ++ b2) (fun r hm => hall r (by simp [records, hm]))
  obtain ⟨b4, n4, e4, l4⟩ := records_read_back_compressed hmax hU hinj p.additional n3
    (p.header.toBytes ++ b1 ++ b2 ++ b3) (fun r hm => hall r (by simp [records, hm]))
  refine ⟨p.header.toBytes ++ b1 ++ b2 ++ b3 ++ b4, ?_, fun hlen e => ?_⟩
  · unfold Packet.toBytesCompressed
    simp only [e1, e2, e3, e4, bind, Res.bind, pure]
  · simp only [List.length_append] at hlen
    obtain ⟨l1, m1⟩ := l1 (mapOk_empty _ _ _ _) (by simp only [List.length_append]; omega)
    obtain ⟨l2, m2⟩ := l2 m1 (by simp only [List.length_append]; omega)
    obtain ⟨l3, m3⟩ := l3 m2 (by simp only [List.length_append]; omega)
    obtain ⟨l4, m4⟩ := l4 m3 (by simp only [List.length_append]; omega)
    rw [Packet.parseBuf_ok]
    obtain ⟨w1, w2, w3, w4⟩ := hc
    refine ⟨w1.symm, w2.symm, w3.symm, w4.symm, p.header.toBytes.length, (p.header.toBytes ++ b1).length,
      (p.header.toBytes ++ b1 ++ b2).length, _, ?_, ?_, ?_, ?_,
      listAt_mono (fun i x j hx => recordAt_extend decodes_extends hx e) _ _ _ l4⟩
    · rw [header_toBytes_eq]
      simp only [List.append_assoc]
      exact header_items_at _ _
    · refine listAt_mono (fun i x j hx => ?_) _ _ _ l1
      simpa using questionAt_extend decodes_extends hx (b2 ++ b3 ++ b4 ++ e)
    · refine listAt_mono (fun i x j hx => ?_) _ _ _ l2
      simpa using recordAt_extend decodes_extends hx (b3 ++ b4 ++ e)
    · refine listAt_mono (fun i x j hx => ?_) _ _ _ l3
      simpa using recordAt_extend decodes_extends hx (b4 ++ e)

end Dns
