import Verif.Spec.Conform
import Verif.Lemmas.PacketWrite
import Verif.Props.RData

/-! Written packets are messages of RFC 1035. -/

namespace Dns
open Spec Buf

/-! ## Names -/

theorem nameWith_extends (max : Nat) (a : Nat → Nat → Prop) : Extends (NameWith max a) :=
  fun _ e _ _ _ h => nameWith_extend h e

theorem nameWith_plain_end {max : Nat} (hmax : max ≤ 191) (a : Nat → Nat → Prop) (pre : Bytes) (n : Fqdn)
    (h : Good max n) : NameWith max a (pre ++ nameOctets n) pre.length n (pre ++ nameOctets n).length := by
  have := nameWith_plain hmax a [] n pre h
  rw [List.append_nil, ← List.length_append] at this
  exact this

/-- From head and data to a record. -/
theorem recordAt_parts {RD : RecordType → Bytes → Nat → RecordData → Prop} {N : NameRel} (hN : Extends N)
    {cfg : Cfg} {max : Nat} {r : ResourceRecord} (h : RecordOk cfg max r)
    {pre head data : Bytes} (hlen : data.length < 65536)
    (h1 : Items.At N (pre ++ head) pre.length
      (recordHead r (r.classBits cfg) (UInt16.ofNat data.length)) (pre ++ head).length)
    (h2 : RD r.type (pre ++ head ++ data) (pre ++ head).length r.rdata) :
    RecordAtWith RD N cfg (pre ++ head ++ data) pre.length r (pre ++ head ++ data).length := by
  have hl : (UInt16.ofNat data.length).toNat = data.length :=
    UInt16.toNat_ofNat_of_lt' (by simpa [UInt16.size] using hlen)
  refine ⟨h.2.1, h.2.2.2.1, r.classBits cfg, UInt16.ofNat data.length, (pre ++ head).length,
    ResourceRecord.classBits_ok h,
    items_extend hN (by simp [Item.Open, o16, recordHead]) h1 data, ?_, Nat.le_refl _, ?_⟩
  · rw [hl]; simp only [List.length_append]
  · rw [List.take_length]; exact h2

/-! ## Without compression -/

section Plain
variable {N : NameRel} (hN : Extends N) {max : Nat}
  (hp : ∀ pre n, Good max n → N (pre ++ nameOctets n) pre.length n (pre ++ nameOctets n).length)
include hN hp

theorem Question.sent {cfg : Cfg} {q : Question} (h : QuestionOk cfg max q) (pre : Bytes) :
    QuestionAt N cfg (pre ++ q.toBytes cfg) pre.length q (pre ++ q.toBytes cfg).length := by
  refine ⟨h.2.1, q.classBits cfg, Question.classBits_ok h, ?_⟩
  rw [Question.toBytes_eq cfg h.1]
  refine items_plain hN hp _ pre ?_ (by simp [Item.Open, o16])
  have : Good max q.qName := h.1
  simp [Item.Fits, o16, this]

theorem ResourceRecord.sent {cfg : Cfg} {r : ResourceRecord} (h : RecordOk cfg max r)
    (hw : WrittenWell r.rdata) (hz : sizeError r.rdata = 0) (hset : SetsOk r.rdata) (pre : Bytes) :
    ∃ b, r.toBytes cfg = .ok b ∧
      RecordAtWith (RDataWritten N cfg) N cfg (pre ++ b) pre.length r (pre ++ b).length := by
  have hn : Good max r.name := h.1
  obtain ⟨its, hs, hi⟩ := writes_strict h.2.2.2.2.2.2.1 hw
  have hd := hi.bytes
  have hdl := h.2.2.2.2.2.2.2 _ hd
  obtain ⟨n, h3, h4⟩ := RecordData.size hset hd
  rw [hz] at h4
  have hnd : n = (Items.octets its).length := by omega
  subst hnd
  let head (n : Nat) := Items.octets (recordHead r (r.classBits cfg) (UInt16.ofNat n))
  have hb : r.toBytes cfg = .ok (head (Items.octets its).length ++ Items.octets its) := by
    unfold ResourceRecord.toBytes
    rw [h3, hd]
    simp [bind, Res.bind, pure, head, recordHead, Items.octets, Item.octets, o16, NameOk.toBytes h.1,
      RecordType.toU16_eq, u16be_eq, u32be_eq, lenU16]
  refine ⟨_, hb, ?_⟩
  rw [← List.append_assoc]
  refine recordAt_parts hN h hdl
    (items_plain hN hp _ pre (by simp [recordHead, Item.Fits, o16, hn]) (by simp [recordHead, Item.Open, o16])) ?_
  exact ⟨h.2.2.1, its, hs, items_plain hN hp its _ hi.fits hi.opens⟩

theorem questions_sent {cfg : Cfg} : ∀ (qs : List Question) (bin : Bytes),
    (∀ q ∈ qs, QuestionOk cfg max q) →
    ∃ b, qs.foldl (fun bin q => bin ++ q.toBytes cfg) bin = bin ++ b ∧
      ListAt (QuestionAt N cfg (bin ++ b)) bin.length qs (bin ++ b).length := by
  intro qs
  induction qs with
  | nil => intro bin _; exact ⟨[], by simp, by simp [ListAt]⟩
  | cons q qs ih =>
    intro bin hq
    obtain ⟨b, h1, h2⟩ := ih (bin ++ q.toBytes cfg) (fun x hx => hq x (List.mem_cons_of_mem _ hx))
    refine ⟨q.toBytes cfg ++ b, by rw [List.foldl_cons, h1, List.append_assoc], ?_⟩
    rw [← List.append_assoc]
    exact ⟨_, questionAt_extend hN (Question.sent hN hp (hq q List.mem_cons_self) bin) b, h2⟩

theorem records_sent {cfg : Cfg} : ∀ (rs : List ResourceRecord) (bin : Bytes),
    (∀ r ∈ rs, RecordOk cfg max r ∧ WrittenWell r.rdata ∧ sizeError r.rdata = 0 ∧ SetsOk r.rdata) →
    ∃ b, Packet.recordsBytes cfg rs bin = .ok (bin ++ b) ∧
      ListAt (RecordAtWith (RDataWritten N cfg) N cfg (bin ++ b)) bin.length rs (bin ++ b).length := by
  intro rs
  induction rs with
  | nil => intro bin _; exact ⟨[], by simp [Packet.recordsBytes, pure], by simp [ListAt]⟩
  | cons r rs ih =>
    intro bin hr
    obtain ⟨a1, a2, a3, a4⟩ := hr r List.mem_cons_self
    obtain ⟨a, h1, h2⟩ := ResourceRecord.sent hN hp a1 a2 a3 a4 bin
    obtain ⟨b, h3, h4⟩ := ih (bin ++ a) (fun x hx => hr x (List.mem_cons_of_mem _ hx))
    refine ⟨a ++ b, ?_, ?_⟩
    · rw [Packet.recordsBytes, h1, ← List.append_assoc]; exact h3
    · rw [← List.append_assoc]
      exact ⟨_, recordAt_extend hN h2 b, h4⟩

end Plain

/-! ## With compression -/

section Compressed
variable {N : NameRel} (hN : Extends N) {max : Nat} (hmax : max ≤ 191) {h : Hash} {U : Fqdn → Prop}
  (hU : TailClosed U) (hinj : InjOn U h)
  (hp : ∀ pre n, Good max n → N (pre ++ nameOctets n) pre.length n (pre ++ nameOctets n).length)
  (hcmp : ∀ (pre : Bytes) (n : Fqdn) (names : Names), U n → Good max n → MapOk max U h names pre →
      (pre ++ (n.toBytesCompressed h names pre.length).1).length ≤ 16384 →
      N (pre ++ (n.toBytesCompressed h names pre.length).1) pre.length n
        (pre ++ (n.toBytesCompressed h names pre.length).1).length)
include hN hmax hU hinj hcmp

theorem Question.sent_compressed {cfg : Cfg} {q : Question}
    (hq : QuestionOk cfg max q) (hn : U q.qName) (names : Names) (pre : Bytes) (hm : MapOk max U h names pre)
    (hlen : (pre ++ (q.toBytesCompressed cfg h names pre.length).1).length ≤ 16384) :
    QuestionAt N cfg (pre ++ (q.toBytesCompressed cfg h names pre.length).1) pre.length q
      (pre ++ (q.toBytesCompressed cfg h names pre.length).1).length ∧
    MapOk max U h (q.toBytesCompressed cfg h names pre.length).2
      (pre ++ (q.toBytesCompressed cfg h names pre.length).1) := by
  have hg : Good max q.qName := hq.1
  rw [Question.compressed_eq] at hlen ⊢
  obtain ⟨h1, h2⟩ := items_compressed hN hmax hU hinj hcmp
    _ names pre (by simp [Item.Fits, o16, hg]) (by simp [Item.Open, o16])
    (by simp [o16, hn]) hm hlen
  exact ⟨⟨hq.2.1, q.classBits cfg, Question.classBits_ok hq, h1⟩, h2⟩

theorem questions_sent_compressed {cfg : Cfg} :
    ∀ (qs : List Question) (names : Names) (bin : Bytes),
    (∀ q ∈ qs, QuestionOk cfg max q ∧ U q.qName) →
    ∃ b, (Packet.questionsCompressed cfg h qs names bin).1 = bin ++ b ∧
      (MapOk max U h names bin → (bin ++ b).length ≤ 16384 →
        ListAt (QuestionAt N cfg (bin ++ b)) bin.length qs (bin ++ b).length ∧
        MapOk max U h (Packet.questionsCompressed cfg h qs names bin).2 (bin ++ b)) := by
  intro qs
  induction qs with
  | nil => intro names bin _; exact ⟨[], by simp [Packet.questionsCompressed], by simp [ListAt, Packet.questionsCompressed]; exact fun h _ => h⟩
  | cons q qs ih =>
    intro names bin hq
    obtain ⟨b, h1, h2⟩ := ih (q.toBytesCompressed cfg h names bin.length).2
      (bin ++ (q.toBytesCompressed cfg h names bin.length).1) (fun x hx => hq x (List.mem_cons_of_mem _ hx))
    refine ⟨(q.toBytesCompressed cfg h names bin.length).1 ++ b, ?_, fun hm hlen => ?_⟩
    · rw [Packet.questionsCompressed]; simp only [h1, List.append_assoc]
    · rw [← List.append_assoc] at hlen ⊢
      have hle : (bin ++ (q.toBytesCompressed cfg h names bin.length).1).length ≤ 16384 := by
        rw [List.length_append] at hlen; omega
      obtain ⟨h3, h4⟩ := Question.sent_compressed hN hmax hU hinj hcmp (hq q List.mem_cons_self).1
        (hq q List.mem_cons_self).2 names bin hm hle
      obtain ⟨h5, h6⟩ := h2 h4 hlen
      exact ⟨⟨_, questionAt_extend hN h3 b, h5⟩, h6⟩

include hp

theorem RecordData.sent_compressed {cfg : Cfg} {r : RecordData}
    (hw : Writable cfg max r) (hs : WrittenWell r) (hn : ∀ n ∈ rdataNames r, U n)
    (names : Names) (pre : Bytes) :
    ∃ b names', r.toBytesCompressed cfg h names pre.length = .ok (b, names') ∧
      (MapOk max U h names pre → (pre ++ b).length ≤ 16384 →
        RDataWritten N cfg r.type (pre ++ b) pre.length r ∧ MapOk max U h names' (pre ++ b)) := by
  obtain ⟨its, hst, hi⟩ := writes_strict hw hs
  have hc := hi.compressed h names pre.length
  by_cases hcc : compresses r = true
  · rw [if_pos hcc] at hc
    refine ⟨_, _, hc, fun hm hlen => ?_⟩
    obtain ⟨h1, h2⟩ := items_compressed hN hmax hU hinj hcmp
      its names pre hi.fits hi.opens (fun n hmem => hn n (hi.names n hmem)) hm hlen
    exact ⟨⟨rfl, its, hst, h1⟩, h2⟩
  · rw [if_neg hcc] at hc
    exact ⟨_, _, hc, fun hm _ => ⟨⟨rfl, its, hst, items_plain hN hp its _ hi.fits hi.opens⟩, hm.extend _⟩⟩

theorem ResourceRecord.sent_compressed {cfg : Cfg} {r : ResourceRecord}
    (hr : RecordOk cfg max r) (hs : WrittenWell r.rdata) (hn : U r.name)
    (hn2 : ∀ n ∈ rdataNames r.rdata, U n) (names : Names) (pre : Bytes) :
    ∃ b names', r.toBytesCompressed cfg h names pre.length = .ok (b, names') ∧
      (MapOk max U h names pre → (pre ++ b).length ≤ 16384 →
        RecordAtWith (RDataWritten N cfg) N cfg (pre ++ b) pre.length r (pre ++ b).length ∧
        MapOk max U h names' (pre ++ b)) := by
  have hg : Good max r.name := hr.1
  let its (n : Nat) := recordHead r (r.classBits cfg) (UInt16.ofNat n)
  let hc := r.headCompressed cfg h names pre.length
  have hcl : ∀ n, Items.compress h (its n) names pre.length = (hc.1 ++ u16be (lenU16 n), hc.2) := by
    intro n
    simp [its, hc, recordHead, ResourceRecord.headCompressed, Items.compress, Item.compress, Item.octets,
      o16, RecordType.toU16_eq, u16be_eq, u32be_eq, lenU16]
  have hlen2 : ∀ n, (pre ++ (hc.1 ++ u16be (lenU16 n))).length = pre.length + hc.1.length + 2 := by
    intro n; simp [u16be_length]; omega
  obtain ⟨data, names', h1, _⟩ := RecordData.sent_compressed hN hmax hU hinj hp hcmp hr.2.2.2.2.2.2.1 hs hn2
    hc.2 (pre ++ (hc.1 ++ u16be (lenU16 0)))
  have hw : r.toBytesCompressed cfg h names pre.length = .ok (hc.1 ++ u16be (lenU16 data.length) ++ data, names') := by
    unfold ResourceRecord.toBytesCompressed
    rw [hlen2 0] at h1
    simp only
    show (do
      let data ← r.rdata.toBytesCompressed cfg h hc.2 (pre.length + hc.1.length + 2)
      return (hc.1 ++ u16be (lenU16 data.1.length) ++ data.1, data.2) : Res _) = _
    rw [h1]; rfl
  refine ⟨_, _, hw, fun hm hlen => ?_⟩
  rw [← List.append_assoc] at hlen ⊢
  have hle : (pre ++ (hc.1 ++ u16be (lenU16 data.length))).length ≤ 16384 := by
    rw [List.length_append] at hlen; omega
  have hdl : data.length < 65536 := by
    rw [List.length_append] at hlen; omega
  obtain ⟨h3, h4⟩ := items_compressed hN hmax hU hinj hcmp
    (its data.length) names pre (by simp [its, recordHead, Item.Fits, o16, hg])
    (by simp [its, recordHead, Item.Open, o16])
    (by simp [its, recordHead, o16, hn]) hm (by rw [hcl]; exact hle)
  rw [hcl] at h3 h4
  obtain ⟨data2, names2, h5, h6⟩ := RecordData.sent_compressed hN hmax hU hinj hp hcmp hr.2.2.2.2.2.2.1 hs hn2
    hc.2 (pre ++ (hc.1 ++ u16be (lenU16 data.length)))
  rw [hlen2] at h1 h5
  rw [h1] at h5
  cases h5
  obtain ⟨h7, h8⟩ := h6 h4 hlen
  exact ⟨recordAt_parts hN hr hdl h3 (hr.2.2.1 ▸ h7), h8⟩

theorem records_sent_compressed {cfg : Cfg} :
    ∀ (rs : List ResourceRecord) (names : Names) (bin : Bytes),
    (∀ r ∈ rs, RecordOk cfg max r ∧ WrittenWell r.rdata ∧ U r.name ∧ ∀ n ∈ rdataNames r.rdata, U n) →
    ∃ b names', Packet.recordsCompressed cfg h rs names bin = .ok (bin ++ b, names') ∧
      (MapOk max U h names bin → (bin ++ b).length ≤ 16384 →
        ListAt (RecordAtWith (RDataWritten N cfg) N cfg (bin ++ b)) bin.length rs (bin ++ b).length ∧
        MapOk max U h names' (bin ++ b)) := by
  intro rs
  induction rs with
  | nil =>
    intro names bin _
    exact ⟨[], names, by simp [Packet.recordsCompressed, pure], by simp [ListAt]; exact fun h _ => h⟩
  | cons r rs ih =>
    intro names bin hr
    obtain ⟨hr1, hr2, hr3, hr4⟩ := hr r List.mem_cons_self
    obtain ⟨a, names1, h1, h2⟩ := ResourceRecord.sent_compressed hN hmax hU hinj hp hcmp hr1 hr2 hr3 hr4 names bin
    obtain ⟨b, names2, h3, h4⟩ := ih names1 (bin ++ a) (fun x hx => hr x (List.mem_cons_of_mem _ hx))
    refine ⟨a ++ b, names2, ?_, fun hm hlen => ?_⟩
    · rw [Packet.recordsCompressed, h1, ← List.append_assoc]; exact h3
    · rw [← List.append_assoc] at hlen ⊢
      have hle : (bin ++ a).length ≤ 16384 := by
        rw [List.length_append] at hlen; omega
      obtain ⟨h5, h6⟩ := h2 hm hle
      obtain ⟨h7, h8⟩ := h4 h6 hlen
      exact ⟨⟨_, recordAt_extend hN h5 b, h7⟩, h8⟩

end Compressed

/-! ## Packets -/

theorem header_sent {N : NameRel} (hN : Extends N) {max : Nat}
    (hpl : ∀ pre n, Good max n → N (pre ++ nameOctets n) pre.length n (pre ++ nameOctets n).length)
    (h : Header) (e : Bytes) :
    Items.At N (Items.octets (headerItems h) ++ e) 0 (headerItems h) (Items.octets (headerItems h)).length := by
  have := items_plain hN hpl (headerItems h) [] (by simp [headerItems, Item.Fits]) (by simp [headerItems, Item.Open])
  exact items_extend hN (by simp [headerItems, Item.Open]) (by simpa using this) e

theorem Packet.sent {cfg : Cfg} {N : NameRel} (hN : Extends N) {max : Nat}
    (hpl : ∀ pre n, Good max n → N (pre ++ nameOctets n) pre.length n (pre ++ nameOctets n).length)
    {p : Packet} (hp : PacketOk cfg max p)
    (hs : ∀ r ∈ records p, WrittenWell r.rdata ∧ sizeError r.rdata = 0 ∧ SetsOk r.rdata) :
    ∃ b, p.toBytes cfg = .ok b ∧ SentMessage N cfg b (withCounts p) := by
  obtain ⟨hq, hr, c1, c2, c3, c4⟩ := hp
  obtain ⟨b1, e1, l1⟩ := questions_sent hN hpl p.questions p.headerBytes hq
  obtain ⟨b2, e2, l2⟩ := records_sent hN hpl p.answers (p.headerBytes ++ b1)
    (fun r h => ⟨hr r (by simp [records, h]), hs r (by simp [records, h])⟩)
  obtain ⟨b3, e3, l3⟩ := records_sent hN hpl p.authorities (p.headerBytes ++ b1 ++ b2)
    (fun r h => ⟨hr r (by simp [records, h]), hs r (by simp [records, h])⟩)
  obtain ⟨b4, e4, l4⟩ := records_sent hN hpl p.additional (p.headerBytes ++ b1 ++ b2 ++ b3)
    (fun r h => ⟨hr r (by simp [records, h]), hs r (by simp [records, h])⟩)
  refine ⟨p.headerBytes ++ b1 ++ b2 ++ b3 ++ b4, ?_, ?_⟩
  · unfold Packet.toBytes
    rw [e1]
    simp only [e2, e3, e4, bind, Res.bind]
  · obtain ⟨w1, w2, w3, w4⟩ := withCounts_ok c1 c2 c3 c4
    refine ⟨w1.symm, w2.symm, w3.symm, w4.symm, p.headerBytes.length, (p.headerBytes ++ b1).length,
      (p.headerBytes ++ b1 ++ b2).length, _, ?_, ?_, ?_, ?_, l4⟩
    · rw [headerBytes_eq]
      simp only [List.append_assoc]
      exact header_sent hN hpl _ _
    · refine listAt_mono (fun i x j hx => ?_) _ _ _ l1
      simpa using questionAt_extend hN hx (b2 ++ b3 ++ b4)
    · refine listAt_mono (fun i x j hx => ?_) _ _ _ l2
      simpa using recordAt_extend hN hx (b3 ++ b4)
    · refine listAt_mono (fun i x j hx => ?_) _ _ _ l3
      simpa using recordAt_extend hN hx b4

theorem Packet.sent_compressed {cfg : Cfg} {N : NameRel} (hN : Extends N) {max : Nat} (hmax : max ≤ 191)
    {p : Packet} {h : Hash} {U : Fqdn → Prop} (hU : TailClosed U) (hinj : InjOn U h)
    (hpl : ∀ pre n, Good max n → N (pre ++ nameOctets n) pre.length n (pre ++ nameOctets n).length)
    (hcmp : ∀ (pre : Bytes) (n : Fqdn) (names : Names), U n → Good max n → MapOk max U h names pre →
      (pre ++ (n.toBytesCompressed h names pre.length).1).length ≤ 16384 →
      N (pre ++ (n.toBytesCompressed h names pre.length).1) pre.length n
        (pre ++ (n.toBytesCompressed h names pre.length).1).length)
    (hp : PacketOk cfg max p) (hc : CountsOk p)
    (hs : ∀ r ∈ records p, WrittenWell r.rdata) (hn : ∀ n ∈ packetNames p, U n) :
    ∃ b, p.toBytesCompressed cfg h = .ok b ∧ (b.length ≤ 16384 → SentMessage N cfg b p) := by
  obtain ⟨hq, hr, _, _, _, _⟩ := hp
  have hnr : ∀ r ∈ records p, U r.name ∧ ∀ n ∈ rdataNames r.rdata, U n := by
    intro r hr
    refine ⟨hn _ ?_, fun n hm => hn _ ?_⟩
    · simp only [packetNames, List.mem_append, List.mem_flatMap]
      exact .inr ⟨r, hr, by simp⟩
    · simp only [packetNames, List.mem_append, List.mem_flatMap]
      exact .inr ⟨r, hr, by simp [hm]⟩
  obtain ⟨b1, e1, l1⟩ := questions_sent_compressed hN hmax hU hinj hcmp p.questions Names.empty p.header.toBytes
    (fun q hm => ⟨hq q hm, hn _ (by
      simp only [packetNames, List.mem_append, List.mem_map]; exact .inl ⟨q, hm, rfl⟩)⟩)
  have hall : ∀ r ∈ records p, RecordOk cfg max r ∧ WrittenWell r.rdata ∧ U r.name ∧
      ∀ n ∈ rdataNames r.rdata, U n := fun r hm => ⟨hr r hm, hs r hm, hnr r hm⟩
  obtain ⟨b2, n2, e2, l2⟩ := records_sent_compressed hN hmax hU hinj hpl hcmp p.answers
    (Packet.questionsCompressed cfg h p.questions Names.empty p.header.toBytes).2 (p.header.toBytes ++ b1)
    (fun r hm => hall r (by simp [records, hm]))
  obtain ⟨b3, n3, e3, l3⟩ := records_sent_compressed hN hmax hU hinj hpl hcmp p.authorities n2
    (p.header.toBytes ++ b1 ++ b2) (fun r hm => hall r (by simp [records, hm]))
  obtain ⟨b4, n4, e4, l4⟩ := records_sent_compressed hN hmax hU hinj hpl hcmp p.additional n3
    (p.header.toBytes ++ b1 ++ b2 ++ b3) (fun r hm => hall r (by simp [records, hm]))
  refine ⟨p.header.toBytes ++ b1 ++ b2 ++ b3 ++ b4, ?_, fun hlen => ?_⟩
  · unfold Packet.toBytesCompressed
    simp only [e1, e2, e3, e4, bind, Res.bind, pure]
  · simp only [List.length_append] at hlen
    obtain ⟨l1, m1⟩ := l1 (mapOk_empty _ _ _ _) (by simp only [List.length_append]; omega)
    obtain ⟨l2, m2⟩ := l2 m1 (by simp only [List.length_append]; omega)
    obtain ⟨l3, m3⟩ := l3 m2 (by simp only [List.length_append]; omega)
    obtain ⟨l4, m4⟩ := l4 m3 (by simp only [List.length_append]; omega)
    obtain ⟨w1, w2, w3, w4⟩ := hc
    refine ⟨w1.symm, w2.symm, w3.symm, w4.symm, p.header.toBytes.length, (p.header.toBytes ++ b1).length,
      (p.header.toBytes ++ b1 ++ b2).length, _, ?_, ?_, ?_, ?_, l4⟩
    · rw [header_toBytes_eq]
      simp only [List.append_assoc]
      exact header_sent hN hpl _ _
    · refine listAt_mono (fun i x j hx => ?_) _ _ _ l1
      simpa using questionAt_extend hN hx (b2 ++ b3 ++ b4)
    · refine listAt_mono (fun i x j hx => ?_) _ _ _ l2
      simpa using recordAt_extend hN hx (b3 ++ b4)
    · refine listAt_mono (fun i x j hx => ?_) _ _ _ l3
      simpa using recordAt_extend hN hx b4

end Dns
