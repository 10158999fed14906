import Verif.Lemmas.Conform

/-! Packets whose octets are a message without compression: the converse of `Lemmas/Conform.lean`. -/

namespace Dns
open Spec Buf

theorem plainName_octets {d : Bytes} {i j : Nat} {n : Fqdn} (h : PlainName d i n j) :
    Octets d i (nameOctets n) j := by
  unfold PlainName at h
  induction h with
  | root h => exact octets_of_getElem? h
  | @label i j ls len l a b c e _ ih =>
    have : nameOctets (l :: ls) = (len :: l) ++ nameOctets ls := by
      simp [nameOctets, c]
    rw [this]
    exact octets_append.mpr ⟨_, e, ih⟩
  | pointer a b c => exact c.elim

theorem item_octets {N : NameRel} {d : Bytes} {i j : Nat} {it : Item} (hi : i ≤ d.length)
    (hN : ∀ n, it = .name n → N d i n j → Octets d i (nameOctets n) j)
    (h : it.At N d i j) : Octets d i it.octets j := by
  cases it with
  | u8 v => exact h
  | u16 v => exact h
  | u32 v => exact h
  | num k v =>
    obtain ⟨b, h1, rfl, rfl⟩ := h
    rw [Item.octets, ← toBE_eq_map, valueOf_eq, toBE_ofBE]
    exact h1
  | name n => exact hN n rfl h
  | raw b => exact h
  | str b => exact h.2
  | str16 b => exact h.2
  | rest b => exact h.1
  | eof => obtain ⟨rfl, rfl⟩ := h; exact ⟨d, [], by simp [Item.octets], rfl, rfl⟩

theorem items_octets {N : NameRel} {d : Bytes} : ∀ {its : List Item} {i j : Nat}, i ≤ d.length →
    (∀ n, .name n ∈ its → ∀ i j, N d i n j → Octets d i (nameOctets n) j) →
    Items.At N d i its j → Octets d i (Items.octets its) j := by
  intro its
  induction its with
  | nil =>
    rintro i j hi _ rfl
    exact ⟨d.take i, d.drop i, by simp [Items.octets], by simp; omega, by simp [Items.octets]⟩
  | cons it its ih =>
    rintro i j hi hN ⟨k, h1, h2⟩
    have h3 := item_octets hi (fun n hn => hN n (hn ▸ List.mem_cons_self) i k) h1
    rw [octets_cons]
    exact octets_append.mpr ⟨k, h3, ih h3.le (fun n hn => hN n (List.mem_cons_of_mem _ hn)) h2⟩

theorem plain_octets {d : Bytes} {its : List Item} {i j : Nat} (hi : i ≤ d.length)
    (h : Items.At PlainName d i its j) : Octets d i (Items.octets its) j :=
  items_octets hi (fun _ _ _ _ => plainName_octets) h

/-- The data of which the crate gets the size wrong have one encoding only. -/
theorem strict_unique {cfg : Cfg} {r : RecordData} (hz : sizeError r ≠ 0) {a b : List Item}
    (ha : RDataStrict cfg r a) (hb : RDataStrict cfg r b) : a = b := by
  cases r with
  | OPT r => exact Eq.trans ha (Eq.symm hb)
  | CAA r => exact Eq.trans ha (Eq.symm hb)
  | RRSIG r => exact Eq.trans ha.2 hb.2.symm
  | SVCB r => exact Eq.trans ha.1 hb.1.symm
  | _ => exact (hz rfl).elim

theorem options_length_le (o : List (UInt16 × Bytes)) : 4 * o.length ≤ (Items.octets (optionItems o)).length := by
  induction o with
  | nil => simp
  | cons x o ih =>
    have : Items.octets (optionItems (x :: o)) =
        octets16 x.1 ++ (octets16 (UInt16.ofNat x.2.length) ++ x.2) ++ Items.octets (optionItems o) := by
      simp [optionItems, Items.octets, Item.octets]
    rw [this]
    simp only [List.length_append, List.length_cons, octets16, List.length_nil]
    omega

theorem paramItems_length (p : Param) : 4 ≤ (Items.octets (paramItems p)).length := by
  cases p <;> simp [paramItems, Items.octets, Item.octets, octets16, o16]

theorem params_length (ps : List Param) :
    4 * ps.length ≤ (Items.octets (ps.flatMap paramItems)).length := by
  induction ps with
  | nil => simp
  | cons p ps ih =>
    rw [List.flatMap_cons, octets_append_items, List.length_append]
    have := paramItems_length p
    simp only [List.length_cons]
    omega

/-- The size the crate writes is not right by accident (modulo 65536). -/
theorem sizeError_small {cfg : Cfg} {max : Nat} {r : RecordData} {its : List Item} (hw : Writable cfg max r)
    (h : RDataStrict cfg r its) (hl : (Items.octets its).length < 65536)
    (hm : (65536 : Int) ∣ sizeError r) : sizeError r = 0 := by
  cases r with
  | OPT r =>
    have : (4 : Int) ∣ 2 - 4 * r.options.length := Int.dvd_trans (by decide) hm
    omega
  | CAA r =>
    have h2 : r.tag.length < 256 := hw.2.1
    simp only [sizeError] at hm ⊢
    omega
  | RRSIG r => simp [sizeError] at hm
  | SVCB r =>
    have h1 := h.1
    rw [h1, octets_append_items, octets_append_items] at hl
    simp only [List.length_append] at hl
    have h2 := params_length r.params
    simp only [sizeError] at hm ⊢
    omega
  | _ => rfl

theorem octets16_cancel {a b : UInt16} (h : octets16 a = octets16 b) : a = b := by
  have := congrArg valueOf h
  rw [← UInt16.ofNat_toNat (x := a), ← UInt16.ofNat_toNat (x := b), valueOf_octets16 _ a.toNat_lt,
    valueOf_octets16 _ b.toNat_lt] at this
  exact UInt16.toNat_inj.mp this

theorem ResourceRecord.sent_only {cfg : Cfg} {max : Nat} {r : ResourceRecord} (h : RecordOk cfg max r)
    {pre b post : Bytes} {j : Nat} (hb : r.toBytes cfg = .ok b)
    (hr : RecordAtWith (RDataWritten PlainName cfg) PlainName cfg (pre ++ b ++ post) pre.length r j) :
    WrittenWell r.rdata ∧ sizeError r.rdata = 0 ∧ j = (pre ++ b).length := by
  have hn : Good max r.name := h.1
  obtain ⟨_, _, v, len, k, hc, h1, h2, h3, ht, its, hs, h4⟩ := hr
  -- the data as written
  unfold ResourceRecord.toBytes at hb
  obtain ⟨n, hn1, hb⟩ := Res.bind_ok.mp hb
  obtain ⟨data, hd, hb⟩ := Res.bind_ok.mp hb
  have hdl := h.2.2.2.2.2.2.2 _ hd
  obtain ⟨n', h5, h6⟩ := RecordData.size (writable_sets h.2.2.2.2.2.2.1) hd
  rw [hn1] at h5
  cases h5
  let head := Items.octets (recordHead r (r.classBits cfg) (UInt16.ofNat n))
  have hb' : b = head ++ data := by
    have := (Res.ok.inj hb).symm
    simpa [head, recordHead, Items.octets, Item.octets, o16, NameOk.toBytes h.1,
      RecordType.toU16_eq, u16be_eq, u32be_eq, lenU16] using this
  subst hb'
  have hpl : pre.length ≤ (pre ++ (head ++ data) ++ post).length := by simp
  have h7 := plain_octets hpl h1
  have h8 : Octets (pre ++ (head ++ data) ++ post) pre.length head (pre.length + head.length) :=
    ⟨pre, data ++ post, by simp, rfl, rfl⟩
  have h9 : (Items.octets (recordHead r v len)).length = head.length := by
    simp [head, recordHead, Items.octets, Item.octets, o16, octets16]
  have h10 := h7.inj h8 h9
  have hk : k = pre.length + head.length := by rw [h7.end_eq, h9]
  have h11 : len = UInt16.ofNat n := by
    have e : ∀ v l, Items.octets (recordHead r v l) =
        (nameOctets r.name ++ octets16 (UInt16.ofNat (typeNumber r.type)) ++ octets16 v ++ octets32 r.ttl) ++
          octets16 l := by
      intro v l; simp [recordHead, Items.octets, Item.octets, o16]
    simp only [head, e] at h10
    exact octets16_cancel (List.append_inj h10 (by simp [octets16])).2
  have hlen : len.toNat = n % 65536 := by rw [h11]; simp
  have hk2 : k ≤ j := by omega
  have h12 := plain_octets (by simp; omega) h4
  have h13 : (Items.octets its).length = len.toNat := by
    have := h12.end_eq
    rw [List.length_take_of_le h3] at this
    omega
  by_cases hz : sizeError r.rdata = 0
  · have hnd : n = data.length := by omega
    have h14 : len.toNat = data.length := by omega
    have h15 : Octets (pre ++ (head ++ data) ++ post) k data (k + data.length) :=
      ⟨pre ++ head, post, by simp, by simp [hk], rfl⟩
    have h16 : Octets (pre ++ (head ++ data) ++ post) k (Items.octets its) j := by
      have := h12.extend ((pre ++ (head ++ data) ++ post).drop j)
      rwa [List.take_append_drop, List.length_take_of_le h3] at this
    have h17 := h16.inj h15 (by omega)
    refine ⟨(C38_write_exact cfg max r.rdata h.2.2.2.2.2.2.1).mp ⟨its, hs, by rw [hd, h17]⟩, hz, ?_⟩
    simp only [List.length_append]; omega
  · exfalso
    have hww : WrittenWell r.rdata := by
      cases hrd : r.rdata <;> first | trivial | (rw [hrd] at hz; exact (hz rfl).elim)
    obtain ⟨its', hs', hi⟩ := writes_strict h.2.2.2.2.2.2.1 hww
    have := strict_unique hz hs hs'
    subst this
    have h14 : data = Items.octets its := Res.ok.inj (hd.symm.trans hi.bytes)
    refine hz (sizeError_small h.2.2.2.2.2.2.1 hs (by rw [← h14]; exact hdl) ?_)
    rw [← h14] at h13
    omega

theorem Question.sent_only {cfg : Cfg} {max : Nat} {q : Question} (h : QuestionOk cfg max q)
    {pre post : Bytes} {j : Nat} (hr : QuestionAt PlainName cfg (pre ++ q.toBytes cfg ++ post) pre.length q j) :
    j = (pre ++ q.toBytes cfg).length := by
  obtain ⟨_, v, _, h1⟩ := hr
  have h2 := (plain_octets (by simp) h1).end_eq
  rw [h2, Question.toBytes_eq cfg h.1]
  simp [Items.octets, Item.octets, octets16, o16]

theorem questions_only {cfg : Cfg} {max : Nat} : ∀ (qs : List Question) (bin : Bytes) (post : Bytes) (j : Nat),
    (∀ q ∈ qs, QuestionOk cfg max q) →
    ListAt (QuestionAt PlainName cfg (qs.foldl (fun bin q => bin ++ q.toBytes cfg) bin ++ post)) bin.length qs j →
    j = (qs.foldl (fun bin q => bin ++ q.toBytes cfg) bin).length := by
  intro qs
  induction qs with
  | nil => rintro bin post j _ h; exact h.symm
  | cons q qs ih =>
    rintro bin post j hq ⟨k, h1, h2⟩
    obtain ⟨b, hb⟩ : ∃ b, (q :: qs).foldl (fun bin q => bin ++ q.toBytes cfg) bin = bin ++ q.toBytes cfg ++ b := by
      rw [List.foldl_cons]
      generalize bin ++ q.toBytes cfg = c
      clear h1 h2 ih hq
      induction qs generalizing c with
      | nil => exact ⟨[], by simp⟩
      | cons q qs ih =>
        obtain ⟨b, hb⟩ := ih (c ++ q.toBytes cfg)
        exact ⟨q.toBytes cfg ++ b, by rw [List.foldl_cons, hb, List.append_assoc]⟩
    have h3 : k = (bin ++ q.toBytes cfg).length := by
      refine Question.sent_only (post := b ++ post) (hq q List.mem_cons_self) ?_
      rw [hb] at h1
      simpa using h1
    subst h3
    exact ih _ post j (fun x hx => hq x (List.mem_cons_of_mem _ hx)) h2

theorem records_only {cfg : Cfg} {max : Nat} : ∀ (rs : List ResourceRecord) (bin B post : Bytes) (j : Nat),
    (∀ r ∈ rs, RecordOk cfg max r) → Packet.recordsBytes cfg rs bin = .ok B →
    ListAt (RecordAtWith (RDataWritten PlainName cfg) PlainName cfg (B ++ post)) bin.length rs j →
    (∀ r ∈ rs, WrittenWell r.rdata ∧ sizeError r.rdata = 0) ∧ j = B.length := by
  intro rs
  induction rs with
  | nil =>
    rintro bin B post j _ hb h
    have : bin = B := by simpa [Packet.recordsBytes, pure] using hb
    subst this
    exact ⟨by simp, h.symm⟩
  | cons r rs ih =>
    rintro bin B post j hr hb ⟨k, h1, h2⟩
    obtain ⟨a, h3, h4⟩ := Res.bind_ok.mp hb
    obtain ⟨b, rfl⟩ := recordsBytes_prefix _ _ _ h4
    obtain ⟨h5, h6, rfl⟩ := ResourceRecord.sent_only (post := b ++ post) (pre := bin) (hr r List.mem_cons_self) h3
      (by simpa using h1)
    obtain ⟨h7, h8⟩ := ih _ _ post j (fun x hx => hr x (List.mem_cons_of_mem _ hx)) h4 h2
    exact ⟨by simpa using ⟨⟨h5, h6⟩, h7⟩, h8⟩

theorem Packet.sent_only {cfg : Cfg} {max : Nat} {p : Packet} (hp : PacketOk cfg max p) {b : Bytes}
    (hb : p.toBytes cfg = .ok b) (h : SentMessage PlainName cfg b (withCounts p)) :
    ∀ r ∈ records p, WrittenWell r.rdata ∧ sizeError r.rdata = 0 := by
  obtain ⟨hq, hr, _⟩ := hp
  obtain ⟨_, _, _, _, i1, i2, i3, i4, h0, h1, h2, h3, h4⟩ := h
  obtain ⟨B2, e2, hb⟩ := Res.bind_ok.mp hb
  obtain ⟨B3, e3, e4⟩ := Res.bind_ok.mp hb
  obtain ⟨b4, rfl⟩ := recordsBytes_prefix _ _ _ e4
  obtain ⟨b3, rfl⟩ := recordsBytes_prefix _ _ _ e3
  obtain ⟨b2, rfl⟩ := recordsBytes_prefix _ _ _ e2
  have k1 : i1 = p.headerBytes.length := by
    have := (plain_octets (Nat.zero_le _) h0).end_eq
    rw [this, headerBytes_eq, Nat.zero_add]
  subst k1
  have k2 := questions_only p.questions p.headerBytes (b2 ++ b3 ++ b4) i2 hq (by simpa [withCounts] using h1)
  subst k2
  obtain ⟨r2, rfl⟩ := records_only p.answers _ _ (b3 ++ b4) _ (fun r h => hr r (by simp [records, h])) e2
    (by simpa [withCounts] using h2)
  obtain ⟨r3, rfl⟩ := records_only p.authorities _ _ b4 _ (fun r h => hr r (by simp [records, h])) e3
    (by simpa [withCounts] using h3)
  obtain ⟨r4, _⟩ := records_only p.additional _ _ [] _ (fun r h => hr r (by simp [records, h])) e4
    (by simpa [withCounts] using h4)
  intro r hm
  simp only [records, List.mem_append] at hm
  rcases hm with (hm | hm) | hm
  · exact r2 r hm
  · exact r3 r hm
  · exact r4 r hm

/-! ## With compression -/

theorem no_names_octets {N : NameRel} {d : Bytes} {its : List Item} {i j : Nat} (hi : i ≤ d.length)
    (hn : ∀ n, .name n ∉ its) (h : Items.At N d i its j) : Octets d i (Items.octets its) j :=
  items_octets hi (fun n hm => (hn n hm).elim) h

theorem backwardName_unique {d : Bytes} {i j k : Nat} {n m : Fqdn} (h1 : BackwardName d i n j)
    (h2 : BackwardName d i m k) : n = m ∧ j = k := nameWith_unique (by omega) (by omega) h1 h2

theorem backwardName_extends : Extends BackwardName := nameWith_extends _ _

/-- A name followed by items without names ends at one place. -/
theorem name_items_unique {d : Bytes} {n : Fqdn} {a b : List Item} {i j k : Nat}
    (ha : ∀ n, .name n ∉ a) (hb : ∀ n, .name n ∉ b) (hl : (Items.octets a).length = (Items.octets b).length)
    (h1 : Items.At BackwardName d i (.name n :: a) j) (h2 : Items.At BackwardName d i (.name n :: b) k) :
    Items.octets a = Items.octets b ∧ j = k := by
  obtain ⟨k1, h3, h4⟩ := h1
  obtain ⟨k2, h5, h6⟩ := h2
  obtain ⟨-, rfl⟩ := backwardName_unique h3 h5
  have hk : k1 ≤ d.length := (nameWith_end_le h3).2
  have h7 := no_names_octets hk ha h4
  have h8 := no_names_octets hk hb h6
  exact ⟨h7.inj h8 hl, by rw [h7.end_eq, h8.end_eq, hl]⟩

theorem name_items_same {d : Bytes} {n : Fqdn} {a b : List Item} {i j : Nat}
    (ha : ∀ n, .name n ∉ a) (hb : ∀ n, .name n ∉ b)
    (h1 : Items.At BackwardName d i (.name n :: a) j) (h2 : Items.At BackwardName d i (.name n :: b) j) :
    Items.octets a = Items.octets b := by
  obtain ⟨k1, h3, h4⟩ := h1
  obtain ⟨k2, h5, h6⟩ := h2
  obtain ⟨-, rfl⟩ := backwardName_unique h3 h5
  have hk : k1 ≤ d.length := (nameWith_end_le h3).2
  have h7 := no_names_octets hk ha h4
  have h8 := no_names_octets hk hb h6
  exact h7.inj h8 (by have := h7.end_eq; have := h8.end_eq; omega)

theorem windowItems_no_names (ws : List (UInt8 × Bytes)) (n : Fqdn) : .name n ∉ windowItems ws := by
  simp [windowItems]

section Compressed
variable {h : Hash} {U : Fqdn → Prop} (hU : TailClosed U) (hinj : InjOn U h)
include hU hinj

theorem backward_compressed (pre : Bytes) (n : Fqdn) (names : Names) (hn : U n) (hg : Good 63 n)
    (hm : MapOk 63 U h names pre)
    (hl : (pre ++ (n.toBytesCompressed h names pre.length).1).length ≤ 16384) :
    BackwardName (pre ++ (n.toBytesCompressed h names pre.length).1) pre.length n
        (pre ++ (n.toBytesCompressed h names pre.length).1).length :=
  compressed_nameWith (by omega) hU hinj hn hg hm hl

theorem RecordData.any_compressed {cfg : Cfg} {r : RecordData}
    (hw : Writable cfg 63 r) (hn : ∀ n ∈ rdataNames r, U n) (names : Names) (pre : Bytes) :
    ∃ b names', r.toBytesCompressed cfg h names pre.length = .ok (b, names') ∧
      (MapOk 63 U h names pre → (pre ++ b).length ≤ 16384 →
        MapOk 63 U h names' (pre ++ b) ∧
        ((∃ its, Writes cfg 63 r its ∧ Items.At BackwardName (pre ++ b) pre.length its (pre ++ b).length) ∨
          ∃ k, r = .IPSECKEY k ∧ k.gateway = .none ∧ r.toBytes cfg = .ok b)) := by
  by_cases hg : ∀ k, r = .IPSECKEY k → k.gateway ≠ .none
  · obtain ⟨its, hi⟩ := RecordData.write_ok hw hg
    have hc := hi.compressed h names pre.length
    by_cases hcc : compresses r = true
    · rw [if_pos hcc] at hc
      refine ⟨_, _, hc, fun hm hlen => ?_⟩
      obtain ⟨h1, h2⟩ := items_compressed backwardName_extends (by omega) hU hinj (backward_compressed hU hinj)
        its names pre hi.fits hi.opens (fun n hmem => hn n (hi.names n hmem)) hm hlen
      exact ⟨h2, .inl ⟨its, hi, h1⟩⟩
    · rw [if_neg hcc] at hc
      exact ⟨_, _, hc, fun hm _ => ⟨hm.extend _, .inl ⟨its, hi,
        items_plain backwardName_extends (nameWith_plain_end (by omega) _) its _ hi.fits hi.opens⟩⟩⟩
  · push Not at hg
    obtain ⟨k, rfl, hk⟩ := hg
    exact ⟨_, _, rfl, fun hm _ => ⟨hm.extend _, .inr ⟨k, rfl, hk, rfl⟩⟩⟩

theorem ResourceRecord.sent_only_compressed {cfg : Cfg} {r : ResourceRecord}
    (hr : RecordOk cfg 63 r) (hn : U r.name) (hn2 : ∀ n ∈ rdataNames r.rdata, U n) (names : Names) (pre : Bytes) :
    ∃ b names', r.toBytesCompressed cfg h names pre.length = .ok (b, names') ∧
      (MapOk 63 U h names pre → (pre ++ b).length ≤ 16384 →
        MapOk 63 U h names' (pre ++ b) ∧ ∀ post j,
        RecordAtWith (RDataWritten BackwardName cfg) BackwardName cfg (pre ++ b ++ post) pre.length r j →
          WrittenWell r.rdata ∧ j = (pre ++ b).length) := by
  have hg : Good 63 r.name := hr.1
  let its (n : Nat) := recordHead r (r.classBits cfg) (UInt16.ofNat n)
  let hc := r.headCompressed cfg h names pre.length
  have hcl : ∀ n, Items.compress h (its n) names pre.length = (hc.1 ++ u16be (lenU16 n), hc.2) := by
    intro n
    simp [its, hc, recordHead, ResourceRecord.headCompressed, Items.compress, Item.compress, Item.octets,
      o16, RecordType.toU16_eq, u16be_eq, u32be_eq, lenU16]
  have hlen2 : ∀ n, (pre ++ (hc.1 ++ u16be (lenU16 n))).length = pre.length + hc.1.length + 2 := by
    intro n; simp [u16be_length]; omega
  obtain ⟨data, names', h1, _⟩ := RecordData.any_compressed hU hinj hr.2.2.2.2.2.2.1 hn2
    hc.2 (pre ++ (hc.1 ++ u16be (lenU16 0)))
  have hw : r.toBytesCompressed cfg h names pre.length = .ok (hc.1 ++ u16be (lenU16 data.length) ++ data, names') := by
    unfold ResourceRecord.toBytesCompressed
    rw [hlen2 0] at h1
    simp only
    show (do
      let data ← r.rdata.toBytesCompressed cfg h hc.2 (pre.length + hc.1.length + 2)
      return (hc.1 ++ u16be (lenU16 data.1.length) ++ data.1, data.2) : Res _) = _
    rw [h1]; rfl
  refine ⟨_, _, hw, fun hm hlen => ?_⟩
  rw [← List.append_assoc] at hlen ⊢
  have hle : (pre ++ (hc.1 ++ u16be (lenU16 data.length))).length ≤ 16384 := by
    rw [List.length_append] at hlen; omega
  have hdl : data.length < 65536 := by
    rw [List.length_append] at hlen; omega
  obtain ⟨h3, h4⟩ := items_compressed backwardName_extends (by omega) hU hinj (backward_compressed hU hinj)
    (its data.length) names pre (by simp [its, recordHead, Item.Fits, o16, hg])
    (by simp [its, recordHead, Item.Open, o16])
    (by simp [its, recordHead, o16, hn]) hm (by rw [hcl]; exact hle)
  rw [hcl] at h3 h4
  obtain ⟨data2, names2, h5, h6⟩ := RecordData.any_compressed hU hinj hr.2.2.2.2.2.2.1 hn2
    hc.2 (pre ++ (hc.1 ++ u16be (lenU16 data.length)))
  rw [hlen2] at h1 h5
  rw [h1] at h5
  cases h5
  obtain ⟨h7, h8⟩ := h6 h4 hlen
  refine ⟨h7, fun post j hat => ?_⟩
  generalize hH : pre ++ (hc.1 ++ u16be (lenU16 data.length)) = head at *
  obtain ⟨_, _, v, len, k, _, a1, a2, a3, at4, its', hs, a4⟩ := hat
  -- the heads agree
  have b1 := items_extend backwardName_extends (by simp [its, recordHead, Item.Open, o16]) h3 (data ++ post)
  rw [← List.append_assoc] at b1
  obtain ⟨b2, b3⟩ := name_items_unique (by simp [o16]) (by simp [o16]) (by simp [Items.octets, Item.octets, octets16, o16]) a1 b1
  have b4 : len = UInt16.ofNat data.length := by
    have e : ∀ v l, Items.octets [o16 (typeNumber r.type), .u16 v, .u32 r.ttl, .u16 l] =
        (octets16 (UInt16.ofNat (typeNumber r.type)) ++ octets16 v ++ octets32 r.ttl) ++ octets16 l := by
      intro v l; simp [Items.octets, Item.octets, o16]
    rw [e, e] at b2
    exact octets16_cancel (List.append_inj b2 (by simp [octets16])).2
  have b5 : len.toNat = data.length := by
    rw [b4]; exact UInt16.toNat_ofNat_of_lt' (by simpa [UInt16.size] using hdl)
  have b6 : j = (head ++ data).length := by rw [List.length_append]; omega
  refine ⟨?_, b6⟩
  have b7 : (head ++ data ++ post).take j = head ++ data := by rw [b6, List.take_left]
  rw [b7, b3] at a4
  have hle2 : head.length ≤ (head ++ data).length := by simp
  have key : Items.octets its' = data → r.rdata.toBytes cfg = .ok data → WrittenWell r.rdata := fun c1 c2 =>
    (C38_write_exact cfg 63 r.rdata hr.2.2.2.2.2.2.1).mp ⟨its', hs, by rw [c2, c1]⟩
  have key2 : (∀ n, .name n ∉ its') → Items.octets its' = data := fun c1 => by
    have := no_names_octets hle2 c1 a4
    exact this.inj (octets_end head data) (by have := this.end_eq; rw [List.length_append] at this; omega)
  rcases h8 with ⟨itw, c1, c2⟩ | ⟨kk, c1, c2, c3⟩
  · have key3 : (∀ n, .name n ∉ itw) → r.rdata.toBytes cfg = .ok data := fun d1 => by
      have := no_names_octets hle2 d1 c2
      rw [c1.bytes, this.inj (octets_end head data) (by have := this.end_eq; rw [List.length_append] at this; omega)]
    have c3 := c1.rdata
    cases hrd : r.rdata with
    | IPSECKEY x =>
      rw [← hrd]
      refine (C38_write_exact cfg 63 r.rdata hr.2.2.2.2.2.2.1).mp ⟨itw, ?_, c1.bytes⟩
      rw [hrd] at c3 ⊢
      exact c3
    | APL x =>
      rw [hrd] at hs c3
      rw [← hrd]
      obtain ⟨p1, rfl, -⟩ := hs
      obtain ⟨p2, rfl, -⟩ := c3
      exact key (key2 (by simp [o16, o8])) (key3 (by simp [o16, o8]))
    | CSYNC x =>
      rw [hrd] at hs c3
      rw [← hrd]
      obtain ⟨p1, rfl, -⟩ := hs
      obtain ⟨p2, rfl, -⟩ := c3
      exact key (key2 (by simp [windowItems_no_names])) (key3 (by simp [windowItems_no_names]))
    | NSEC x =>
      rw [hrd] at hs c3
      rw [← hrd]
      obtain ⟨p1, rfl, d1⟩ := hs
      obtain ⟨p2, rfl, -⟩ := c3
      have : Items.octets (windowItems p1 ++ [.eof]) = Items.octets (windowItems p2 ++ [.eof]) :=
        name_items_same (by simp [windowItems_no_names]) (by simp [windowItems_no_names]) a4 c2
      refine (C38_write_exact cfg 63 r.rdata hr.2.2.2.2.2.2.1).mp
        ⟨.name x.nextDomainName :: windowItems p1 ++ [.eof], ?_, c1.bytes.trans ?_⟩
      · rw [hrd]; exact ⟨p1, rfl, d1⟩
      · simp only [List.cons_append, octets_cons]; rw [this]
    | _ => trivial
  · rw [c1] at hs
    obtain ⟨p, a, g, kb⟩ := kk
    simp only at c2
    subst c2
    have : its' = [.u8 p, o8 0, o8 (algorithmNumber a)] ++ [] ++ [.rest kb] := hs
    exact key (key2 (by simp [this, o8])) c3

theorem questions_only_compressed {cfg : Cfg} :
    ∀ (qs : List Question) (names : Names) (bin : Bytes),
    (∀ q ∈ qs, QuestionOk cfg 63 q ∧ U q.qName) →
    ∃ b, (Packet.questionsCompressed cfg h qs names bin).1 = bin ++ b ∧
      (MapOk 63 U h names bin → (bin ++ b).length ≤ 16384 →
        MapOk 63 U h (Packet.questionsCompressed cfg h qs names bin).2 (bin ++ b) ∧
        ∀ post j, ListAt (QuestionAt BackwardName cfg (bin ++ b ++ post)) bin.length qs j →
          j = (bin ++ b).length) := by
  intro qs
  induction qs with
  | nil =>
    intro names bin _
    exact ⟨[], by simp [Packet.questionsCompressed], by
      simp only [List.append_nil, ListAt, Packet.questionsCompressed]
      exact fun h _ => ⟨h, fun _ _ e => e.symm⟩⟩
  | cons q qs ih =>
    intro names bin hq
    obtain ⟨b, h1, h2⟩ := ih (q.toBytesCompressed cfg h names bin.length).2
      (bin ++ (q.toBytesCompressed cfg h names bin.length).1) (fun x hx => hq x (List.mem_cons_of_mem _ hx))
    refine ⟨(q.toBytesCompressed cfg h names bin.length).1 ++ b, ?_, fun hm hlen => ?_⟩
    · rw [Packet.questionsCompressed]; simp only [h1, List.append_assoc]
    · rw [← List.append_assoc] at hlen ⊢
      have hle : (bin ++ (q.toBytesCompressed cfg h names bin.length).1).length ≤ 16384 := by
        rw [List.length_append] at hlen; omega
      obtain ⟨h3, h4⟩ := Question.sent_compressed backwardName_extends (by omega) hU hinj
        (backward_compressed hU hinj) (hq q List.mem_cons_self).1 (hq q List.mem_cons_self).2 names bin hm hle
      obtain ⟨h5, h6⟩ := h2 h4 hlen
      refine ⟨h5, fun post j hj => ?_⟩
      obtain ⟨k, h7, h8⟩ := hj
      obtain ⟨_, v, _, h9⟩ := h7
      obtain ⟨_, v', _, h10⟩ := questionAt_extend backwardName_extends h3 (b ++ post)
      rw [← List.append_assoc] at h10
      obtain ⟨-, rfl⟩ := name_items_unique (by simp [o16]) (by simp [o16])
        (by simp [Items.octets, Item.octets, octets16, o16]) h9 h10
      exact h6 post j h8

theorem records_only_compressed {cfg : Cfg} :
    ∀ (rs : List ResourceRecord) (names : Names) (bin : Bytes),
    (∀ r ∈ rs, RecordOk cfg 63 r ∧ U r.name ∧ ∀ n ∈ rdataNames r.rdata, U n) →
    ∃ b names', Packet.recordsCompressed cfg h rs names bin = .ok (bin ++ b, names') ∧
      (MapOk 63 U h names bin → (bin ++ b).length ≤ 16384 →
        MapOk 63 U h names' (bin ++ b) ∧
        ∀ post j, ListAt (RecordAtWith (RDataWritten BackwardName cfg) BackwardName cfg (bin ++ b ++ post))
          bin.length rs j → (∀ r ∈ rs, WrittenWell r.rdata) ∧ j = (bin ++ b).length) := by
  intro rs
  induction rs with
  | nil =>
    intro names bin _
    exact ⟨[], names, by simp [Packet.recordsCompressed, pure], by
      simp only [List.append_nil, ListAt]
      exact fun h _ => ⟨h, fun _ _ e => ⟨by simp, e.symm⟩⟩⟩
  | cons r rs ih =>
    intro names bin hr
    obtain ⟨hr1, hr3, hr4⟩ := hr r List.mem_cons_self
    obtain ⟨a, names1, h1, h2⟩ := ResourceRecord.sent_only_compressed hU hinj hr1 hr3 hr4 names bin
    obtain ⟨b, names2, h3, h4⟩ := ih names1 (bin ++ a) (fun x hx => hr x (List.mem_cons_of_mem _ hx))
    refine ⟨a ++ b, names2, ?_, fun hm hlen => ?_⟩
    · rw [Packet.recordsCompressed, h1, ← List.append_assoc]; exact h3
    · rw [← List.append_assoc] at hlen ⊢
      have hle : (bin ++ a).length ≤ 16384 := by
        rw [List.length_append] at hlen; omega
      obtain ⟨h5, h6⟩ := h2 hm hle
      obtain ⟨h7, h8⟩ := h4 h5 hlen
      refine ⟨h7, fun post j hj => ?_⟩
      obtain ⟨k, h9, h10⟩ := hj
      obtain ⟨h11, rfl⟩ := h6 (b ++ post) k (by simpa using h9)
      obtain ⟨h12, h13⟩ := h8 post j h10
      exact ⟨by simpa using ⟨h11, h12⟩, h13⟩

theorem Packet.sent_only_compressed {cfg : Cfg} {p : Packet} (hp : PacketOk cfg 63 p)
    (hn : ∀ n ∈ packetNames p, U n) {b : Bytes} (hb : p.toBytesCompressed cfg h = .ok b)
    (hlen : b.length ≤ 16384) (hm : SentMessage BackwardName cfg b p) :
    ∀ r ∈ records p, WrittenWell r.rdata := by
  obtain ⟨hq, hr, _, _, _, _⟩ := hp
  have hall : ∀ r ∈ records p, RecordOk cfg 63 r ∧ U r.name ∧ ∀ n ∈ rdataNames r.rdata, U n := by
    intro r hm
    refine ⟨hr r hm, hn _ ?_, fun n hmm => hn _ ?_⟩
    · simp only [packetNames, List.mem_append, List.mem_flatMap]
      exact .inr ⟨r, hm, by simp⟩
    · simp only [packetNames, List.mem_append, List.mem_flatMap]
      exact .inr ⟨r, hm, by simp [hmm]⟩
  obtain ⟨b1, e1, l1⟩ := questions_only_compressed hU hinj p.questions Names.empty p.header.toBytes
    (fun q hm => ⟨hq q hm, hn _ (by
      simp only [packetNames, List.mem_append, List.mem_map]; exact .inl ⟨q, hm, rfl⟩)⟩)
  obtain ⟨b2, n2, e2, l2⟩ := records_only_compressed hU hinj p.answers
    (Packet.questionsCompressed cfg h p.questions Names.empty p.header.toBytes).2 (p.header.toBytes ++ b1)
    (fun r hm => hall r (by simp [records, hm]))
  obtain ⟨b3, n3, e3, l3⟩ := records_only_compressed hU hinj p.authorities n2
    (p.header.toBytes ++ b1 ++ b2) (fun r hm => hall r (by simp [records, hm]))
  obtain ⟨b4, n4, e4, l4⟩ := records_only_compressed hU hinj p.additional n3
    (p.header.toBytes ++ b1 ++ b2 ++ b3) (fun r hm => hall r (by simp [records, hm]))
  have hb' : b = p.header.toBytes ++ b1 ++ b2 ++ b3 ++ b4 := by
    unfold Packet.toBytesCompressed at hb
    simp only [e1, e2, e3, e4, bind, Res.bind, pure] at hb
    exact (Res.ok.inj hb).symm
  subst hb'
  simp only [List.length_append] at hlen
  obtain ⟨m1, l1⟩ := l1 (mapOk_empty _ _ _ _) (by simp only [List.length_append]; omega)
  obtain ⟨m2, l2⟩ := l2 m1 (by simp only [List.length_append]; omega)
  obtain ⟨m3, l3⟩ := l3 m2 (by simp only [List.length_append]; omega)
  obtain ⟨m4, l4⟩ := l4 m3 (by simp only [List.length_append]; omega)
  obtain ⟨_, _, _, _, i1, i2, i3, i4, h0, h1, h2, h3, h4⟩ := hm
  have k1 : i1 = p.header.toBytes.length := by
    have := (no_names_octets (Nat.zero_le _) (by simp [headerItems]) h0).end_eq
    rw [this, header_toBytes_eq, Nat.zero_add]
  subst k1
  have k2 := l1 (b2 ++ b3 ++ b4) i2 (by simpa using h1)
  subst k2
  obtain ⟨r2, rfl⟩ := l2 (b3 ++ b4) _ (by simpa using h2)
  obtain ⟨r3, rfl⟩ := l3 b4 _ (by simpa using h3)
  obtain ⟨r4, _⟩ := l4 [] _ (by simpa using h4)
  intro r hm
  simp only [records, List.mem_append] at hm
  rcases hm with (hm | hm) | hm
  · exact r2 r hm
  · exact r3 r hm
  · exact r4 r hm

end Compressed

end Dns
