import Verif.Props.Dnssec
import Verif.Props.Write
import Verif.Lemmas.ConformOnly
import Verif.Spec.Distinct

/-! What the octets of a packet determine. -/

namespace Dns
open Spec Buf

theorem octets32_cancel {a b : UInt32} {x y : Bytes} (h : octets32 a ++ x = octets32 b ++ y) : a = b ∧ x = y := by
  obtain ⟨h1, h2⟩ := List.append_inj h rfl
  refine ⟨?_, h2⟩
  rw [← u32be_eq, ← u32be_eq, u32be, u32be] at h1
  have := congrArg ofBE h1
  rw [ofBE_toBE, ofBE_toBE] at this
  have ha := a.toNat_lt
  have hb := b.toNat_lt
  exact UInt32.toNat_inj.mp (by omega)

/-! ## Options -/

theorem options_cons (o : UInt16 × Bytes) (os : List (UInt16 × Bytes)) : Items.octets (optionItems (o :: os)) =
    octets16 o.1 ++ (octets16 (UInt16.ofNat o.2.length) ++ (o.2 ++ Items.octets (optionItems os))) := by
  simp [optionItems, Items.octets, Item.octets]

/-- Options are read from left to right: of two lists with the same octets one is the beginning of the
other. -/
theorem options_prefix : ∀ (a b : List (UInt16 × Bytes)) (x y : Bytes), (∀ o ∈ a, o.2.length < 65536) →
    (∀ o ∈ b, o.2.length < 65536) →
    Items.octets (optionItems a) ++ x = Items.octets (optionItems b) ++ y → a <+: b ∨ b <+: a := by
  intro a
  induction a with
  | nil => intro b x y _ _ _; exact .inl (List.nil_prefix)
  | cons o a ih =>
    intro b x y ha hb h
    cases b with
    | nil => exact .inr (List.nil_prefix)
    | cons q b =>
      rw [options_cons, options_cons] at h
      simp only [List.append_assoc] at h
      obtain ⟨h1, h⟩ := octets16_inj h
      obtain ⟨h2, h⟩ := octets16_inj h
      have h3 := congrArg UInt16.toNat h2
      rw [UInt16.toNat_ofNat_of_lt' (by simpa [UInt16.size] using ha o List.mem_cons_self),
        UInt16.toNat_ofNat_of_lt' (by simpa [UInt16.size] using hb q List.mem_cons_self)] at h3
      have h4 := List.append_inj h h3
      obtain rfl : o = q := Prod.ext h1 h4.1
      replace h := h4.2
      rcases ih b x y (fun z hz => ha z (List.mem_cons_of_mem _ hz)) (fun z hz => hb z (List.mem_cons_of_mem _ hz)) h
        with h5 | h5
      · exact .inl (List.cons_prefix_cons.mpr ⟨rfl, h5⟩)
      · exact .inr (List.cons_prefix_cons.mpr ⟨rfl, h5⟩)

theorem options_append (a b : List (UInt16 × Bytes)) : Items.octets (optionItems (a ++ b)) =
    Items.octets (optionItems a) ++ Items.octets (optionItems b) := by
  simp [optionItems, Items.octets]

theorem options_data (o : List (UInt16 × Bytes)) : (Items.octets (optionItems o)).length =
    4 * o.length + (o.map (·.2.length)).sum := by
  induction o with
  | nil => rfl
  | cons x o ih =>
    rw [options_cons]
    simp [octets16, ih]
    omega

theorem options_data_pos {o : List (UInt16 × Bytes)} (h : ∀ x ∈ o, x.2 ≠ []) (hz : (o.map (·.2.length)).sum = 0) :
    o = [] := by
  cases o with
  | nil => rfl
  | cons x o =>
    have := h x List.mem_cons_self
    have := List.length_pos_of_ne_nil this
    simp at hz
    simp_all

/-- The parameters of SVCB records have the format of options. -/
theorem params_options (ps : List Param) : Items.octets (ps.flatMap paramItems) =
    Items.octets (optionItems (ps.map fun p => (UInt16.ofNat (paramKeyNumber p.key), Items.octets (paramValue p)))) := by
  rw [optionItems, List.flatMap_map]
  rfl

/-! ## Data -/

theorem sizeError_other {r : RecordData} (h1 : ∀ x, r ≠ .OPT x) (h2 : ∀ x, r ≠ .CAA x) (h3 : ∀ x, r ≠ .RRSIG x)
    (h4 : ∀ x, r ≠ .SVCB x) : sizeError r = 0 := by
  cases r with
  | OPT x => exact (h1 x rfl).elim
  | CAA x => exact (h2 x rfl).elim
  | RRSIG x => exact (h3 x rfl).elim
  | SVCB x => exact (h4 x rfl).elim
  | _ => rfl

theorem algorithmNumber_inj {a b : Algorithm} (h : UInt8.ofNat (algorithmNumber a) = UInt8.ofNat (algorithmNumber b)) :
    a = b := by
  revert h; cases a <;> cases b <;> decide

theorem fingerprintNumber_inj {a b : FingerprintType}
    (h : UInt8.ofNat (fingerprintNumber a) = UInt8.ofNat (fingerprintNumber b)) : a = b := by
  revert h; cases a <;> cases b <;> decide

/-- Data of one type are determined by their octets. -/
theorem data_same {cfg : Cfg} {r s : RecordData} (hr : Writable cfg 191 r) (hs : Writable cfg 191 s)
    (ht : r.type = s.type) {b : Bytes} (h1 : r.toBytes cfg = .ok b) (h2 : s.toBytes cfg = .ok b) : r = s := by
  by_cases hx : ∃ x, r = .SSHFP x
  · obtain ⟨x, rfl⟩ := hx
    obtain ⟨y, rfl⟩ : ∃ y, s = .SSHFP y := by cases s <;> first | (cases ht; done) | exact ⟨_, rfl⟩
    have e1 := (writes_SSHFP cfg 191 x).bytes
    rw [h1] at e1
    rw [(writes_SSHFP cfg 191 y).bytes, e1] at h2
    obtain ⟨a, f, p⟩ := x
    obtain ⟨a', f', p'⟩ := y
    simp only [Items.octets, Item.octets, o8, List.map_cons, List.map_nil, List.flatten_cons, List.flatten_nil,
      List.append_nil, List.cons_append, List.nil_append, Res.ok.injEq, List.cons.injEq] at h2
    obtain ⟨h3, h4, rfl⟩ := h2
    rw [algorithmNumber_inj h3, fingerprintNumber_inj h4]
  · have hx' : ∀ x, r ≠ .SSHFP x := fun x h => hx ⟨x, h⟩
    have hy : ∀ x, s ≠ .SSHFP x := by
      rintro y rfl
      apply hx
      cases r <;> first | (cases ht; done) | exact ⟨_, rfl⟩
    obtain ⟨b1, e1, r1⟩ := RecordData.read_back (Nat.le_refl 191) hr hx' []
    obtain ⟨b2, e2, r2⟩ := RecordData.read_back (Nat.le_refl 191) hs hy []
    rw [h1] at e1; cases e1
    rw [h2] at e2; cases e2
    rw [ht, r2] at r1
    injection r1 with r1
    injection r1 with r1
    exact r1.symm

theorem data_length {cfg : Cfg} {r s : RecordData} (hr : Writable cfg 191 r) (hs : Writable cfg 191 s)
    (fr : Framed cfg r) (fs : Framed cfg s) (ht : r.type = s.type) {b c x y : Bytes}
    (h1 : r.toBytes cfg = .ok b) (h2 : s.toBytes cfg = .ok c) (hb : b.length < 65536) (hc : c.length < 65536)
    {n m : Nat} (hn : r.byteSize cfg = .ok n) (hm : s.byteSize cfg = .ok m)
    (hnm : UInt16.ofNat n = UInt16.ofNat m) (h : b ++ x = c ++ y) : b.length = c.length := by
  obtain ⟨n', e1, en⟩ := RecordData.size (writable_sets hr) h1
  obtain ⟨m', e2, em⟩ := RecordData.size (writable_sets hs) h2
  rw [hn] at e1; cases e1
  rw [hm] at e2; cases e2
  have hmod : n % 65536 = m % 65536 := by
    have := congrArg UInt16.toNat hnm
    simpa using this
  by_cases o : ∃ z, r = .OPT z
  · obtain ⟨a, rfl⟩ := o
    obtain ⟨a', rfl⟩ : ∃ y, s = .OPT y := by cases s <;> first | (cases ht; done) | exact ⟨_, rfl⟩
    have w1 := (writes_OPT hr).bytes
    have w2 := (writes_OPT hs).bytes
    rw [h1, octets_eof] at w1; injection w1 with w1
    rw [h2, octets_eof] at w2; injection w2 with w2
    subst w1 w2
    simp only [sizeError] at en em
    have d1 := options_data a.options
    have d2 := options_data a'.options
    have key : ((a.options.map (·.2.length)).sum) = ((a'.options.map (·.2.length)).sum) := by omega
    rcases options_prefix _ _ x y hr.2 hs.2 h with ⟨t, h3⟩ | ⟨t, h3⟩
    · rw [← h3, List.map_append, List.sum_append] at key
      have : t = [] := options_data_pos (fun z hz => fs z (by rw [← h3]; simp [hz])) (by omega)
      rw [← h3, this, List.append_nil]
    · rw [← h3, List.map_append, List.sum_append] at key
      have : t = [] := options_data_pos (fun z hz => fr z (by rw [← h3]; simp [hz])) (by omega)
      rw [← h3, this, List.append_nil]
  by_cases o2 : ∃ z, r = .CAA z
  · obtain ⟨a, rfl⟩ := o2
    obtain ⟨a', rfl⟩ : ∃ y, s = .CAA y := by cases s <;> first | (cases ht; done) | exact ⟨_, rfl⟩
    have w1 := (writes_CAA hr).bytes
    have w2 := (writes_CAA hs).bytes
    rw [h1] at w1; injection w1 with w1
    rw [h2] at w2; injection w2 with w2
    simp only [sizeError] at en em
    rw [w1, w2] at h
    simp only [Items.octets, Item.octets, List.map_cons, List.map_nil, List.flatten_cons, List.flatten_nil,
      List.append_nil, List.cons_append, List.nil_append, List.cons.injEq] at h
    have h3 := congrArg UInt8.toNat h.2.1
    rw [UInt8.toNat_ofNat_of_lt' (by simpa [UInt8.size] using hr.2.1),
      UInt8.toNat_ofNat_of_lt' (by simpa [UInt8.size] using hs.2.1)] at h3
    omega
  by_cases o3 : ∃ z, r = .RRSIG z
  · obtain ⟨a, rfl⟩ := o3
    obtain ⟨a', rfl⟩ : ∃ y, s = .RRSIG y := by cases s <;> first | (cases ht; done) | exact ⟨_, rfl⟩
    simp only [sizeError] at en em
    omega
  by_cases o4 : ∃ z, r = .SVCB z
  · obtain ⟨a, rfl⟩ := o4
    obtain ⟨a', rfl⟩ : ∃ y, s = .SVCB y := by cases s <;> first | (cases ht; done) | exact ⟨_, rfl⟩
    have w1 := (writes_SVCB hr).bytes
    have w2 := (writes_SVCB hs).bytes
    rw [h1, octets_eof, octets_append_items, params_options] at w1; injection w1 with w1
    rw [h2, octets_eof, octets_append_items, params_options] at w2; injection w2 with w2
    simp only [sizeError] at en em
    have l1 := fr n hn
    have l2 := fs m hm
    rw [w1, w2] at h
    simp only [Items.octets, Item.octets, List.map_cons, List.map_nil, List.flatten_cons, List.flatten_nil,
      List.append_nil, List.append_assoc] at h
    obtain ⟨h3, h⟩ := octets16_inj h
    obtain ⟨h4, h⟩ := nameOctets_inj (hr.1.mono (by omega)) (hs.1.mono (by omega)) h
    have f1 : ∀ o ∈ a.params.map fun p => (UInt16.ofNat (paramKeyNumber p.key), Items.octets (paramValue p)),
        o.2.length < 65536 := by
      intro o ho
      obtain ⟨p, hp, rfl⟩ := List.mem_map.mp ho
      have := (hr.2.2 p hp).2
      simp only
      omega
    have f2 : ∀ o ∈ a'.params.map fun p => (UInt16.ofNat (paramKeyNumber p.key), Items.octets (paramValue p)),
        o.2.length < 65536 := by
      intro o ho
      obtain ⟨p, hp, rfl⟩ := List.mem_map.mp ho
      have := (hs.2.2 p hp).2
      simp only
      omega
    have n1 : a.params.length = (a.params.map fun p => (UInt16.ofNat (paramKeyNumber p.key), Items.octets (paramValue p))).length := by simp
    have n2 : a'.params.length = (a'.params.map fun p => (UInt16.ofNat (paramKeyNumber p.key), Items.octets (paramValue p))).length := by simp
    have b1 := congrArg List.length w1
    have b2 := congrArg List.length w2
    rw [List.length_append] at b1 b2
    have b3 : (Items.octets [.u16 a.priority, .name a.targetName]).length =
        (Items.octets [.u16 a'.priority, .name a'.targetName]).length := by rw [h3, h4]
    rw [n1] at en
    rw [n2] at em
    revert b1 b2 en em
    rcases options_prefix _ _ x y f1 f2 h with ⟨t, h5⟩ | ⟨t, h5⟩
    · rw [← h5, options_append]
      simp only [List.length_append]
      intros
      omega
    · rw [← h5, options_append]
      simp only [List.length_append]
      intros
      omega
  have z1 := sizeError_other (fun z e => o ⟨z, e⟩) (fun z e => o2 ⟨z, e⟩) (fun z e => o3 ⟨z, e⟩) (fun z e => o4 ⟨z, e⟩)
  have z2 : sizeError s = 0 := by
    refine sizeError_other ?_ ?_ ?_ ?_ <;> rintro z rfl
    · exact o (by cases r <;> first | (cases ht; done) | exact ⟨_, rfl⟩)
    · exact o2 (by cases r <;> first | (cases ht; done) | exact ⟨_, rfl⟩)
    · exact o3 (by cases r <;> first | (cases ht; done) | exact ⟨_, rfl⟩)
    · exact o4 (by cases r <;> first | (cases ht; done) | exact ⟨_, rfl⟩)
  rw [z1] at en
  rw [z2] at em
  omega

/-! ## Records -/

theorem ResourceRecord.bytes_parts {cfg : Cfg} {max : Nat} {r : ResourceRecord} (h : RecordOk cfg max r) {b : Bytes}
    (hb : r.toBytes cfg = .ok b) : ∃ n data, r.rdata.byteSize cfg = .ok n ∧ r.rdata.toBytes cfg = .ok data ∧
      b = nameOctets r.name ++ (octets16 (UInt16.ofNat (typeNumber r.type)) ++ (octets16 (r.classBits cfg) ++
        (octets32 r.ttl ++ (octets16 (UInt16.ofNat n) ++ data)))) := by
  unfold ResourceRecord.toBytes at hb
  obtain ⟨n, hn, hb⟩ := Res.bind_ok.mp hb
  obtain ⟨data, hd, hb⟩ := Res.bind_ok.mp hb
  refine ⟨n, data, hn, hd, ?_⟩
  cases hb
  simp [NameOk.toBytes h.1, RecordType.toU16_eq, u16be_eq, u32be_eq, lenU16]

theorem ResourceRecord.distinct {cfg : Cfg} {r s : ResourceRecord} (hr : RecordOk cfg 191 r) (hs : RecordOk cfg 191 s)
    (fr : Framed cfg r.rdata) (fs : Framed cfg s.rdata) {b c x y : Bytes} (h1 : r.toBytes cfg = .ok b)
    (h2 : s.toBytes cfg = .ok c) (h : b ++ x = c ++ y) : r = s ∧ b = c := by
  obtain ⟨n, data, a1, a2, rfl⟩ := ResourceRecord.bytes_parts hr h1
  obtain ⟨m, data', b1, b2, rfl⟩ := ResourceRecord.bytes_parts hs h2
  simp only [List.append_assoc] at h
  obtain ⟨e1, h⟩ := nameOctets_inj (hr.1.mono (by omega)) (hs.1.mono (by omega)) h
  obtain ⟨e2, h⟩ := octets16_inj h
  obtain ⟨e3, h⟩ := octets16_inj h
  obtain ⟨e4, h⟩ := octets32_cancel h
  obtain ⟨e5, h⟩ := octets16_inj h
  have ht : r.type = s.type := by
    have k1 := RecordType.ofU16_ok.mpr ⟨hr.2.1, rfl⟩
    rw [e2, RecordType.ofU16_ok.mpr ⟨hs.2.1, rfl⟩] at k1
    injection k1 with k1
    exact k1.symm
  have hl := data_length hr.2.2.2.2.2.2.1 hs.2.2.2.2.2.2.1 fr fs (by rw [hr.2.2.1, hs.2.2.1, ht]) a2 b2
    (hr.2.2.2.2.2.2.2 _ a2) (hs.2.2.2.2.2.2.2 _ b2) a1 b1 e5 h
  obtain ⟨hd, -⟩ := List.append_inj h hl
  subst hd
  have hrd := data_same hr.2.2.2.2.2.2.1 hs.2.2.2.2.2.2.1 (by rw [hr.2.2.1, hs.2.2.1, ht]) a2 b2
  have c1 := ResourceRecord.classBits_ok hr
  have c2 := ResourceRecord.classBits_ok hs
  rw [e3] at c1
  have hcl : r.class_ = s.class_ :=
    (RecordClass.ofU16_eq.mpr ⟨hr.2.2.2.1, c1.1⟩).symm.trans (RecordClass.ofU16_eq.mpr ⟨hs.2.2.2.1, c2.1⟩)
  have hcf : r.cacheFlush = s.cacheFlush := c1.2.trans c2.2.symm
  refine ⟨?_, by rw [e1, e2, e3, e4, e5]⟩
  obtain ⟨rn, rt, rf, rc, rl, rd⟩ := r
  obtain ⟨sn, st, sf, sc, sl, sd⟩ := s
  simp only at e1 ht hcf hcl e4 hrd
  subst e1 ht hcf hcl e4 hrd
  rfl

theorem records_distinct {cfg : Cfg} : ∀ (rs ss : List ResourceRecord) (bin B C x y : Bytes),
    (∀ r ∈ rs, RecordOk cfg 191 r ∧ Framed cfg r.rdata) → (∀ r ∈ ss, RecordOk cfg 191 r ∧ Framed cfg r.rdata) →
    rs.length = ss.length → Packet.recordsBytes cfg rs bin = .ok B → Packet.recordsBytes cfg ss bin = .ok C →
    B ++ x = C ++ y → rs = ss ∧ B = C := by
  intro rs
  induction rs with
  | nil =>
    intro ss bin B C x y _ _ hl h1 h2 _
    cases ss with
    | nil => rw [h1] at h2; cases h2; exact ⟨rfl, rfl⟩
    | cons => simp at hl
  | cons r rs ih =>
    intro ss bin B C x y hr hs hl h1 h2 h
    cases ss with
    | nil => simp at hl
    | cons s ss =>
      obtain ⟨b, e1, g1⟩ := Res.bind_ok.mp h1
      obtain ⟨c, e2, g2⟩ := Res.bind_ok.mp h2
      obtain ⟨b', hb'⟩ := recordsBytes_prefix _ _ _ g1
      obtain ⟨c', hc'⟩ := recordsBytes_prefix _ _ _ g2
      have h0 := h
      rw [← hb', ← hc'] at h0
      simp only [List.append_assoc, List.append_cancel_left_eq] at h0
      obtain ⟨rfl, rfl⟩ := ResourceRecord.distinct (hr r List.mem_cons_self).1 (hs s List.mem_cons_self).1
        (hr r List.mem_cons_self).2 (hs s List.mem_cons_self).2 e1 e2 h0
      obtain ⟨rfl, hBC⟩ := ih ss (bin ++ b) B C x y (fun z hz => hr z (List.mem_cons_of_mem _ hz))
        (fun z hz => hs z (List.mem_cons_of_mem _ hz)) (by simpa using hl) g1 g2 h
      exact ⟨rfl, hBC⟩

theorem Question.distinct {cfg : Cfg} {p q : Question} (hp : QuestionOk cfg 191 p) (hq : QuestionOk cfg 191 q)
    {x y : Bytes} (h : p.toBytes cfg ++ x = q.toBytes cfg ++ y) : p = q := by
  have h1 := questionAt_extend decodes_extends (Question.sent decodes_extends
    (fun pre n h => decodes_plain pre n h) hp []) x
  have h2 := questionAt_extend decodes_extends (Question.sent decodes_extends
    (fun pre n h => decodes_plain pre n h) hq []) y
  simp only [List.nil_append] at h1 h2
  rw [h] at h1
  have e1 := Question.parse_ok.mpr h1
  rw [Question.parse_ok.mpr h2] at e1
  injection e1 with e1
  injection e1 with e1
  exact e1.symm

theorem questions_distinct {cfg : Cfg} : ∀ (qs ps : List Question) (bin x y : Bytes),
    (∀ q ∈ qs, QuestionOk cfg 191 q) → (∀ q ∈ ps, QuestionOk cfg 191 q) → qs.length = ps.length →
    qs.foldl (fun bin q => bin ++ q.toBytes cfg) bin ++ x = ps.foldl (fun bin q => bin ++ q.toBytes cfg) bin ++ y →
    qs = ps := by
  intro qs
  induction qs with
  | nil =>
    intro ps bin x y _ _ hl _
    cases ps with
    | nil => rfl
    | cons => simp at hl
  | cons q qs ih =>
    intro ps bin x y hq hp hl h
    cases ps with
    | nil => simp at hl
    | cons p ps =>
      have h0 := h
      obtain ⟨b', hb'⟩ := questionsBytes_prefix (cfg := cfg) qs (bin ++ q.toBytes cfg)
      obtain ⟨c', hc'⟩ := questionsBytes_prefix (cfg := cfg) ps (bin ++ p.toBytes cfg)
      rw [List.foldl_cons, List.foldl_cons, ← hb', ← hc'] at h0
      simp only [List.append_assoc, List.append_cancel_left_eq] at h0
      obtain rfl := Question.distinct (hq q List.mem_cons_self) (hp p List.mem_cons_self) h0
      rw [ih ps (bin ++ q.toBytes cfg) x y (fun z hz => hq z (List.mem_cons_of_mem _ hz))
        (fun z hz => hp z (List.mem_cons_of_mem _ hz)) (by simpa using hl) h]

theorem Packet.distinct {cfg : Cfg} {p q : Packet} (hp : PacketOk cfg 191 p) (hq : PacketOk cfg 191 q)
    (fp : ∀ r ∈ records p, Framed cfg r.rdata) (fq : ∀ r ∈ records q, Framed cfg r.rdata) {b c x y : Bytes}
    (h1 : p.toBytes cfg = .ok b) (h2 : q.toBytes cfg = .ok c) (h : b ++ x = c ++ y) :
    withCounts p = withCounts q ∧ b = c := by
  obtain ⟨q1, r1, n1, n2, n3, n4⟩ := hp
  obtain ⟨q2, r2, m1, m2, m3, m4⟩ := hq
  obtain ⟨B2, e2, hb⟩ := Res.bind_ok.mp h1
  obtain ⟨B3, e3, e4⟩ := Res.bind_ok.mp hb
  obtain ⟨C2, g2, hc⟩ := Res.bind_ok.mp h2
  obtain ⟨C3, g3, g4⟩ := Res.bind_ok.mp hc
  have hhead : p.headerBytes = q.headerBytes := by
    obtain ⟨b', hb'⟩ := toBytes_prefix h1
    obtain ⟨c', hc'⟩ := toBytes_prefix h2
    rw [← hb', ← hc', List.append_assoc, List.append_assoc] at h
    refine (List.append_inj h ?_).1
    rw [headerBytes_eq, headerBytes_eq]
    simp [headerItems, Items.octets, Item.octets, octets16]
  have hh : (withCounts p).header = (withCounts q).header := by
    rw [headerBytes_eq, headerBytes_eq] at hhead
    have a1 := (Header.parse_ok (N := Decodes)).mpr (header_items_at (withCounts p).header [])
    have a2 := (Header.parse_ok (N := Decodes)).mpr (header_items_at (withCounts q).header [])
    rw [hhead, a2] at a1
    injection a1 with a1
    injection a1 with a1
    exact a1.symm
  obtain ⟨w1, w2, w3, w4⟩ := withCounts_ok n1 n2 n3 n4
  obtain ⟨v1, v2, v3, v4⟩ := withCounts_ok m1 m2 m3 m4
  have l1 : p.questions.length = q.questions.length := w1.symm.trans ((congrArg (·.quesCount.toNat) hh).trans v1)
  have l2 : p.answers.length = q.answers.length := w2.symm.trans ((congrArg (·.ansCount.toNat) hh).trans v2)
  have l3 : p.authorities.length = q.authorities.length := w3.symm.trans ((congrArg (·.authCount.toNat) hh).trans v3)
  have l4 : p.additional.length = q.additional.length := w4.symm.trans ((congrArg (·.addCount.toNat) hh).trans v4)
  obtain ⟨x2, hx2⟩ := recordsBytes_prefix _ _ _ e2
  obtain ⟨x3, hx3⟩ := recordsBytes_prefix _ _ _ e3
  obtain ⟨x4, hx4⟩ := recordsBytes_prefix _ _ _ e4
  obtain ⟨y2, hy2⟩ := recordsBytes_prefix _ _ _ g2
  obtain ⟨y3, hy3⟩ := recordsBytes_prefix _ _ _ g3
  obtain ⟨y4, hy4⟩ := recordsBytes_prefix _ _ _ g4
  have hq' : p.questions = q.questions := by
    refine questions_distinct p.questions q.questions p.headerBytes (x2 ++ x3 ++ x4 ++ x) (y2 ++ y3 ++ y4 ++ y) q1 q2 l1 ?_
    rw [← hx4, ← hx3, ← hx2, ← hy4, ← hy3, ← hy2, ← hhead] at h
    simpa only [List.append_assoc] using h
  rw [hq', hhead] at e2
  obtain ⟨ha, hB2⟩ := records_distinct p.answers q.answers _ B2 C2 (x3 ++ x4 ++ x) (y3 ++ y4 ++ y)
    (fun r hr => ⟨r1 r (by simp [records, hr]), fp r (by simp [records, hr])⟩)
    (fun r hr => ⟨r2 r (by simp [records, hr]), fq r (by simp [records, hr])⟩) l2 e2 g2
    (by rw [← hx4, ← hx3, ← hy4, ← hy3] at h; simpa only [List.append_assoc] using h)
  subst hB2
  obtain ⟨hau, hB3⟩ := records_distinct p.authorities q.authorities _ B3 C3 (x4 ++ x) (y4 ++ y)
    (fun r hr => ⟨r1 r (by simp [records, hr]), fp r (by simp [records, hr])⟩)
    (fun r hr => ⟨r2 r (by simp [records, hr]), fq r (by simp [records, hr])⟩) l3 e3 g3
    (by rw [← hx4, ← hy4] at h; simpa only [List.append_assoc] using h)
  subst hB3
  obtain ⟨had, hB4⟩ := records_distinct p.additional q.additional _ b c x y
    (fun r hr => ⟨r1 r (by simp [records, hr]), fp r (by simp [records, hr])⟩)
    (fun r hr => ⟨r2 r (by simp [records, hr]), fq r (by simp [records, hr])⟩) l4 e4 g4 h
  refine ⟨?_, hB4⟩
  obtain ⟨ph, pq, pa, pu, pd⟩ := p
  obtain ⟨qh, qq, qa, qu, qd⟩ := q
  simp only at hq' ha hau had
  subst hq' ha hau had
  simp only [withCounts] at hh ⊢
  simp only [Packet.mk.injEq, and_true]
  exact hh

end Dns
