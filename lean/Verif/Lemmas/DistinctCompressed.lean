import Verif.Lemmas.Distinct
import Verif.Lemmas.Conform
import Verif.Lemmas.Fails

/-! Different packets are written differently by `to_bytes_compressed()`, also with SSHFP records. -/

namespace Dns
open Spec Buf

/-- What the data of a written record say: for SSHFP records by RFC 4255 (the crate does not read back
what it has written), for the others by what is read back. -/
def ReadData (cfg : Cfg) (t : RecordType) (d : Bytes) (k : Nat) (r : RecordData) : Prop :=
  (t = .SSHFP ∧ RDataWritten Decodes cfg t d k r) ∨ (t ≠ .SSHFP ∧ ParsedData cfg t d k r)

theorem octets_same {d : Bytes} {i j k : Nat} {b c : Bytes} (h : Octets d i b j) (h' : Octets d i c k)
    (hl : b.length = c.length) : b = c ∧ j = k := by
  obtain ⟨h1, _, h2⟩ := octets_iff.mp h
  obtain ⟨h3, _, h4⟩ := octets_iff.mp h'
  rw [hl] at h1 h2
  exact ⟨h2.symm.trans h4, h1.trans h3.symm⟩

theorem u16_same {d : Bytes} {i j k : Nat} {a b : UInt16} (h : Octets d i (octets16 a) j)
    (h' : Octets d i (octets16 b) k) : a = b ∧ j = k := by
  have h := (extractU16_ok.mpr h).symm.trans (extractU16_ok.mpr h')
  cases h; exact ⟨rfl, rfl⟩

theorem u32_same {d : Bytes} {i j k : Nat} {a b : UInt32} (h : Octets d i (octets32 a) j)
    (h' : Octets d i (octets32 b) k) : a = b ∧ j = k := by
  have h := (extractU32_ok.mpr h).symm.trans (extractU32_ok.mpr h')
  cases h; exact ⟨rfl, rfl⟩

theorem readData_same {cfg : Cfg} {t : RecordType} {d : Bytes} {k : Nat} {r s : RecordData}
    (h : ReadData cfg t d k r) (h' : ReadData cfg t d k s) : r = s := by
  rcases h with ⟨ht, h⟩ | ⟨ht, e, h⟩
  · rcases h' with ⟨_, h'⟩ | ⟨ht', _⟩
    · obtain ⟨tr, its, s1, a1⟩ := h
      obtain ⟨ts, its', s2, a2⟩ := h'
      subst ht
      cases r <;> simp only [RecordData.type, reduceCtorEq] at tr
      cases s <;> simp only [RecordData.type, reduceCtorEq] at ts
      rename_i r s
      obtain ⟨ra, rf, rb⟩ := r
      obtain ⟨sa, sf, sb⟩ := s
      simp only [RDataStrict, RData] at s1 s2
      subst s1; subst s2
      simp only [Items.At, Item.At, o8] at a1 a2
      obtain ⟨x1, p1, x2, p2, x3, p3, _⟩ := a1
      obtain ⟨y1, q1, y2, q2, y3, q3, _⟩ := a2
      obtain ⟨e1, rfl⟩ := octets_same p1 q1 rfl
      obtain ⟨e2, rfl⟩ := octets_same p2 q2 rfl
      obtain ⟨p3, p4⟩ := p3
      obtain ⟨q3, q4⟩ := q3
      have hl : rb.length = sb.length := by
        have := p3.end_eq; have := q3.end_eq; omega
      obtain ⟨e3, _⟩ := octets_same p3 q3 hl
      obtain rfl := algorithmNumber_inj (List.cons.inj e1).1
      obtain rfl := fingerprintNumber_inj (List.cons.inj e2).1
      rw [e3]
    · exact absurd ht ht'
  · rcases h' with ⟨ht', _⟩ | ⟨_, e', h'⟩
    · exact absurd ht' ht
    · have h := h.symm.trans h'
      cases h; rfl

theorem classField_same {cfg : Cfg} {c c' : RecordClass} {f f' : Bool} {v : UInt16} (hc : classOk c) (hc' : classOk c')
    (h : ClassField cfg (classNumber c) f v) (h' : ClassField cfg (classNumber c') f' v) : c = c' ∧ f = f' :=
  ⟨(RecordClass.ofU16_eq.mpr ⟨hc, h.1⟩).symm.trans (RecordClass.ofU16_eq.mpr ⟨hc', h'.1⟩), h.2.trans h'.2.symm⟩

theorem recordAt_same {cfg : Cfg} {d : Bytes} (i : Nat) (r s : ResourceRecord) (j k : Nat)
    (h1 : RecordAtWith (ReadData cfg) Decodes cfg d i r j) (h2 : RecordAtWith (ReadData cfg) Decodes cfg d i s k) :
    r = s ∧ j = k := by
  obtain ⟨tr, cr, v, l, e, fr, hr, er, _, dr⟩ := h1
  obtain ⟨ts, cs, w, m, g, fs, hs, es, _, ds⟩ := h2
  simp only [recordHead, Items.At, Item.At, o16] at hr hs
  obtain ⟨a1, n1, a2, n2, a3, n3, a4, n4, a5, n5, rfl⟩ := hr
  obtain ⟨b1, m1, b2, m2, b3, m3, b4, m4, b5, m5, rfl⟩ := hs
  obtain ⟨q1, rfl⟩ := decodes_fun n1 m1
  obtain ⟨q2, rfl⟩ := u16_same n2 m2
  obtain ⟨q3, rfl⟩ := u16_same n3 m3
  obtain ⟨q4, rfl⟩ := u32_same n4 m4
  obtain ⟨q5, rfl⟩ := u16_same n5 m5
  subst q3 q5
  obtain rfl : j = k := er.trans es.symm
  obtain ⟨q6, q7⟩ := classField_same cr cs fr fs
  have q8 : r.type = s.type := by
    have x := (RecordType.ofU16_ok.mpr ⟨tr, rfl⟩).symm.trans ((congrArg (RecordType.ofU16 cfg) q2).trans
      (RecordType.ofU16_ok.mpr ⟨ts, rfl⟩))
    exact Res.ok.inj x
  rw [q8] at dr
  have q9 := readData_same dr ds
  obtain ⟨_, _, _, _, _, _⟩ := r
  obtain ⟨_, _, _, _, _, _⟩ := s
  dsimp only at q1 q4 q6 q7 q8 q9
  subst q1 q4 q6 q7 q8 q9
  exact ⟨rfl, rfl⟩

theorem questionAt_same {cfg : Cfg} {d : Bytes} (i : Nat) (q p : Question) (j k : Nat)
    (h1 : QuestionAt Decodes cfg d i q j) (h2 : QuestionAt Decodes cfg d i p k) : q = p ∧ j = k := by
  have h := (Question.parse_ok.mpr h1).symm.trans (Question.parse_ok.mpr h2)
  cases h; exact ⟨rfl, rfl⟩

theorem listAt_same {α : Type} {R : Nat → α → Nat → Prop} (h : ∀ i x y j k, R i x j → R i y k → x = y ∧ j = k) :
    ∀ (xs ys : List α) (i j k : Nat), xs.length = ys.length → ListAt R i xs j → ListAt R i ys k → xs = ys ∧ j = k := by
  intro xs
  induction xs with
  | nil =>
    intro ys i j k hl h1 h2
    cases ys with
    | nil => exact ⟨rfl, h1.symm.trans h2⟩
    | cons y ys => cases hl
  | cons x xs ih =>
    intro ys i j k hl h1 h2
    cases ys with
    | nil => cases hl
    | cons y ys =>
      obtain ⟨a, h1, h3⟩ := h1
      obtain ⟨b, h2, h4⟩ := h2
      obtain ⟨rfl, rfl⟩ := h _ _ _ _ _ h1 h2
      obtain ⟨rfl, rfl⟩ := ih ys _ _ _ (by simpa using hl) h3 h4
      exact ⟨rfl, rfl⟩

theorem message_same {cfg : Cfg} {d : Bytes} {p q : Packet} {j k : Nat}
    (h1 : MessageAtWith (ReadData cfg) Decodes cfg d p j) (h2 : MessageAtWith (ReadData cfg) Decodes cfg d q k) :
    p = q ∧ j = k := by
  obtain ⟨c1, c2, c3, c4, i1, i2, i3, i4, x0, x1, x2, x3, x4⟩ := h1
  obtain ⟨d1, d2, d3, d4, k1, k2, k3, k4, y0, y1, y2, y3, y4⟩ := h2
  have x := Header.parse_ok.mpr x0
  have hh : p.header = q.header ∧ i1 = k1 := by
    have y := x.symm.trans (Header.parse_ok.mpr y0)
    exact ⟨Res.ok.inj (congrArg Prod.fst y), congrArg Prod.snd y⟩
  obtain ⟨hh, rfl⟩ := hh
  rw [← hh] at d1 d2 d3 d4
  obtain ⟨e1, rfl⟩ := listAt_same questionAt_same _ _ _ _ _ (c1.trans d1.symm) x1 y1
  obtain ⟨e2, rfl⟩ := listAt_same recordAt_same _ _ _ _ _ (c2.trans d2.symm) x2 y2
  obtain ⟨e3, rfl⟩ := listAt_same recordAt_same _ _ _ _ _ (c3.trans d3.symm) x3 y3
  obtain ⟨e4, rfl⟩ := listAt_same recordAt_same _ _ _ _ _ (c4.trans d4.symm) x4 y4
  obtain ⟨_, _, _, _, _⟩ := p
  obtain ⟨_, _, _, _, _⟩ := q
  dsimp only at hh e1 e2 e3 e4
  subst hh e1 e2 e3 e4
  exact ⟨rfl, rfl⟩

theorem ResourceRecord.said_compressed {cfg : Cfg} {h : Hash} {U : Fqdn → Prop} (hU : TailClosed U) (hinj : InjOn U h)
    {r : ResourceRecord} (hr : RecordOk cfg 191 r) (hn : U r.name)
    (hn2 : ∀ n ∈ rdataNames r.rdata, U n) (names : Names) (pre : Bytes) :
    ∃ b names', r.toBytesCompressed cfg h names pre.length = .ok (b, names') ∧
      (MapOk 191 U h names pre → (pre ++ b).length ≤ 16384 →
        RecordAtWith (ReadData cfg) Decodes cfg (pre ++ b) pre.length r (pre ++ b).length ∧
        MapOk 191 U h names' (pre ++ b)) := by
  have ht : r.type = r.rdata.type := hr.2.2.1.symm
  by_cases hs : r.type = .SSHFP
  · have hw : WrittenWell r.rdata := by
      rw [ht] at hs
      revert hs
      cases r.rdata <;> simp [RecordData.type, WrittenWell]
    obtain ⟨b, n, e, f⟩ := ResourceRecord.sent_compressed decodes_extends (Nat.le_refl 191) hU hinj decodes_plain
      (fun pre n names hn hg hm hl => decodes_compressed (Nat.le_refl 191) hU hinj pre n names hn hg hm hl) hr hw hn hn2 names pre
    refine ⟨b, n, e, fun hm hl => ?_⟩
    obtain ⟨⟨f1, f2, v, l, k, f3, f4, f5, f6, f7⟩, f8⟩ := f hm hl
    exact ⟨⟨f1, f2, v, l, k, f3, f4, f5, f6, .inl ⟨hs, f7⟩⟩, f8⟩
  · obtain ⟨b, n, e, f⟩ := ResourceRecord.read_back_compressed (Nat.le_refl 191) hU hinj hr
      (fun x hx => hs (by rw [ht, hx]; rfl)) hn hn2 names pre
    refine ⟨b, n, e, fun hm hl => ?_⟩
    obtain ⟨⟨f1, f2, v, l, k, f3, f4, f5, f6, f7⟩, f8⟩ := f hm hl
    exact ⟨⟨f1, f2, v, l, k, f3, f4, f5, f6, .inr ⟨hs, f7⟩⟩, f8⟩

theorem records_said_compressed {cfg : Cfg} {h : Hash} {U : Fqdn → Prop} (hU : TailClosed U) (hinj : InjOn U h) :
    ∀ (rs : List ResourceRecord) (names : Names) (bin : Bytes),
    (∀ r ∈ rs, RecordOk cfg 191 r ∧ U r.name ∧ ∀ n ∈ rdataNames r.rdata, U n) →
    ∃ b names', Packet.recordsCompressed cfg h rs names bin = .ok (bin ++ b, names') ∧
      (MapOk 191 U h names bin → (bin ++ b).length ≤ 16384 →
        ListAt (RecordAtWith (ReadData cfg) Decodes cfg (bin ++ b)) bin.length rs (bin ++ b).length ∧
        MapOk 191 U h names' (bin ++ b)) := by
  intro rs
  induction rs with
  | nil =>
    intro names bin _
    exact ⟨[], names, by simp [Packet.recordsCompressed, pure], by simp [ListAt]; exact fun h _ => h⟩
  | cons r rs ih =>
    intro names bin hr
    obtain ⟨hr1, hr3, hr4⟩ := hr r List.mem_cons_self
    obtain ⟨a, names1, h1, h2⟩ := ResourceRecord.said_compressed hU hinj hr1 hr3 hr4 names bin
    obtain ⟨b, names2, h3, h4⟩ := ih names1 (bin ++ a) (fun x hx => hr x (List.mem_cons_of_mem _ hx))
    refine ⟨a ++ b, names2, ?_, fun hm hlen => ?_⟩
    · rw [Packet.recordsCompressed, h1, ← List.append_assoc]; exact h3
    · rw [← List.append_assoc] at hlen ⊢
      have hle : (bin ++ a).length ≤ 16384 := by
        rw [List.length_append] at hlen; omega
      obtain ⟨h5, h6⟩ := h2 hm hle
      obtain ⟨h7, h8⟩ := h4 h6 hlen
      exact ⟨⟨_, recordAt_extend decodes_extends h5 b, h7⟩, h8⟩

theorem Packet.said_compressed {cfg : Cfg} {p : Packet}
    {h : Hash} {U : Fqdn → Prop} (hU : TailClosed U) (hinj : InjOn U h)
    (hp : PacketOk cfg 191 p) (hc : CountsOk p) (hn : ∀ n ∈ packetNames p, U n) :
    ∃ b, p.toBytesCompressed cfg h = .ok b ∧
      (b.length ≤ 16384 → ∀ e, MessageAtWith (ReadData cfg) Decodes cfg (b ++ e) p b.length) := by
  obtain ⟨hq, hr, _, _, _, _⟩ := hp
  have hnr : ∀ r ∈ records p, U r.name ∧ ∀ n ∈ rdataNames r.rdata, U n := by
    intro r hr
    refine ⟨hn _ ?_, fun n hm => hn _ ?_⟩
    · simp only [packetNames, List.mem_append, List.mem_flatMap]
      exact .inr ⟨r, hr, by simp⟩
    · simp only [packetNames, List.mem_append, List.mem_flatMap]
      exact .inr ⟨r, hr, by simp [hm]⟩
  obtain ⟨b1, e1, l1⟩ := questions_read_back_compressed (Nat.le_refl 191) hU hinj p.questions Names.empty p.header.toBytes
    (fun q hm => ⟨hq q hm, hn _ (by
      simp only [packetNames, List.mem_append, List.mem_map]; exact .inl ⟨q, hm, rfl⟩)⟩)
  have hall : ∀ r ∈ records p, RecordOk cfg 191 r ∧ U r.name ∧
      ∀ n ∈ rdataNames r.rdata, U n := fun r hm => ⟨hr r hm, hnr r hm⟩
  obtain ⟨b2, n2, e2, l2⟩ := records_said_compressed hU hinj p.answers
    (Packet.questionsCompressed cfg h p.questions Names.empty p.header.toBytes).2 (p.header.toBytes ++ b1)
    (fun r hm => hall r (by simp [records, hm]))
  obtain ⟨b3, n3, e3, l3⟩ := records_said_compressed hU hinj p.authorities n2
    (p.header.toBytes ++ b1 ++ b2) (fun r hm => hall r (by simp [records, hm]))
  obtain ⟨b4, n4, e4, l4⟩ := records_said_compressed hU hinj p.additional n3
    (p.header.toBytes ++ b1 ++ b2 ++ b3) (fun r hm => hall r (by simp [records, hm]))
  refine ⟨p.header.toBytes ++ b1 ++ b2 ++ b3 ++ b4, ?_, fun hlen e => ?_⟩
  · unfold Packet.toBytesCompressed
    simp only [e1, e2, e3, e4, bind, Res.bind, pure]
  · simp only [List.length_append] at hlen
    obtain ⟨l1, m1⟩ := l1 (mapOk_empty _ _ _ _) (by simp only [List.length_append]; omega)
    obtain ⟨l2, m2⟩ := l2 m1 (by simp only [List.length_append]; omega)
    obtain ⟨l3, m3⟩ := l3 m2 (by simp only [List.length_append]; omega)
    obtain ⟨l4, m4⟩ := l4 m3 (by simp only [List.length_append]; omega)
    obtain ⟨w1, w2, w3, w4⟩ := hc
    refine ⟨w1.symm, w2.symm, w3.symm, w4.symm, p.header.toBytes.length, (p.header.toBytes ++ b1).length,
      (p.header.toBytes ++ b1 ++ b2).length, _, ?_, ?_, ?_, ?_,
      listAt_mono (fun i x j hx => recordAt_extend decodes_extends hx e) _ _ _ l4⟩
    · rw [header_toBytes_eq]
      simp only [List.append_assoc]
      exact header_items_at _ _
    · refine listAt_mono (fun i x j hx => ?_) _ _ _ l1
      simpa using questionAt_extend decodes_extends hx (b2 ++ b3 ++ b4 ++ e)
    · refine listAt_mono (fun i x j hx => ?_) _ _ _ l2
      simpa using recordAt_extend decodes_extends hx (b3 ++ b4 ++ e)
    · refine listAt_mono (fun i x j hx => ?_) _ _ _ l3
      simpa using recordAt_extend decodes_extends hx (b4 ++ e)

end Dns
