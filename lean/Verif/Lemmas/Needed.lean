import Verif.Lemmas.Parsed
import Verif.Lemmas.Swallow

/-! What is read back can be represented: texts that are too long are not read back. -/

namespace Dns
open Spec Buf

/-- Replacing the invalid parts of the first octets of a text by U+FFFD gives the text only if the
rest is short. -/
theorem lossy_prefix : ∀ (x e : Bytes), utf8Lossy x = x ++ e → e.length ≤ 4 := by
  intro x
  induction x using utf8Lossy.induct with
  | case1 => intro e h; rw [utf8Lossy] at h; simp at h; simp [h]
  | case2 b bs k hs ih =>
    intro e h
    rw [utf8Lossy, hs] at h
    simp only [List.cons_append, List.cons.injEq, true_and] at h
    refine ih e ?_
    have h1 : bs.take k ++ utf8Lossy (bs.drop k) = bs.take k ++ (bs.drop k ++ e) := by
      rw [h, ← List.append_assoc, List.take_append_drop]
    exact List.append_cancel_left h1
  | case3 b bs k hs ih =>
    intro e h
    rw [utf8Lossy, hs] at h
    simp only [List.cons_append, List.cons.injEq] at h
    obtain ⟨rfl, h⟩ := h
    match bs, hs, h with
    | [], hs, h =>
      have : utf8Lossy (([] : Bytes).drop k) = [] := by rw [List.drop_nil, utf8Lossy]
      rw [this] at h
      rw [List.nil_append] at h
      rw [← h]; decide
    | [c], hs, h =>
      simp only [List.cons_append, List.cons.injEq, List.nil_append] at h
      obtain ⟨rfl, h⟩ := h
      have h1 : (utf8Step 0xEF [0xBF]).2 = 1 := by decide
      rw [hs] at h1
      subst h1
      have : utf8Lossy (([0xBF] : Bytes).drop 1) = [] := by rw [show ([0xBF] : Bytes).drop 1 = [] from rfl, utf8Lossy]
      rw [this] at h
      rw [← h]; decide
    | c :: c' :: bs, hs, h =>
      simp only [List.cons_append, List.cons.injEq] at h
      obtain ⟨rfl, rfl, h⟩ := h
      have h1 : (utf8Step 0xEF (0xBF :: 0xBD :: bs)).1 = true := by
        simp [utf8Step]
        decide
      rw [hs] at h1
      cases h1

/-- A text that is read where it was written has less than 256 octets. -/
theorem str_fits {pre s e w : Bytes} {k : Nat} {N : NameRel}
    (h : (Item.str w).At N (pre ++ (lenU8 s.length :: (s ++ e))) pre.length k) (hs : s = utf8Lossy w) :
    s.length < 256 ∧ k = (pre ++ lenU8 s.length :: s).length := by
  obtain ⟨h1, h2⟩ := h
  obtain ⟨h3, h4, h5⟩ := octets_iff.mp h2
  rw [List.drop_left, List.length_cons, List.take_succ_cons] at h5
  simp only [List.cons.injEq] at h5
  obtain ⟨h6, h7⟩ := h5
  have h8 : s.length % 256 = w.length := by
    have := congrArg UInt8.toNat h6
    simpa [lenU8, Nat.mod_eq_of_lt h1] using this
  rw [List.take_append_of_le_length (by rw [← h8]; exact Nat.mod_le _ _)] at h7
  have h9 := lossy_prefix w (s.drop w.length) (by
    rw [← hs]
    conv_rhs => rw [← h7]
    conv_rhs => rw [List.length_take, Nat.min_eq_left (by rw [← h8]; exact Nat.mod_le _ _)]
    exact (List.take_append_drop _ _).symm)
  rw [List.length_drop] at h9
  have h10 : s.length < 256 := by omega
  refine ⟨h10, ?_⟩
  rw [h3]
  simp only [List.length_append, List.length_cons]
  omega

theorem txt_fits {N : NameRel} : ∀ (ss ws : List Bytes) (pre e : Bytes) (k : Nat),
    Items.At N (pre ++ (ss.flatMap (fun s => lenU8 s.length :: s) ++ e)) pre.length (ws.map .str) k →
    ss = ws.map utf8Lossy → ∀ s ∈ ss, s.length < 256 := by
  intro ss
  induction ss with
  | nil => intro _ _ _ _ _ _ s hs; cases hs
  | cons s ss ih =>
    intro ws pre e k h he
    cases ws with
    | nil => cases he
    | cons w ws =>
      simp only [List.map_cons, List.cons.injEq] at he
      obtain ⟨k1, h1, h2⟩ := h
      simp only [List.flatMap_cons, List.cons_append, List.append_assoc] at h1 h2
      obtain ⟨h3, rfl⟩ := str_fits h1 he.1
      intro x hx
      rcases List.mem_cons.mp hx with rfl | hx
      · exact h3
      · refine ih ws (pre ++ lenU8 s.length :: s) e k ?_ he.2 x hx
        simpa using h2

theorem txt_octets (r : Txt) : r.toBytes = r.strings.flatMap (fun s => lenU8 s.length :: s) := by
  have : ∀ (l : List Bytes) (acc : Bytes), l.foldl (fun buff e => buff ++ [lenU8 e.length] ++ e) acc =
      acc ++ l.flatMap (fun s => lenU8 s.length :: s) := by
    intro l
    induction l with
    | nil => simp
    | cons s l ih => intro acc; rw [List.foldl_cons, ih]; simp
  exact this r.strings []

/-- Data that are read back from where they were written have texts that fit. -/
theorem data_fits {cfg : Cfg} {t : RecordType} {r : RecordData} {data pre e : Bytes} {m : Nat}
    (hd : r.toBytes cfg = .ok data) (hl : data.length < 65536)
    (h : ParsedData cfg t (pre ++ (data ++ e).take m) pre.length r) : TextFits r := by
  cases r <;> first | trivial | skip
  case TXT r =>
    have h8 : r.toBytes = data := by simpa [RecordData.toBytes] using hd
    obtain ⟨j, h⟩ := h
    obtain ⟨_, its, ⟨ws, rfl, h2⟩, h⟩ := (RecordData.parse_ok (by trivial)).mp h
    obtain ⟨k, h3, -⟩ := itemsAt_append.mp h
    have h4 := items_extend decodes_extends (by simp [Item.Open]) h3 ((data ++ e).drop m)
    rw [List.append_assoc, List.take_append_drop, ← h8, txt_octets] at h4
    exact txt_fits _ _ _ _ _ h4 h2
  case CAA r =>
    have h8 : r.toBytes = data := by simpa [RecordData.toBytes] using hd
    obtain ⟨j, h⟩ := h
    obtain ⟨_, its, ⟨fl, tag, rfl, h2, _, h3⟩, h⟩ := (RecordData.parse_ok (by trivial)).mp h
    obtain ⟨k1, h4, k2, h5, -⟩ := h
    have h6 := items_extend (its := [.str tag]) decodes_extends (by simp [Item.Open]) ⟨k2, h5, rfl⟩ ((data ++ e).drop m)
    rw [List.append_assoc, List.take_append_drop, ← h8] at h6
    obtain ⟨_, h6, -⟩ := h6
    have h7 : k1 = (pre ++ [(if r.issuerCritical then 1 else 0 : UInt8) <<< 7]).length := by
      rw [h4.end_eq]; simp
    rw [h7] at h6
    rw [show pre ++ (r.toBytes ++ e) = (pre ++ [(if r.issuerCritical then 1 else 0 : UInt8) <<< 7]) ++
      (lenU8 r.tag.length :: (r.tag ++ (r.value ++ e))) by simp [Caa.toBytes]] at h6
    exact (str_fits h6 h3).1

/-- A record all parts of which have been read, except that the texts may be too long. -/
def Nearly (cfg : Cfg) (r : ResourceRecord) : Prop :=
  NameOk 191 r.name ∧
    (TextFits r.rdata → (∀ b, r.rdata.toBytes cfg = .ok b → b.length < 65536) → RecordOk cfg 191 r)

theorem nearly_of_parsed {cfg : Cfg} {d : Bytes} {p : Packet} (h : Packet.parse cfg d = .ok p) :
    (∀ q ∈ p.questions, QuestionOk cfg 191 q) ∧ (∀ r ∈ records p, Nearly cfg r) ∧ CountsOk p := by
  obtain ⟨e, h1, h2, h3, h4, i1, i2, i3, i4, _, hq, ha, hu, hd⟩ := Packet.parse_ok.mp h
  refine ⟨?_, ?_, h1.symm, h2.symm, h3.symm, h4.symm⟩
  · intro q hm
    obtain ⟨a, b, h5, v, ⟨_, h6⟩, h7⟩ := listAt_mem hq hm
    refine ⟨name_mem h7 (by simp), h5, ?_⟩
    intro h8
    rw [h6] at h8
    exact (Bool.and_eq_true_iff.mp h8).1
  · intro r hm
    have : ∃ a b, RecordAtWith (ParsedData cfg) Decodes cfg d a r b := by
      simp only [records, List.mem_append] at hm
      rcases hm with (hm | hm) | hm
      · exact listAt_mem ha hm
      · exact listAt_mem hu hm
      · exact listAt_mem hd hm
    obtain ⟨a, b, h5, h6, v, len, k, ⟨h7, h8⟩, h9, hj, _, e, h10⟩ := this
    have hn : NameOk 191 r.name := name_mem h9 (by simp [recordHead])
    refine ⟨hn, fun f1 f2 => ⟨hn, h5, RecordData.parse_type h10, h6, by omega, ?_, 
      RecordData.parsed h10 (by have := len.toNat_lt; simp only [List.length_take]; omega) f1, f2⟩⟩
    intro h11
    rw [h8] at h11
    exact (Bool.and_eq_true_iff.mp h11).1

/-- A record of less than 65536 octets that is read back from where it was written can be represented. -/
theorem record_needs {cfg : Cfg} {r : ResourceRecord} (h : Nearly cfg r) {b pre e : Bytes} {j : Nat}
    (hb : r.toBytes cfg = .ok b) (hl : b.length < 65536)
    (hj : ResourceRecord.parse cfg (pre ++ b ++ e) pre.length = (.ok r, j)) : RecordOk cfg 191 r := by
  unfold ResourceRecord.toBytes at hb
  simp only [Res.bind_ok] at hb
  obtain ⟨n, h1, data, h2, h3⟩ := hb
  have hbe : b = Items.octets (recordHead r (r.classBits cfg) (UInt16.ofNat n)) ++ data := by
    cases h3
    simp [recordHead, Items.octets, Item.octets, o16, NameOk.toBytes h.1,
      RecordType.toU16_eq, u16be_eq, u32be_eq, lenU16]
  clear h3
  subst hbe
  have hd : data.length < 65536 := by rw [List.length_append] at hl; omega
  refine h.2 ?_ (fun b hb => by rw [h2] at hb; cases hb; exact hd)
  let head := Items.octets (recordHead r (r.classBits cfg) (UInt16.ofNat n))
  have hn : Good 191 r.name := h.1
  have h3 : Items.At Decodes (pre ++ head) pre.length
      (recordHead r (r.classBits cfg) (UInt16.ofNat n)) (pre ++ head).length :=
    items_decode (Nat.le_refl 191) _ pre (by simp [recordHead, Item.Fits, o16, hn]) (by simp [recordHead, Item.Open, o16])
  have h4 := items_extend decodes_extends (by simp [Item.Open, o16, recordHead]) h3 (data ++ e)
  rw [show pre ++ (head ++ data) ++ e = pre ++ head ++ (data ++ e) by simp] at hj
  obtain ⟨h5, h6, h7⟩ := data_of_record h4 hj
  rw [h5, take_behind] at h7
  exact data_fits h2 hd h7

/-- The first octet of a written record: 0 for the root, or the length of the first label. -/
theorem record_first' {cfg : Cfg} {r : ResourceRecord} (h : NameOk 191 r.name) {b : Bytes}
    (hb : r.toBytes cfg = .ok b) (hn : r.name ≠ []) (e : Bytes) :
    (b ++ e)[0]? ≠ some 0 ∧ (b ++ e)[0]? ≠ some 255 := by
  unfold ResourceRecord.toBytes at hb
  simp only [Res.bind_ok] at hb
  obtain ⟨n, h1, data, h2, h3⟩ := hb
  cases h3
  cases hx : r.name with
  | nil => exact absurd hx hn
  | cons l n =>
    have hl := h l (by rw [hx]; exact List.mem_cons_self)
    rw [← hx, NameOk.toBytes h, hx]
    simp only [nameOctets, List.map_cons, List.flatten_cons, List.cons_append, List.getElem?_cons_zero, List.append_assoc]
    constructor <;> intro h2 <;>
    · have h3 := congrArg UInt8.toNat (Option.some.inj h2)
      rw [UInt8.toNat_ofNat_of_lt' (by simp [UInt8.size]; omega)] at h3
      have h4 : (0 : UInt8).toNat = 0 := rfl
      have h5 : (255 : UInt8).toNat = 255 := rfl
      omega

theorem records_apart_need {cfg : Cfg} : ∀ (rs : List ResourceRecord) (bin b : Bytes) (j : Nat),
    (∀ r ∈ rs, Nearly cfg r) → Apart rs → b.length < 65536 →
    Packet.recordsBytes cfg rs bin = .ok (bin ++ b) →
    ListAt (RecordAtWith (ParsedData cfg) Decodes cfg (bin ++ b)) bin.length rs j →
    ∀ r ∈ rs, RecordOk cfg 191 r := by
  intro rs
  induction rs with
  | nil => intro bin b j _ _ _ hb h r hr; cases hr
  | cons r rs ih =>
    rintro bin b j hr hv hl hb ⟨k, h1, h2⟩
    unfold Packet.recordsBytes at hb
    simp only [Res.bind_ok] at hb
    obtain ⟨a, h3, h4⟩ := hb
    obtain ⟨b', h5⟩ := written_prefix rs h4
    rw [List.append_assoc] at h5
    obtain rfl := List.append_cancel_left h5
    rw [← List.append_assoc] at h4 h1 h2
    rw [List.length_append] at hl
    have hp1 := ResourceRecord.parse_ok.mpr h1
    have hok := record_needs (hr r List.mem_cons_self) h3 (by omega) hp1
    have h6 := record_fails (Nat.le_refl 191) hok h3 hp1
    have hz : sizeError r.rdata = 0 := by
      by_cases ht : r.rdata.type = .SVCB
      · cases hx : r.rdata <;> rw [hx] at ht <;> first | (simp [RecordData.type] at ht; done) | skip
        rename_i s
        by_cases hne : s.params = []
        · simp [sizeError, hne]
        exfalso
        have h7 := svcb_swallows (Nat.le_refl 191) hok hx hne h3 hp1
        cases rs with
        | nil =>
          have h4 := Res.ok.inj h4
          have : b' = [] := by simpa using h4
          rw [this] at h7
          simp at h7
        | cons r' c =>
          rcases hv [] r r' c rfl with h8 | h8
          · exact hne (h8 s hx)
          · unfold Packet.recordsBytes at h4
            simp only [Res.bind_ok] at h4
            obtain ⟨a', h9, h10⟩ := h4
            obtain ⟨b'', h11⟩ := written_prefix c h10
            rw [List.append_assoc (bin ++ a)] at h11
            obtain rfl := List.append_cancel_left h11
            have h12 := record_first' (hr r' (by simp)).1 h9 h8 b''
            rcases h7 with h7 | h7
            · exact h12.1 h7
            · exact h12.2 h7
      · exact h6.2 (.inl ht)
    obtain ⟨a', h7, h8⟩ := ResourceRecord.read_back (Nat.le_refl 191) hok
      (fun x hx => h6.1 (by rw [hx]; rfl)) hz hok.2.2.2.2.2.2.1.sets bin
    rw [h3] at h7
    cases h7
    have h9 := recordAt_extend decodes_extends h8 b'
    obtain rfl := recordAt_fun _ _ _ _ h1 h9
    have h10 := ih (bin ++ a) b' j (fun x hx => hr x (List.mem_cons_of_mem _ hx))
      (fun x y z c hc => hv (r :: x) y z c (by rw [hc]; rfl)) (by omega) h4 h2
    intro x hx
    rcases List.mem_cons.mp hx with rfl | hx
    · exact hok
    · exact h10 x hx

/-- Packets that are read back can be represented. -/
theorem Packet.needs {cfg : Cfg} {p : Packet} (hv : Apart (records p)) {b : Bytes}
    (hb : p.toBytes cfg = .ok b) (hl : b.length < 65536) (h : Packet.parse cfg b = .ok (withCounts p)) :
    PacketOk cfg 191 p := by
  obtain ⟨hq, hr, c1, c2, c3, c4⟩ := nearly_of_parsed h
  have hq : ∀ q ∈ p.questions, QuestionOk cfg 191 q := hq
  have hr : ∀ r ∈ records p, Nearly cfg r := hr
  obtain ⟨b1, e1, l1⟩ := questions_read_back (Nat.le_refl 191) p.questions p.headerBytes hq
  have hb' : Packet.recordsBytes cfg (records p) (p.headerBytes ++ b1) = .ok b := by
    unfold Packet.toBytes at hb
    rw [e1] at hb
    rw [records, recordsBytes_append, recordsBytes_append]
    simp only [Res.bind_ok] at hb ⊢
    obtain ⟨c2, e2, c3, e3, e4⟩ := hb
    exact ⟨c3, ⟨c2, e2, e3⟩, e4⟩
  obtain ⟨b2, rfl⟩ := written_prefix _ hb'
  obtain ⟨end_, _, _, _, _, i1, i2, i3, i4, h1, h2, h3, h4, h5⟩ := Packet.parse_ok.mp h
  have h6 : i1 = p.headerBytes.length := by
    have h7 := header_items_at (withCounts p).header (b1 ++ b2)
    rw [← headerBytes_eq] at h7
    simp only [List.append_assoc] at h1 h7
    simp only [headerItems, Items.At, Item.At] at h1 h7
    obtain ⟨_, n1, _, n2, _, n3, _, n4, _, n5, _, n6, _, n7, rfl⟩ := h1
    obtain ⟨_, m1, _, m2, _, m3, _, m4, _, m5, _, m6, _, m7, m8⟩ := h7
    rw [← m8]
    rw [n7.end_eq, n6.end_eq, n5.end_eq, n4.end_eq, n3.end_eq, n2.end_eq, n1.end_eq,
      m7.end_eq, m6.end_eq, m5.end_eq, m4.end_eq, m3.end_eq, m2.end_eq, m1.end_eq]
  subst h6
  have h8 := listAt_mono (fun i x j hx => questionAt_extend decodes_extends hx b2) _ _ _ l1
  obtain rfl := listAt_fun questionAt_fun _ _ _ _ h2 h8
  refine ⟨hq, records_apart_need (records p) (p.headerBytes ++ b1) b2 end_ hr hv
    (by rw [List.length_append] at hl; omega) hb'
    (listAt_append.mpr ⟨i4, listAt_append.mpr ⟨i3, h3, h4⟩, h5⟩), ?_, ?_, ?_, ?_⟩
  all_goals simp only [withCounts] at c1 c2 c3 c4
  all_goals have g1 := (UInt16.ofNat p.questions.length).toNat_lt
  all_goals have g2 := (UInt16.ofNat p.answers.length).toNat_lt
  all_goals have g3 := (UInt16.ofNat p.authorities.length).toNat_lt
  all_goals have g4 := (UInt16.ofNat p.additional.length).toNat_lt
  all_goals omega

/-! ## Compressed form -/

theorem record_compressed_needs {cfg : Cfg} {h : Hash} {U : Fqdn → Prop}
    (hU : TailClosed U) (hinj : InjOn U h) {r : ResourceRecord} (hr : Nearly cfg r)
    (hd : ∀ b, r.rdata.toBytes cfg = .ok b → b.length < 65536) (hn : U r.name)
    {names names' : Names} {pre b : Bytes} (hb : r.toBytesCompressed cfg h names pre.length = .ok (b, names'))
    (hm : MapOk 191 U h names pre) (hlen : (pre ++ b).length ≤ 16384) {e : Bytes} {j : Nat}
    (hj : ResourceRecord.parse cfg (pre ++ b ++ e) pre.length = (.ok r, j)) : RecordOk cfg 191 r := by
  refine hr.2 ?_ hd
  have hg : Good 191 r.name := hr.1
  by_cases hx : ∃ c, r.rdata.toBytes cfg = .ok c ∧ ∀ n o, r.rdata.toBytesCompressed cfg h n o = .ok (c, n)
  swap
  · cases hy : r.rdata <;> first | trivial | (exfalso; rw [hy] at hx; exact hx ⟨_, rfl, fun _ _ => rfl⟩)
  · obtain ⟨c, hc, hcc⟩ := hx
    let its (n : Nat) := recordHead r (r.classBits cfg) (UInt16.ofNat n)
    let hc := r.headCompressed cfg h names pre.length
    have hcl : ∀ n, Items.compress h (its n) names pre.length = (hc.1 ++ u16be (lenU16 n), hc.2) := by
      intro n
      simp [its, hc, recordHead, ResourceRecord.headCompressed, Items.compress, Item.compress, Item.octets,
        o16, RecordType.toU16_eq, u16be_eq, u32be_eq, lenU16]
    have hw : r.toBytesCompressed cfg h names pre.length =
        .ok (hc.1 ++ u16be (lenU16 c.length) ++ c, hc.2) := by
      unfold ResourceRecord.toBytesCompressed
      simp only [hcc]
      rfl
    rw [hw] at hb
    cases hb
    have hle : (pre ++ (hc.1 ++ u16be (lenU16 c.length))).length ≤ 16384 := by
      simp only [List.length_append] at hlen ⊢; omega
    have hdl : c.length < 65536 := by
      simp only [List.length_append] at hlen; omega
    obtain ⟨h3, -⟩ := items_compressed decodes_extends (Nat.le_refl 191) hU hinj
      (fun pre n names a b c d => decodes_compressed (Nat.le_refl 191) hU hinj pre n names a b c d)
      (its c.length) names pre (by simp [its, recordHead, Item.Fits, o16, hg])
      (by simp [its, recordHead, Item.Open, o16])
      (by simp [its, recordHead, o16, hn]) hm (by rw [hcl]; exact hle)
    rw [hcl] at h3
    have h4 := items_extend decodes_extends (by simp [Item.Open, o16, its, recordHead]) h3 (c ++ e)
    simp only [← List.append_assoc] at h4 hj
    obtain ⟨h5, -, h6⟩ := data_of_record h4 hj
    rw [h5, List.append_assoc _ c e, take_behind] at h6
    exact data_fits ‹_› hdl h6

theorem records_compressed_need {cfg : Cfg} {h : Hash} {U : Fqdn → Prop}
    (hU : TailClosed U) (hinj : InjOn U h) :
    ∀ (rs : List ResourceRecord) (names names' : Names) (bin b e : Bytes) (j : Nat),
    (∀ r ∈ rs, Nearly cfg r ∧ (∀ d, r.rdata.toBytes cfg = .ok d → d.length < 65536) ∧ U r.name ∧
      ∀ n ∈ rdataNames r.rdata, U n) →
    Packet.recordsCompressed cfg h rs names bin = .ok (bin ++ b, names') →
    MapOk 191 U h names bin → (bin ++ b).length ≤ 16384 →
    ListAt (RecordAtWith (ParsedData cfg) Decodes cfg (bin ++ b ++ e)) bin.length rs j →
    (∀ r ∈ rs, RecordOk cfg 191 r) ∧ j = (bin ++ b).length ∧ MapOk 191 U h names' (bin ++ b) := by
  intro rs
  induction rs with
  | nil =>
    intro names names' bin b e j _ hb hm _ h
    cases b with
    | nil =>
      have : names = names' := by simpa [Packet.recordsCompressed, pure] using hb
      exact ⟨by simp, by rw [List.append_nil]; exact h.symm, by rw [List.append_nil, ← this]; exact hm⟩
    | cons x b => simp [Packet.recordsCompressed, pure] at hb
  | cons r rs ih =>
    rintro names names' bin b e j hr hb hm hlen ⟨k, h1, h2⟩
    unfold Packet.recordsCompressed at hb
    simp only [Res.bind_ok] at hb
    obtain ⟨⟨a, names1⟩, h3, h4⟩ := hb
    dsimp only at h4
    obtain ⟨b', h5⟩ := written_prefix_compressed rs h4
    rw [List.append_assoc] at h5
    obtain rfl := List.append_cancel_left h5
    rw [← List.append_assoc] at h4 h1 h2 hlen ⊢
    obtain ⟨hr1, hrd, hr2, hr3⟩ := hr r List.mem_cons_self
    have hle : (bin ++ a).length ≤ 16384 := by rw [List.length_append] at hlen; omega
    have hp1 := ResourceRecord.parse_ok.mpr (by rw [List.append_assoc] at h1; exact h1)
    have hok := record_compressed_needs hU hinj hr1 hrd hr2 h3 hm hle hp1
    have h6 := record_compressed_fails (Nat.le_refl 191) hU hinj hok hr2 h3 hm hle hp1
    obtain ⟨a', names2, h7, h8⟩ := ResourceRecord.read_back_compressed (Nat.le_refl 191) hU hinj hok
      (fun x hx => h6 (by rw [hx]; rfl)) hr2 hr3 names bin
    rw [h3] at h7
    cases h7
    obtain ⟨h8, h8'⟩ := h8 hm hle
    have h9 := recordAt_extend decodes_extends h8 (b' ++ e)
    rw [← List.append_assoc] at h9
    obtain rfl := recordAt_fun _ _ _ _ h1 h9
    obtain ⟨h10, h11⟩ := ih names1 names' (bin ++ a) b' e j (fun x hx => hr x (List.mem_cons_of_mem _ hx))
      h4 h8' hlen h2
    refine ⟨?_, h11⟩
    intro x hx
    rcases List.mem_cons.mp hx with rfl | hx
    · exact hok
    · exact h10 x hx

theorem Packet.needs_compressed {cfg : Cfg} {h : Hash} {U : Fqdn → Prop}
    (hU : TailClosed U) (hinj : InjOn U h) {p : Packet}
    (hd : ∀ r ∈ records p, ∀ d, r.rdata.toBytes cfg = .ok d → d.length < 65536)
    (hn : ∀ n ∈ packetNames p, U n)
    {b e : Bytes} (hb : p.toBytesCompressed cfg h = .ok b) (hlen : b.length ≤ 16384)
    (hj : Packet.parse cfg (b ++ e) = .ok p) : PacketOk cfg 191 p ∧ CountsOk p := by
  obtain ⟨hq, hr, hc⟩ := nearly_of_parsed hj
  have hall : ∀ r ∈ records p, Nearly cfg r ∧ (∀ d, r.rdata.toBytes cfg = .ok d → d.length < 65536) ∧ U r.name ∧
      ∀ n ∈ rdataNames r.rdata, U n := by
    intro r hm
    refine ⟨hr r hm, hd r hm, hn _ ?_, fun n hm2 => hn _ ?_⟩
    · simp only [packetNames, List.mem_append, List.mem_flatMap]
      exact .inr ⟨r, hm, by simp⟩
    · simp only [packetNames, List.mem_append, List.mem_flatMap]
      exact .inr ⟨r, hm, by simp [hm2]⟩
  obtain ⟨b1, e1, l1⟩ := questions_read_back_compressed (Nat.le_refl 191) hU hinj p.questions Names.empty p.header.toBytes
    (fun q hm => ⟨hq q hm, hn _ (by
      simp only [packetNames, List.mem_append, List.mem_map]; exact .inl ⟨q, hm, rfl⟩)⟩)
  unfold Packet.toBytesCompressed at hb
  simp only [Res.bind_ok, e1] at hb
  obtain ⟨⟨c2, n2⟩, e2, ⟨c3, n3⟩, e3, ⟨c4, n4⟩, e4, hb⟩ := hb
  cases hb
  obtain ⟨b2, rfl⟩ := written_prefix_compressed _ e2
  obtain ⟨b3, rfl⟩ := written_prefix_compressed _ e3
  obtain ⟨b4, rfl⟩ := written_prefix_compressed _ e4
  simp only [List.length_append] at hlen
  obtain ⟨l1, m1⟩ := l1 (mapOk_empty _ _ _ _) (by simp only [List.length_append]; omega)
  obtain ⟨end_, _, _, _, _, i1, i2, i3, i4, h1, h2, h3, h4, h5⟩ := Packet.parse_ok.mp hj
  have h6 : i1 = p.header.toBytes.length := by
    have h7 := header_items_at p.header (b1 ++ b2 ++ b3 ++ b4 ++ e)
    rw [← header_toBytes_eq] at h7
    simp only [List.append_assoc] at h1 h7
    simp only [headerItems, Items.At, Item.At] at h1 h7
    obtain ⟨_, n1, _, n2, _, n3, _, n4, _, n5, _, n6, _, n7, rfl⟩ := h1
    obtain ⟨_, m1, _, m2, _, m3, _, m4, _, m5, _, m6, _, m7, m8⟩ := h7
    rw [← m8]
    rw [n7.end_eq, n6.end_eq, n5.end_eq, n4.end_eq, n3.end_eq, n2.end_eq, n1.end_eq,
      m7.end_eq, m6.end_eq, m5.end_eq, m4.end_eq, m3.end_eq, m2.end_eq, m1.end_eq]
  subst h6
  have h8 := listAt_mono (fun i x j hx => questionAt_extend decodes_extends hx (b2 ++ b3 ++ b4 ++ e)) _ _ _ l1
  simp only [← List.append_assoc] at h8
  obtain rfl := listAt_fun questionAt_fun _ _ _ _ h2 h8
  obtain ⟨s2, rfl, m2⟩ := records_compressed_need hU hinj p.answers _ _ (p.header.toBytes ++ b1) b2 (b3 ++ b4 ++ e) i3
    (fun r hm => hall r (by simp [records, hm])) e2 m1 (by simp only [List.length_append]; omega)
    (by simp only [← List.append_assoc]; exact h3)
  obtain ⟨s3, rfl, m3⟩ := records_compressed_need hU hinj p.authorities _ _ (p.header.toBytes ++ b1 ++ b2) b3 (b4 ++ e) i4
    (fun r hm => hall r (by simp [records, hm])) e3 m2 (by simp only [List.length_append]; omega)
    (by simp only [← List.append_assoc]; exact h4)
  obtain ⟨s4, -⟩ := records_compressed_need hU hinj p.additional _ _ (p.header.toBytes ++ b1 ++ b2 ++ b3) b4 e end_
    (fun r hm => hall r (by simp [records, hm])) e4 m3 (by simp only [List.length_append]; omega) h5
  have c1 := p.header.quesCount.toNat_lt
  have c2 := p.header.ansCount.toNat_lt
  have c3 := p.header.authCount.toNat_lt
  have c4 := p.header.addCount.toNat_lt
  have hc' := hc
  obtain ⟨d1, d2, d3, d4⟩ := hc
  refine ⟨⟨hq, ?_, by omega, by omega, by omega, by omega⟩, hc'⟩
  intro r hm
  simp only [records, List.mem_append] at hm
  rcases hm with (hm | hm) | hm
  · exact s2 r hm
  · exact s3 r hm
  · exact s4 r hm

end Dns
