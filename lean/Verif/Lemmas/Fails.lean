import Verif.Lemmas.PacketWrite
import Verif.Lemmas.Size

/-! Written records that are not read back. -/

namespace Dns
open Spec Buf

theorem decodes_fun {d : Bytes} {i j k : Nat} {n m : Fqdn} (h1 : Decodes d i n j) (h2 : Decodes d i m k) :
    n = m ∧ j = k := by
  have h : (Res.ok n, j) = (Res.ok m, k) := h1.symm.trans h2
  cases h; exact ⟨rfl, rfl⟩

theorem recordHead_unique {d : Bytes} {i k k' : Nat} {r : ResourceRecord} {v v' l l' : UInt16}
    (h : Items.At Decodes d i (recordHead r v l) k) (h' : Items.At Decodes d i (recordHead r v' l') k') :
    l = l' ∧ k = k' := by
  simp only [recordHead, Items.At, Item.At, o16] at h h'
  obtain ⟨a1, n1, a2, n2, a3, n3, a4, n4, a5, n5, rfl⟩ := h
  obtain ⟨b1, m1, b2, m2, b3, m3, b4, m4, b5, m5, rfl⟩ := h'
  obtain ⟨_, rfl⟩ := decodes_fun n1 m1
  have e2 : a2 = b2 := n2.end_eq.trans m2.end_eq.symm; subst e2
  have e3 : a3 = b3 := n3.end_eq.trans m3.end_eq.symm; subst e3
  have e4 : a4 = b4 := n4.end_eq.trans m4.end_eq.symm; subst e4
  have e5 : a5 = b5 := n5.end_eq.trans m5.end_eq.symm; subst e5
  have h := (extractU16_ok.mpr n5).symm.trans (extractU16_ok.mpr m5)
  cases h; exact ⟨rfl, rfl⟩

/-- When a record is read back from where its head is, its data are read from behind the head. -/
theorem data_of_record {cfg : Cfg} {d : Bytes} {i j k : Nat} {r : ResourceRecord} {v l : UInt16}
    (h : Items.At Decodes d i (recordHead r v l) k) (hr : ResourceRecord.parse cfg d i = (.ok r, j)) :
    j = k + l.toNat ∧ j ≤ d.length ∧ ParsedData cfg r.type (d.take j) k r.rdata := by
  obtain ⟨_, _, v', l', k', _, h4, h5, h6, h7⟩ := ResourceRecord.parse_ok.mp hr
  obtain ⟨rfl, rfl⟩ := recordHead_unique h h4
  exact ⟨h5, h6, h7⟩

/-- The first octets of data: `n` of the octets `data ++ e` behind `pre`. -/
theorem take_behind (pre x : Bytes) (n : Nat) : (pre ++ x).take (pre.length + n) = pre ++ x.take n := by
  rw [List.take_append]; simp

theorem sshfp_fails {cfg : Cfg} {r : Sshfp} {pre x : Bytes} {t : RecordType}
    (hx : x.length ≤ 2 + r.fingerprint.length) : ¬ ParsedData cfg t (pre ++ x) pre.length (.SSHFP r) := by
  rintro ⟨j, h⟩
  obtain rfl : RecordType.SSHFP = t := RecordData.parse_type h
  simp only [RecordData.parse, Sshfp.parse, Parser.bind_ok, Parser.pure_ok, Parser.lift_ok, extractU8_ok,
    extractCharacterString_ok] at h
  obtain ⟨s, k, ⟨a, k1, h1, a', k2, ⟨-, rfl⟩, f, k3, h3, f', k4, ⟨-, rfl⟩, p, k5, ⟨_, h5⟩, rfl, rfl⟩, h6, rfl⟩ := h
  cases h6
  have e1 := h1.end_eq
  have e2 := h3.end_eq
  have e3 := h5.end_eq
  have e4 := h5.le
  simp at e1 e2 e3 e4 hx
  omega

theorem caa_fails {cfg : Cfg} {r : Caa} {pre x : Bytes} {t : RecordType} (hx : x.length ≤ r.byteSize) :
    ¬ ParsedData cfg t (pre ++ x) pre.length (.CAA r) := by
  rintro ⟨j, h⟩
  obtain ⟨-, its, ⟨fl, tag, rfl, hne, -⟩, h⟩ := (RecordData.parse_ok (by trivial)).mp h
  simp only [Items.At, Item.At] at h
  obtain ⟨k1, o1, k2, ⟨-, o2⟩, k3, ⟨o3, -⟩, rfl⟩ := h
  have e1 := o1.end_eq
  have e2 := o2.end_eq
  have e3 := o3.end_eq
  have e4 := o3.le
  have e5 : 0 < tag.length := List.length_pos_of_ne_nil hne
  simp only [List.length_append, List.length_cons, List.length_nil, Caa.byteSize] at e1 e2 e3 e4 hx
  omega

theorem rrsig_fails {cfg : Cfg} {r : Rrsig} {pre e : Bytes} {t : RecordType} (hn : Good 191 r.signersName) :
    ¬ ParsedData cfg t (pre ++ (r.toBytes ++ e).take r.byteSize) pre.length (.RRSIG r) := by
  rintro ⟨j, h⟩
  obtain ⟨-, its, ⟨-, rfl⟩, h⟩ := (RecordData.parse_ok (by trivial)).mp h
  simp only [Items.At, Item.At, o16, o8] at h
  obtain ⟨k1, o1, k2, o2, k3, o3, k4, o4, k5, o5, k6, o6, k7, o7, k8, o8, k9, ⟨o9, -⟩, rfl⟩ := h
  have e1 := o1.end_eq
  have e2 := o2.end_eq
  have e3 := o3.end_eq
  have e4 := o4.end_eq
  have e5 := o5.end_eq
  have e6 := o6.end_eq
  have e7 := o7.end_eq
  have e9 := o9.end_eq
  have e10 := o9.le
  simp only [octets16, octets32, List.length_cons, List.length_nil, List.length_append, List.length_take] at e1 e2 e3 e4 e5 e6 e7 e9 e10
  -- the name is where it was written
  obtain ⟨fixed, hf, hb⟩ : ∃ fixed : Bytes, fixed.length = 18 ∧ r.toBytes = fixed ++ nameOctets r.signersName ++ r.signature := by
    refine ⟨u16be r.typeCovered.toU16 ++ [r.algorithm.toU8] ++ [r.labels] ++ u32be r.originalTtl
      ++ u32be r.sigExpiration ++ u32be r.sigInception ++ u16be r.keyTag, by simp [u16be_length, u32be_length], ?_⟩
    rw [Rrsig.toBytes, NameOk.toBytes hn]
  have h1 := decodes_extends (pre ++ (r.toBytes ++ e).take r.byteSize) ((r.toBytes ++ e).drop r.byteSize) _ _ _ o8
  rw [List.append_assoc, List.take_append_drop, hb] at h1
  have h2 := decodes_extends _ (r.signature ++ e) _ _ _ (decodes_plain (pre ++ fixed) _ hn)
  have h3 : k7 = (pre ++ fixed).length := by simp [hf]; omega
  rw [h3] at h1
  simp only [List.append_assoc] at h1 h2
  obtain ⟨-, h4⟩ := decodes_fun h1 h2
  have h5 : r.byteSize = 17 + (nameOctets r.signersName).length + r.signature.length := by
    rw [← NameOk.toBytes hn, ← Fqdn.byteSize_eq]; rfl
  simp only [List.length_append, hf] at h4
  omega

theorem options_length {d : Bytes} : ∀ (kvs : List (UInt16 × Bytes)) (i j : Nat),
    Items.At Decodes d i (optionItems kvs ++ [.eof]) j →
    d.length = i + 4 * kvs.length + (kvs.map (fun kv => kv.2.length)).sum := by
  intro kvs
  induction kvs with
  | nil =>
    intro i j h
    simp only [optionItems, List.flatMap_nil, List.nil_append, Items.At, Item.At] at h
    obtain ⟨_, ⟨h, _⟩, _⟩ := h
    simp [h]
  | cons kv kvs ih =>
    intro i j h
    simp only [optionItems, List.flatMap_cons, List.cons_append, List.nil_append, Items.At, Item.At] at h
    obtain ⟨k1, o1, k2, ⟨-, o2⟩, h⟩ := h
    have := ih _ _ h
    have e1 := o1.end_eq
    have e2 := o2.end_eq
    simp only [octets16, List.length_append, List.length_cons, List.length_nil] at e1 e2
    simp only [List.length_cons, List.map_cons, List.sum_cons]
    omega

theorem opt_fails {cfg : Cfg} {r : Opt} {pre x : Bytes} {t : RecordType} (hx : x.length = r.byteSize) :
    ¬ ParsedData cfg t (pre ++ x) pre.length (.OPT r) := by
  rintro ⟨j, h⟩
  obtain ⟨-, its, ⟨kvs, rfl, hk⟩, h⟩ := (RecordData.parse_ok (by trivial)).mp h
  have h1 := options_length _ _ _ h
  have h2 := sum_subperm (fun x => x.2.length) (mapOf_subperm kvs)
  have h3 := (mapOf_subperm kvs).length_le
  rw [List.length_append, hx, Opt.byteSize, foldl_add_len] at h1
  rw [← hk] at h2 h3
  simp only at h1 h2 h3
  have h4 : kvs.length = 0 := by omega
  have h5 : kvs = [] := List.length_eq_zero_iff.mp h4
  subst h5
  simp at h1

theorem Spec.Writable.sets {cfg : Cfg} {max : Nat} {r : RecordData} (h : Writable cfg max r) : SetsOk r := by
  cases r <;> first | exact h.2.1 | trivial

/-- Octets of a written record. -/
theorem record_octets {cfg : Cfg} {max : Nat} {r : ResourceRecord} (h : RecordOk cfg max r) {b : Bytes}
    (hb : r.toBytes cfg = .ok b) : ∃ n data, r.rdata.byteSize cfg = .ok n ∧ r.rdata.toBytes cfg = .ok data ∧
      data.length < 65536 ∧ (n : Int) = data.length + sizeError r.rdata ∧
      b = Items.octets (recordHead r (r.classBits cfg) (UInt16.ofNat n)) ++ data := by
  unfold ResourceRecord.toBytes at hb
  simp only [Res.bind_ok] at hb
  obtain ⟨n, h1, data, h2, h3⟩ := hb
  cases h3
  obtain ⟨n', h4, h5⟩ := RecordData.size h.2.2.2.2.2.2.1.sets h2
  rw [h1] at h4
  cases h4
  refine ⟨n, data, h1, h2, h.2.2.2.2.2.2.2 data h2, h5, ?_⟩
  simp [recordHead, Items.octets, Item.octets, o16, NameOk.toBytes h.1,
      RecordType.toU16_eq, u16be_eq, u32be_eq, lenU16]

/-- Where the data of a written record are read. -/
theorem record_data {cfg : Cfg} {max : Nat} (hmax : max ≤ 191) {r : ResourceRecord} (h : RecordOk cfg max r)
    {n : Nat} {pre data e : Bytes} {j : Nat}
    (hj : ResourceRecord.parse cfg (pre ++ (Items.octets (recordHead r (r.classBits cfg) (UInt16.ofNat n)) ++ data)
      ++ e) pre.length = (.ok r, j)) :
    j = (pre ++ Items.octets (recordHead r (r.classBits cfg) (UInt16.ofNat n))).length + n % 65536 ∧
    ∃ pre' : Bytes, ParsedData cfg r.type (pre' ++ (data ++ e).take (n % 65536)) pre'.length r.rdata ∧
      n % 65536 ≤ (data ++ e).length := by
  let head := Items.octets (recordHead r (r.classBits cfg) (UInt16.ofNat n))
  have hn : Good max r.name := h.1
  have h1 : Items.At Decodes (pre ++ head) pre.length
      (recordHead r (r.classBits cfg) (UInt16.ofNat n)) (pre ++ head).length :=
    items_decode hmax _ pre (by simp [recordHead, Item.Fits, o16, hn]) (by simp [recordHead, Item.Open, o16])
  have h2 := items_extend decodes_extends (by simp [Item.Open, o16, recordHead]) h1 (data ++ e)
  rw [show pre ++ (head ++ data) ++ e = pre ++ head ++ (data ++ e) by simp] at hj
  obtain ⟨h3, h4, h5⟩ := data_of_record h2 hj
  rw [show (UInt16.ofNat n).toNat = n % 65536 from rfl] at h3
  refine ⟨h3, pre ++ head, ?_, ?_⟩
  · rw [h3, take_behind] at h5; exact h5
  · rw [h3, List.length_append (bs := data ++ e)] at h4; omega

theorem svcb_params_length {cfg : Cfg} {r : Svcb} {b : Bytes} (h : r.toBytes cfg = .ok b) :
    4 * r.params.length ≤ b.length := by
  unfold Svcb.toBytes at h
  simp only [Res.bind_ok] at h
  obtain ⟨x, h1, h2⟩ := h
  cases h2
  have h3 := Svcb.params_size cfg _ _ h1
  have h4 : ∀ l : List Param, 4 * l.length ≤ (l.map Param.byteSize).sum := by
    intro l
    induction l with
    | nil => simp
    | cons p l ih => simp only [List.length_cons, List.map_cons, List.sum_cons, Param.value_size]; omega
  have h5 := h4 r.params
  simp only [List.length_append]
  omega

/-- Records with a wrong length, and SSHFP records, are not read back; SVCB records with parameters not
at the right place. -/
theorem record_fails {cfg : Cfg} {max : Nat} (hmax : max ≤ 191) {r : ResourceRecord} (h : RecordOk cfg max r)
    {b pre e : Bytes} {j : Nat} (hb : r.toBytes cfg = .ok b)
    (hj : ResourceRecord.parse cfg (pre ++ b ++ e) pre.length = (.ok r, j)) :
    r.rdata.type ≠ .SSHFP ∧ ((r.rdata.type ≠ .SVCB ∨ j = pre.length + b.length) → sizeError r.rdata = 0) := by
  obtain ⟨n, data, h1, h2, h3, h4, rfl⟩ := record_octets h hb
  obtain ⟨h5, pre', h6, h7⟩ := record_data hmax h hj
  rw [List.length_append] at h5 
  have hw := h.2.2.2.2.2.2.1
  generalize r.rdata = x at *
  have hlen : ∀ m, m ≤ (data ++ e).length → ((data ++ e).take m).length = m := by
    intro m hm; rw [List.length_take]; omega
  cases x
  case SSHFP s =>
    exfalso
    have h8 : s.toBytes = data := by simpa [RecordData.toBytes] using h2
    simp only [sizeError] at h4
    refine sshfp_fails ?_ h6
    rw [hlen _ h7]
    have : data.length = 2 + s.fingerprint.length := by rw [← h8]; simp [Sshfp.toBytes]; omega
    omega
  case CAA s =>
    exfalso
    have h8 : n = s.byteSize := by simpa [RecordData.byteSize] using h1.symm
    refine caa_fails ?_ h6
    rw [hlen _ h7, h8]
    exact Nat.mod_le _ _
  case RRSIG s =>
    exfalso
    have h8 : s.toBytes = data := by simpa [RecordData.toBytes] using h2
    have h9 : n = s.byteSize := by simpa [RecordData.byteSize] using h1.symm
    simp only [sizeError] at h4
    rw [Nat.mod_eq_of_lt (by omega), h9, ← h8] at h6
    exact rrsig_fails (Good.mono hw.2 hmax) h6
  case OPT s =>
    exfalso
    have h9 : n = s.byteSize := by simpa [RecordData.byteSize] using h1.symm
    simp only [sizeError] at h4
    have h10 : n < 65536 := by
      cases ho : s.options with
      | nil => rw [h9, Opt.byteSize, ho]; decide
      | cons o os => rw [ho, List.length_cons] at h4; omega
    rw [Nat.mod_eq_of_lt h10] at h6 h7
    refine opt_fails ?_ h6
    rw [hlen _ h7, h9]
  case SVCB s =>
    refine ⟨by simp [RecordData.type], fun hh => ?_⟩
    have h8 : s.toBytes cfg = .ok data := by simpa [RecordData.toBytes] using h2
    have h9 := svcb_params_length h8
    simp only [sizeError] at h4 ⊢
    simp only [RecordData.type, ne_eq, not_true_eq_false, false_or, List.length_append] at hh
    omega
  all_goals exact ⟨by simp [RecordData.type], fun _ => rfl⟩

/-! ## Sections and packets -/

theorem listAt_fun {α : Type} {R : Nat → α → Nat → Prop} (h : ∀ i x j k, R i x j → R i x k → j = k) :
    ∀ (xs : List α) (i j k : Nat), ListAt R i xs j → ListAt R i xs k → j = k := by
  intro xs
  induction xs with
  | nil => intro i j k h1 h2; exact h1.symm.trans h2
  | cons x xs ih =>
    rintro i j k ⟨a, h1, h2⟩ ⟨b, h3, h4⟩
    obtain rfl := h _ _ _ _ h1 h3
    exact ih _ _ _ h2 h4

theorem questionAt_fun {cfg : Cfg} {d : Bytes} (i : Nat) (q : Question) (j k : Nat)
    (h1 : QuestionAt Decodes cfg d i q j) (h2 : QuestionAt Decodes cfg d i q k) : j = k := by
  have h := (Question.parse_ok.mpr h1).symm.trans (Question.parse_ok.mpr h2)
  cases h; rfl

theorem recordAt_fun {cfg : Cfg} {d : Bytes} (i : Nat) (r : ResourceRecord) (j k : Nat)
    (h1 : RecordAtWith (ParsedData cfg) Decodes cfg d i r j)
    (h2 : RecordAtWith (ParsedData cfg) Decodes cfg d i r k) : j = k := by
  have h := (ResourceRecord.parse_ok.mpr h1).symm.trans (ResourceRecord.parse_ok.mpr h2)
  cases h; rfl

theorem written_prefix {cfg : Cfg} : ∀ (rs : List ResourceRecord) {bin c : Bytes},
    Packet.recordsBytes cfg rs bin = .ok c → ∃ b, c = bin ++ b := by
  intro rs
  induction rs with
  | nil => intro bin c h; cases h; exact ⟨[], by simp⟩
  | cons r rs ih =>
    intro bin c h
    unfold Packet.recordsBytes at h
    simp only [Res.bind_ok] at h
    obtain ⟨a, _, h⟩ := h
    obtain ⟨b, rfl⟩ := ih h
    exact ⟨a ++ b, by simp⟩

/-- If a section is read back, it has no record that is written wrongly, and it is read up to its end. -/
theorem records_fail {cfg : Cfg} {max : Nat} (hmax : max ≤ 191) : ∀ (rs : List ResourceRecord) (bin b e : Bytes) (j : Nat),
    (∀ r ∈ rs, RecordOk cfg max r) → (∀ r ∈ rs, r.rdata.type = .SVCB → sizeError r.rdata = 0) →
    Packet.recordsBytes cfg rs bin = .ok (bin ++ b) →
    ListAt (RecordAtWith (ParsedData cfg) Decodes cfg (bin ++ b ++ e)) bin.length rs j →
    (∀ r ∈ rs, r.rdata.type ≠ .SSHFP ∧ sizeError r.rdata = 0) ∧ j = (bin ++ b).length := by
  intro rs
  induction rs with
  | nil =>
    intro bin b e j _ _ hb h
    cases b with
    | nil => exact ⟨by simp, by rw [List.append_nil]; exact h.symm⟩
    | cons x b => simp [Packet.recordsBytes, pure] at hb
  | cons r rs ih =>
    rintro bin b e j hr hv hb ⟨k, h1, h2⟩
    unfold Packet.recordsBytes at hb
    simp only [Res.bind_ok] at hb
    obtain ⟨a, h3, h4⟩ := hb
    obtain ⟨b', h5⟩ := written_prefix rs h4
    rw [List.append_assoc] at h5
    obtain rfl := List.append_cancel_left h5
    rw [← List.append_assoc] at h4 h1 h2 ⊢
    have h6 := record_fails hmax (hr r List.mem_cons_self) h3
      (ResourceRecord.parse_ok.mpr (by rw [List.append_assoc] at h1; exact h1))
    have hz : sizeError r.rdata = 0 := by
      by_cases ht : r.rdata.type = .SVCB
      · exact hv r List.mem_cons_self ht
      · exact h6.2 (.inl ht)
    obtain ⟨a', h7, h8⟩ := ResourceRecord.read_back hmax (hr r List.mem_cons_self)
      (fun x hx => h6.1 (by rw [hx]; rfl)) hz (hr r List.mem_cons_self).2.2.2.2.2.2.1.sets bin
    rw [h3] at h7
    cases h7
    have h9 := recordAt_extend decodes_extends h8 (b' ++ e)
    rw [← List.append_assoc] at h9
    obtain rfl := recordAt_fun _ _ _ _ h1 h9
    obtain ⟨h10, h11⟩ := ih (bin ++ a) b' e j (fun x hx => hr x (List.mem_cons_of_mem _ hx))
      (fun x hx => hv x (List.mem_cons_of_mem _ hx)) h4 h2
    refine ⟨?_, h11⟩
    intro x hx
    rcases List.mem_cons.mp hx with rfl | hx
    · exact ⟨h6.1, hz⟩
    · exact h10 x hx

theorem Packet.not_read_back {cfg : Cfg} {max : Nat} (hmax : max ≤ 191) {p : Packet} (hp : PacketOk cfg max p)
    (hv : ∀ r ∈ records p, r.rdata.type = .SVCB → sizeError r.rdata = 0) {b e : Bytes}
    (hb : p.toBytes cfg = .ok b) (h : Packet.parse cfg (b ++ e) = .ok (withCounts p)) :
    ∀ r ∈ records p, r.rdata.type ≠ .SSHFP ∧ sizeError r.rdata = 0 := by
  obtain ⟨hq, hr, c1, c2, c3, c4⟩ := hp
  obtain ⟨b1, e1, l1⟩ := questions_read_back hmax p.questions p.headerBytes hq
  unfold Packet.toBytes at hb
  rw [e1] at hb
  simp only [Res.bind_ok] at hb
  obtain ⟨c2, e2, c3, e3, e4⟩ := hb
  obtain ⟨b2, rfl⟩ := written_prefix _ e2
  obtain ⟨b3, rfl⟩ := written_prefix _ e3
  obtain ⟨b4, rfl⟩ := written_prefix _ e4
  obtain ⟨end_, _, _, _, _, i1, i2, i3, i4, h1, h2, h3, h4, h5⟩ := Packet.parse_ok.mp h
  have h6 : i1 = p.headerBytes.length := by
    have h7 := header_items_at (withCounts p).header (b1 ++ b2 ++ b3 ++ b4 ++ e)
    rw [← headerBytes_eq] at h7
    simp only [List.append_assoc] at h1 h7
    simp only [headerItems, Items.At, Item.At] at h1 h7
    obtain ⟨_, n1, _, n2, _, n3, _, n4, _, n5, _, n6, _, n7, rfl⟩ := h1
    obtain ⟨_, m1, _, m2, _, m3, _, m4, _, m5, _, m6, _, m7, m8⟩ := h7
    rw [← m8]
    rw [n7.end_eq, n6.end_eq, n5.end_eq, n4.end_eq, n3.end_eq, n2.end_eq, n1.end_eq,
      m7.end_eq, m6.end_eq, m5.end_eq, m4.end_eq, m3.end_eq, m2.end_eq, m1.end_eq]
  subst h6
  have h8 := listAt_mono (fun i x j hx => questionAt_extend decodes_extends hx (b2 ++ b3 ++ b4 ++ e)) _ _ _ l1
  simp only [← List.append_assoc] at h8
  obtain rfl := listAt_fun questionAt_fun _ _ _ _ h2 h8
  have s2 := records_fail hmax p.answers (p.headerBytes ++ b1) b2 (b3 ++ b4 ++ e) i3
    (fun r h => hr r (by simp [records, h])) (fun r h => hv r (by simp [records, h])) e2
    (by simp only [← List.append_assoc]; exact h3)
  obtain ⟨s2, rfl⟩ := s2
  have s3 := records_fail hmax p.authorities (p.headerBytes ++ b1 ++ b2) b3 (b4 ++ e) i4
    (fun r h => hr r (by simp [records, h])) (fun r h => hv r (by simp [records, h])) e3
    (by simp only [← List.append_assoc]; exact h4)
  obtain ⟨s3, rfl⟩ := s3
  have s4 := records_fail hmax p.additional (p.headerBytes ++ b1 ++ b2 ++ b3) b4 e end_
    (fun r h => hr r (by simp [records, h])) (fun r h => hv r (by simp [records, h])) e4 h5
  intro r hm
  simp only [records, List.mem_append] at hm
  rcases hm with (hm | hm) | hm
  · exact s2 r hm
  · exact s3 r hm
  · exact s4.1 r hm

/-! ## Compressed form -/

theorem record_compressed_fails {cfg : Cfg} {max : Nat} (hmax : max ≤ 191) {h : Hash} {U : Fqdn → Prop}
    (hU : TailClosed U) (hinj : InjOn U h) {r : ResourceRecord} (hr : RecordOk cfg max r) (hn : U r.name)
    {names names' : Names} {pre b : Bytes} (hb : r.toBytesCompressed cfg h names pre.length = .ok (b, names'))
    (hm : MapOk max U h names pre) (hlen : (pre ++ b).length ≤ 16384) {e : Bytes} {j : Nat}
    (hj : ResourceRecord.parse cfg (pre ++ b ++ e) pre.length = (.ok r, j)) : r.rdata.type ≠ .SSHFP := by
  intro ht
  have hg : Good max r.name := hr.1
  obtain ⟨s, hs⟩ : ∃ s, r.rdata = .SSHFP s := by
    cases hx : r.rdata <;> rw [hx] at ht <;> first | exact ⟨_, rfl⟩ | simp [RecordData.type] at ht
  let its (n : Nat) := recordHead r (r.classBits cfg) (UInt16.ofNat n)
  let hc := r.headCompressed cfg h names pre.length
  have hcl : ∀ n, Items.compress h (its n) names pre.length = (hc.1 ++ u16be (lenU16 n), hc.2) := by
    intro n
    simp [its, hc, recordHead, ResourceRecord.headCompressed, Items.compress, Item.compress, Item.octets,
      o16, RecordType.toU16_eq, u16be_eq, u32be_eq, lenU16]
  have hw : r.toBytesCompressed cfg h names pre.length =
      .ok (hc.1 ++ u16be (lenU16 s.toBytes.length) ++ s.toBytes, hc.2) := by
    unfold ResourceRecord.toBytesCompressed
    simp only [hs]
    rfl
  rw [hw] at hb
  cases hb
  have hle : (pre ++ (hc.1 ++ u16be (lenU16 s.toBytes.length))).length ≤ 16384 := by
    simp only [List.length_append] at hlen ⊢; omega
  have hdl : s.toBytes.length < 65536 := by
    simp only [List.length_append] at hlen; omega
  obtain ⟨h3, -⟩ := items_compressed decodes_extends hmax hU hinj
    (fun pre n names a b c d => decodes_compressed hmax hU hinj pre n names a b c d)
    (its s.toBytes.length) names pre (by simp [its, recordHead, Item.Fits, o16, hg])
    (by simp [its, recordHead, Item.Open, o16])
    (by simp [its, recordHead, o16, hn]) hm (by rw [hcl]; exact hle)
  rw [hcl] at h3
  have h4 := items_extend decodes_extends (by simp [Item.Open, o16, its, recordHead]) h3 (s.toBytes ++ e)
  simp only [← List.append_assoc] at h4 hj
  obtain ⟨h5, -, h6⟩ := data_of_record h4 hj
  rw [show (UInt16.ofNat s.toBytes.length).toNat = s.toBytes.length from
    UInt16.toNat_ofNat_of_lt' (by simpa [UInt16.size] using hdl)] at h5
  rw [h5, List.append_assoc _ s.toBytes e, take_behind, hs] at h6
  refine sshfp_fails ?_ h6
  rw [List.take_left]
  simp [Sshfp.toBytes]; omega

theorem written_prefix_compressed {cfg : Cfg} {h : Hash} : ∀ (rs : List ResourceRecord) {names names' : Names} {bin c : Bytes},
    Packet.recordsCompressed cfg h rs names bin = .ok (c, names') → ∃ b, c = bin ++ b := by
  intro rs
  induction rs with
  | nil => intro names names' bin c h; cases h; exact ⟨[], by simp⟩
  | cons r rs ih =>
    intro names names' bin c h
    unfold Packet.recordsCompressed at h
    simp only [Res.bind_ok] at h
    obtain ⟨a, _, h⟩ := h
    obtain ⟨b, rfl⟩ := ih h
    exact ⟨a.1 ++ b, by simp⟩

theorem records_compressed_fail {cfg : Cfg} {max : Nat} (hmax : max ≤ 191) {h : Hash} {U : Fqdn → Prop}
    (hU : TailClosed U) (hinj : InjOn U h) :
    ∀ (rs : List ResourceRecord) (names names' : Names) (bin b e : Bytes) (j : Nat),
    (∀ r ∈ rs, RecordOk cfg max r ∧ U r.name ∧ ∀ n ∈ rdataNames r.rdata, U n) →
    Packet.recordsCompressed cfg h rs names bin = .ok (bin ++ b, names') →
    MapOk max U h names bin → (bin ++ b).length ≤ 16384 →
    ListAt (RecordAtWith (ParsedData cfg) Decodes cfg (bin ++ b ++ e)) bin.length rs j →
    (∀ r ∈ rs, r.rdata.type ≠ .SSHFP) ∧ j = (bin ++ b).length ∧ MapOk max U h names' (bin ++ b) := by
  intro rs
  induction rs with
  | nil =>
    intro names names' bin b e j _ hb hm _ h
    cases b with
    | nil =>
      have : names = names' := by simpa [Packet.recordsCompressed, pure] using hb
      exact ⟨by simp, by rw [List.append_nil]; exact h.symm, by rw [List.append_nil, ← this]; exact hm⟩
    | cons x b => simp [Packet.recordsCompressed, pure] at hb
  | cons r rs ih =>
    rintro names names' bin b e j hr hb hm hlen ⟨k, h1, h2⟩
    unfold Packet.recordsCompressed at hb
    simp only [Res.bind_ok] at hb
    obtain ⟨⟨a, names1⟩, h3, h4⟩ := hb
    dsimp only at h4
    obtain ⟨b', h5⟩ := written_prefix_compressed rs h4
    rw [List.append_assoc] at h5
    obtain rfl := List.append_cancel_left h5
    rw [← List.append_assoc] at h4 h1 h2 hlen ⊢
    obtain ⟨hr1, hr2, hr3⟩ := hr r List.mem_cons_self
    have hle : (bin ++ a).length ≤ 16384 := by rw [List.length_append] at hlen; omega
    have h6 := record_compressed_fails hmax hU hinj hr1 hr2 h3 hm hle
      (ResourceRecord.parse_ok.mpr (by rw [List.append_assoc] at h1; exact h1))
    obtain ⟨a', names2, h7, h8⟩ := ResourceRecord.read_back_compressed hmax hU hinj hr1
      (fun x hx => h6 (by rw [hx]; rfl)) hr2 hr3 names bin
    rw [h3] at h7
    cases h7
    obtain ⟨h8, h8'⟩ := h8 hm hle
    have h9 := recordAt_extend decodes_extends h8 (b' ++ e)
    rw [← List.append_assoc] at h9
    obtain rfl := recordAt_fun _ _ _ _ h1 h9
    obtain ⟨h10, h11⟩ := ih names1 names' (bin ++ a) b' e j (fun x hx => hr x (List.mem_cons_of_mem _ hx))
      h4 h8' hlen h2
    refine ⟨?_, h11⟩
    intro x hx
    rcases List.mem_cons.mp hx with rfl | hx
    · exact h6
    · exact h10 x hx

theorem Packet.not_read_back_compressed {cfg : Cfg} {max : Nat} (hmax : max ≤ 191) {h : Hash} {U : Fqdn → Prop}
    (hU : TailClosed U) (hinj : InjOn U h) {p : Packet} (hp : PacketOk cfg max p) (hn : ∀ n ∈ packetNames p, U n)
    {b e : Bytes} (hb : p.toBytesCompressed cfg h = .ok b) (hlen : b.length ≤ 16384)
    (hj : Packet.parse cfg (b ++ e) = .ok p) : ∀ r ∈ records p, r.rdata.type ≠ .SSHFP := by
  obtain ⟨hq, hr, _, _, _, _⟩ := hp
  have hall : ∀ r ∈ records p, RecordOk cfg max r ∧ U r.name ∧ ∀ n ∈ rdataNames r.rdata, U n := by
    intro r hm
    refine ⟨hr r hm, hn _ ?_, fun n hm2 => hn _ ?_⟩
    · simp only [packetNames, List.mem_append, List.mem_flatMap]
      exact .inr ⟨r, hm, by simp⟩
    · simp only [packetNames, List.mem_append, List.mem_flatMap]
      exact .inr ⟨r, hm, by simp [hm2]⟩
  obtain ⟨b1, e1, l1⟩ := questions_read_back_compressed hmax hU hinj p.questions Names.empty p.header.toBytes
    (fun q hm => ⟨hq q hm, hn _ (by
      simp only [packetNames, List.mem_append, List.mem_map]; exact .inl ⟨q, hm, rfl⟩)⟩)
  unfold Packet.toBytesCompressed at hb
  simp only [Res.bind_ok, e1] at hb
  obtain ⟨⟨c2, n2⟩, e2, ⟨c3, n3⟩, e3, ⟨c4, n4⟩, e4, hb⟩ := hb
  cases hb
  obtain ⟨b2, rfl⟩ := written_prefix_compressed _ e2
  obtain ⟨b3, rfl⟩ := written_prefix_compressed _ e3
  obtain ⟨b4, rfl⟩ := written_prefix_compressed _ e4
  simp only [List.length_append] at hlen
  obtain ⟨l1, m1⟩ := l1 (mapOk_empty _ _ _ _) (by simp only [List.length_append]; omega)
  obtain ⟨end_, _, _, _, _, i1, i2, i3, i4, h1, h2, h3, h4, h5⟩ := Packet.parse_ok.mp hj
  have h6 : i1 = p.header.toBytes.length := by
    have h7 := header_items_at p.header (b1 ++ b2 ++ b3 ++ b4 ++ e)
    rw [← header_toBytes_eq] at h7
    simp only [List.append_assoc] at h1 h7
    simp only [headerItems, Items.At, Item.At] at h1 h7
    obtain ⟨_, n1, _, n2, _, n3, _, n4, _, n5, _, n6, _, n7, rfl⟩ := h1
    obtain ⟨_, m1, _, m2, _, m3, _, m4, _, m5, _, m6, _, m7, m8⟩ := h7
    rw [← m8]
    rw [n7.end_eq, n6.end_eq, n5.end_eq, n4.end_eq, n3.end_eq, n2.end_eq, n1.end_eq,
      m7.end_eq, m6.end_eq, m5.end_eq, m4.end_eq, m3.end_eq, m2.end_eq, m1.end_eq]
  subst h6
  have h8 := listAt_mono (fun i x j hx => questionAt_extend decodes_extends hx (b2 ++ b3 ++ b4 ++ e)) _ _ _ l1
  simp only [← List.append_assoc] at h8
  obtain rfl := listAt_fun questionAt_fun _ _ _ _ h2 h8
  obtain ⟨s2, rfl, m2⟩ := records_compressed_fail hmax hU hinj p.answers _ _ (p.header.toBytes ++ b1) b2 (b3 ++ b4 ++ e) i3
    (fun r hm => hall r (by simp [records, hm])) e2 m1 (by simp only [List.length_append]; omega)
    (by simp only [← List.append_assoc]; exact h3)
  obtain ⟨s3, rfl, m3⟩ := records_compressed_fail hmax hU hinj p.authorities _ _ (p.header.toBytes ++ b1 ++ b2) b3 (b4 ++ e) i4
    (fun r hm => hall r (by simp [records, hm])) e3 m2 (by simp only [List.length_append]; omega)
    (by simp only [← List.append_assoc]; exact h4)
  obtain ⟨s4, -⟩ := records_compressed_fail hmax hU hinj p.additional _ _ (p.header.toBytes ++ b1 ++ b2 ++ b3) b4 e end_
    (fun r hm => hall r (by simp [records, hm])) e4 m3 (by simp only [List.length_append]; omega) h5
  intro r hm
  simp only [records, List.mem_append] at hm
  rcases hm with (hm | hm) | hm
  · exact s2 r hm
  · exact s3 r hm
  · exact s4 r hm

end Dns
