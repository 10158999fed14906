import Verif.Props.PacketWire
import Verif.Lemmas.SvcbRead
import Verif.Spec.Iana

/-! C39 to C42 and C61: numbers of types, classes and codes. -/

namespace Dns
open Spec Buf

/-! ## C39 -/

/-- C39: the numbers written are the numbers of the registry (`Spec/Numbers.lean`). -/
theorem C39_type_numbers (t : RecordType) (q : QType) (c : QClass) :
    t.toU16.toNat = typeNumber t ∧ q.toU16.toNat = qtypeNumber q ∧ c.toU16.toNat = qclassNumber c := by
  refine ⟨by cases t <;> rfl, ?_, by cases c <;> rfl⟩
  cases q with
  | rr t => cases t <;> rfl
  | _ => rfl

/-- C39: different types have different numbers. -/
theorem C39_types_distinct (t u : RecordType) (h : t.toU16 = u.toU16) : t = u := by
  apply typeNumber_inj
  rw [← (C39_type_numbers t (.rr t) .IN).1, ← (C39_type_numbers u (.rr u) .IN).1, h]
example (t : RecordType) (h : t.toU16 = 28) : t = .AAAA := C39_types_distinct t .AAAA h
example : RecordType.A ≠ RecordType.NS := fun h => absurd (congrArg RecordType.toU16 h) (by decide)

theorem C39_qtypes_distinct (t u : QType) (h : t.toU16 = u.toU16) : t = u := by
  have hn : ∀ t : RecordType, t.toU16 ≠ 252 ∧ t.toU16 ≠ 253 ∧ t.toU16 ≠ 254 ∧ t.toU16 ≠ 255 := by
    intro t; cases t <;> decide
  cases t with
  | rr a =>
    cases u with
    | rr b => rw [C39_types_distinct a b h]
    | _ => have := hn a; simp_all [QType.toU16]
  | _ =>
    cases u with
    | rr b => have := hn b; simp_all [QType.toU16]
    | _ => first | rfl | (revert h; decide)
example (t : QType) (h : t.toU16 = 255) : t = .ANY := C39_qtypes_distinct t .ANY h

theorem C39_qclasses_distinct (c e : QClass) (h : c.toU16 = e.toU16) : c = e := by
  revert h; cases c <;> cases e <;> decide
example (c : QClass) (h : c.toU16 = 255) : c = .ANY := C39_qclasses_distinct c .ANY h

/-- C39 (partial): every type but CDS and CDNSKEY (and, in builds without `dnssec`, the DNSSEC types)
survives the conversion to its number and back.  CDS and CDNSKEY: see the counterexample. -/
theorem C39_type_round_trip_partial (cfg : Cfg) (t : RecordType) (ht : Readable cfg t) :
    RecordType.ofU16 cfg t.toU16 = .ok t :=
  RecordType.ofU16_ok.mpr ⟨ht, RecordType.toU16_eq t⟩

example : Readable ⟨true, true, true⟩ .NSEC ∧ ¬ Readable ⟨true, true, false⟩ .NSEC := by decide

theorem C39_qtype_round_trip_partial (cfg : Cfg) (t : QType) (ht : QReadable cfg t) :
    QType.ofU16 cfg t.toU16 = .ok t :=
  QType.ofU16_ok.mpr ⟨ht, QType.toU16_eq t⟩
example (cfg : Cfg) : QType.ofU16 cfg QType.AXFR.toU16 = .ok .AXFR := C39_qtype_round_trip_partial cfg .AXFR trivial

theorem C39_qclass_round_trip (c : QClass) : QClass.ofU16 c.toU16 = .ok c := by cases c <;> rfl

/-- C39: a number that is read as a type is the number of this type: nothing else is accepted. -/
theorem C39_type_sound (cfg : Cfg) (n : UInt16) (t : RecordType) (h : RecordType.ofU16 cfg n = .ok t) :
    n = t.toU16 := (RecordType.ofU16_ok.mp h).2.trans (RecordType.toU16_eq t).symm
example (cfg : Cfg) : (15 : UInt16) = RecordType.MX.toU16 := C39_type_sound cfg 15 .MX rfl

theorem RecordType.ofU16_cases (cfg : Cfg) (n : UInt16) :
    (∃ t, RecordType.ofU16 cfg n = .ok t) ∨ RecordType.ofU16 cfg n = .err (.invalidType n) := by
  unfold RecordType.ofU16
  split
  all_goals first
    | exact .inl ⟨_, rfl⟩
    | (split
       · exact .inl ⟨_, rfl⟩
       · exact .inr rfl)
    | exact .inr rfl

/-- C39: every number that is not the number of a type the build can read is refused with
`InvalidType` and that number. -/
theorem C39_type_error (cfg : Cfg) (n : UInt16) (h : ∀ t, Readable cfg t → typeNumber t ≠ n.toNat) :
    RecordType.ofU16 cfg n = .err (.invalidType n) := by
  rcases RecordType.ofU16_cases cfg n with ⟨t, ht⟩ | h1
  · obtain ⟨h2, h3⟩ := RecordType.ofU16_ok.mp ht
    exfalso
    refine h t h2 ?_
    rw [h3, ← RecordType.toU16_eq]
    exact ((C39_type_numbers t (.rr t) .IN).1).symm
  · exact h1

example : RecordType.ofU16 ⟨true, true, true⟩ 99 = .err (.invalidType 99) :=
  C39_type_error _ 99 (by intro t _; cases t <;> decide)

theorem C39_qtype_error (cfg : Cfg) (n : UInt16) (h : ∀ t, QReadable cfg t → qtypeNumber t ≠ n.toNat) :
    QType.ofU16 cfg n = .err (.invalidType n) := by
  unfold QType.ofU16
  split
  · exact absurd rfl (h .AXFR trivial)
  · exact absurd rfl (h .MAILB trivial)
  · exact absurd rfl (h .MAILA trivial)
  · exact absurd rfl (h .ANY trivial)
  · rw [C39_type_error cfg n (fun t ht => h (.rr t) ht)]

/-- C39: a class number that is not assigned is refused with `InvalidClass` and the number without the
top bit. -/
theorem C39_qclass_error (n : UInt16) (h : ∀ c, qclassNumber c ≠ n.toNat % 32768) :
    QClass.ofU16 n = .err (.invalidClass (UInt16.ofNat (n.toNat % 32768))) := by
  have hm : n &&& 0x7FFF = UInt16.ofNat (n.toNat % 32768) := by
    apply UInt16.toNat_inj.mp
    rw [mask_7fff, UInt16.toNat_ofNat']; omega
  have h1 : ∀ c, QClass.ofU16 n ≠ .ok c := fun c hc => h c (QClass.ofU16_ok.mp hc).symm
  unfold QClass.ofU16 at h1 ⊢
  rw [hm] at h1 ⊢
  generalize UInt16.ofNat (n.toNat % 32768) = m at h1 ⊢
  revert h1
  split
  all_goals first
    | (intro h1; exact absurd rfl (h1 _))
    | (intro _; rfl)

example : QClass.ofU16 0x8009 = .err (.invalidClass 9) :=
  C39_qclass_error 0x8009 (by intro c; cases c <;> decide)

/-- C39 is false for CDS and CDNSKEY: they have a number, but the number is not read. -/
theorem C39_counterexample (cfg : Cfg) :
    RecordType.ofU16 cfg (RecordType.toU16 .CDS) = .err (.invalidType 59) ∧
    RecordType.ofU16 cfg (RecordType.toU16 .CDNSKEY) = .err (.invalidType 60) := ⟨rfl, rfl⟩

/-- C39: NSEC is read only in builds with `dnssec`; 99 is no type; the error for a class drops the top
bit. -/
example : RecordType.ofU16 ⟨true, true, true⟩ 47 = .ok .NSEC ∧
    RecordType.ofU16 ⟨true, true, false⟩ 47 = .err (.invalidType 47) ∧
    RecordType.ofU16 ⟨true, true, true⟩ 99 = .err (.invalidType 99) ∧
    QClass.ofU16 0x8009 = .err (.invalidClass 9) ∧ Readable ⟨true, false, true⟩ .NSEC := by decide

/-! ## C40 -/

/-- C40 (partial): a class survives the conversion exactly if it is one of the four classes or a payload
size that is not 1 to 4 and below 32768.  What is missing: the other payload sizes (false). -/
theorem C40_class_round_trip_partial (c : RecordClass) :
    RecordClass.ofU16 c.toU16 = c ↔ (classOk c ∧ classNumber c < 32768) := by
  rw [RecordClass.ofU16_eq]
  have h : c.toU16.toNat = classNumber c := by cases c <;> rfl
  rw [h]
  constructor
  · rintro ⟨h1, h2⟩; exact ⟨h1, by omega⟩
  · rintro ⟨h1, h2⟩; exact ⟨h1, by omega⟩

/-- C40: the classes survive. -/
theorem C40_classes (c : RecordClass) (h : ∀ n, c ≠ .udpPayloadSize n) : RecordClass.ofU16 c.toU16 = c := by
  cases c with
  | udpPayloadSize n => exact absurd rfl (h n)
  | _ => rfl

example : RecordClass.ofU16 (RecordClass.toU16 .HS) = .HS := C40_classes .HS (by intro n h; cases h)

/-- C40: the top bit is not part of the class. -/
theorem C40_top_bit (n m : UInt16) (h : n.toNat % 32768 = m.toNat % 32768) :
    RecordClass.ofU16 n = RecordClass.ofU16 m := by
  have : n &&& 0x7FFF = m &&& 0x7FFF := by
    apply UInt16.toNat_inj.mp
    rw [mask_7fff, mask_7fff, h]
  unfold RecordClass.ofU16
  rw [this]

example : RecordClass.ofU16 0x8003 = RecordClass.ofU16 3 := C40_top_bit 0x8003 3 (by decide)

/-- C40: the class read has the number that is there (without the top bit). -/
theorem C40_class_number (n : UInt16) : classNumber (RecordClass.ofU16 n) = n.toNat % 32768 :=
  ((RecordClass.ofU16_eq.mp rfl).2).symm

/-- C40 is false for payload sizes 1 to 4 (read as classes) and from 32768 on (top bit lost). -/
theorem C40_counterexamples : RecordClass.ofU16 (RecordClass.toU16 (.udpPayloadSize 1)) = .IN ∧
    RecordClass.ofU16 (RecordClass.toU16 (.udpPayloadSize 0xFFFF)) = .udpPayloadSize 0x7FFF := by decide

example : classOk (.udpPayloadSize 4096) ∧ classNumber (.udpPayloadSize 4096) < 32768 := by
  simp [classOk, classNumber]

/-! ## C41 -/

/-- C41: with `mdns`, a question keeps its flag and its class on the wire (for every name with labels
of 1 to 191 octets, at every position, whatever follows). -/
theorem C41_question_flag (cfg : Cfg) (q : Question) (hq : QuestionOk cfg 191 q) (pre post : Bytes) :
    Question.parse cfg (pre ++ q.toBytes cfg ++ post) pre.length = (.ok q, pre.length + (q.toBytes cfg).length) := by
  have h := questionAt_extend decodes_extends (Question.read_back (Nat.le_refl 191) hq pre) post
  rw [List.length_append] at h
  exact Question.parse_ok.mpr h
example (cfg : Cfg) (pre post : Bytes) :
    Question.parse cfg (pre ++ Question.toBytes cfg ⟨[[97]], .rr .A, .IN, false⟩ ++ post) pre.length =
      (.ok ⟨[[97]], .rr .A, .IN, false⟩, pre.length + 7) :=
  C41_question_flag cfg ⟨[[97]], .rr .A, .IN, false⟩ ⟨by decide, by simp [QReadable, Readable, dnssecTypes], by simp⟩ pre post

/-- C41: with `mdns`, a record keeps its flag and its class on the wire (types as in C27). -/
theorem C41_record_flag (cfg : Cfg) (r : ResourceRecord) (hr : RecordOk cfg 191 r)
    (hs : r.rdata.type ≠ .SSHFP) (hz : sizeError r.rdata = 0) (pre post : Bytes) :
    ∃ b, r.toBytes cfg = .ok b ∧
      ResourceRecord.parse cfg (pre ++ b ++ post) pre.length = (.ok r, pre.length + b.length) := by
  obtain ⟨b, h1, h2⟩ := ResourceRecord.read_back (Nat.le_refl 191) hr
    (fun x hx => hs (by rw [hx]; rfl)) hz (writable_sets hr.2.2.2.2.2.2.1) pre
  refine ⟨b, h1, ?_⟩
  have h := recordAt_extend decodes_extends h2 post
  rw [List.length_append] at h
  exact ResourceRecord.parse_ok.mpr h

/-- C41: a record with the flag set. -/
example : RecordOk ⟨true, true, true⟩ 191 ⟨[[97]], .A, true, .IN, 5, .A ⟨0x01020304⟩⟩ ∧
    sizeError (.A ⟨0x01020304⟩) = 0 := by
  refine ⟨⟨by decide, by decide, rfl, trivial, by decide, fun _ => rfl, trivial, ?_⟩, rfl⟩
  rintro b hb
  cases hb
  decide

theorem question_bits (cfg : Cfg) (q : Question) :
    (q.classBits cfg).toNat = qclassNumber q.qClass + (if cfg.mdns ∧ q.unicastResponse then 32768 else 0) := by
  have h := qclassNumber_lt q.qClass
  have h1 : (UInt16.ofNat (qclassNumber q.qClass)).toNat = qclassNumber q.qClass :=
    UInt16.toNat_ofNat_of_lt' (by simp [UInt16.size]; omega)
  unfold Question.classBits
  rw [qclassNumber_eq]
  cases cfg.mdns <;> cases q.unicastResponse <;> simp [h1, setTop h]
  omega

theorem record_bits (cfg : Cfg) (r : ResourceRecord) (h : classNumber r.class_ < 32768) :
    (r.classBits cfg).toNat = classNumber r.class_ + (if cfg.mdns ∧ r.cacheFlush then 32768 else 0) := by
  have h1 : (UInt16.ofNat (classNumber r.class_)).toNat = classNumber r.class_ :=
    UInt16.toNat_ofNat_of_lt' (by simp [UInt16.size]; omega)
  unfold ResourceRecord.classBits
  rw [classNumber_eq]
  cases cfg.mdns <;> cases r.cacheFlush <;> simp [h1, setTop h]
  omega

/-- C41: what is written for a question: the name, the number of the type, and the number of the class, to
which 32768 is added if the flag is set; without `mdns` it never is. -/
theorem C41_question_written (cfg : Cfg) (q : Question) :
    q.toBytes cfg = q.qName.toBytes ++ octets16 (UInt16.ofNat (qtypeNumber q.qType)) ++
      octets16 (UInt16.ofNat (qclassNumber q.qClass + (if cfg.mdns ∧ q.unicastResponse then 32768 else 0))) := by
  rw [← question_bits, ← (C39_type_numbers .A q.qType .IN).2.1]
  simp only [Question.toBytes, u16be_eq, UInt16.ofNat_toNat]

/-- C41: what is written for a record: the name, the number of the type, the number of the class, to which
32768 is added if the flag is set (without `mdns` it never is), and so on.  The class must leave the top
bit free (see C40). -/
theorem C41_record_written (cfg : Cfg) (r : ResourceRecord) (h : classNumber r.class_ < 32768) (out : Bytes)
    (ho : r.toBytes cfg = .ok out) :
    ∃ rest, out = r.name.toBytes ++ octets16 (UInt16.ofNat (typeNumber r.type)) ++
      octets16 (UInt16.ofNat (classNumber r.class_ + (if cfg.mdns ∧ r.cacheFlush then 32768 else 0))) ++
      octets32 r.ttl ++ rest := by
  rw [← record_bits cfg r h]
  obtain ⟨size, _, ho⟩ := Res.bind_ok.mp ho
  obtain ⟨data, _, ho⟩ := Res.bind_ok.mp ho
  cases ho
  exact ⟨u16be (lenU16 size) ++ data, by
    simp only [u16be_eq, u32be_eq, UInt16.ofNat_toNat, RecordType.toU16_eq, List.append_assoc]⟩

example : ResourceRecord.toBytes ⟨true, true, true⟩ ⟨[[97]], .A, true, .CH, 5, .A ⟨0x01020304⟩⟩ =
    .ok [1, 97, 0, 0, 1, 0x80, 3, 0, 0, 0, 5, 0, 4, 1, 2, 3, 4] ∧ classNumber .CH < 32768 := by decide +kernel

/-- C41: what a parsed question says about the class field (the two octets before its end): the class is
the number without the top bit, and the flag is the top bit with `mdns`, and `false` without. -/
theorem C41_question_read (cfg : Cfg) (d : Bytes) (i j : Nat) (q : Question)
    (h : Question.parse cfg d i = (.ok q, j)) :
    ∃ v : UInt16, Octets d (j - 2) (octets16 v) j ∧ v.toNat % 32768 = qclassNumber q.qClass ∧
      q.unicastResponse = (cfg.mdns && decide (32768 ≤ v.toNat)) := by
  obtain ⟨_, v, ⟨h1, h2⟩, k1, _, k2, h4, k3, h5, rfl⟩ := Question.parse_ok.mp h
  have := h5.end_eq
  refine ⟨v, ?_, h1, h2⟩
  have e : k3 - 2 = k2 := by rw [this]; rfl
  rw [e]; exact h5

example : Question.parse ⟨true, true, true⟩ ([1, 97, 0, 0, 1, 0x80, 1] : Bytes) 0 =
      (.ok ⟨[[97]], .rr .A, .IN, true⟩, 7) ∧
    Question.parse ⟨true, false, true⟩ ([1, 97, 0, 0, 1, 0x80, 1] : Bytes) 0 =
      (.ok ⟨[[97]], .rr .A, .IN, false⟩, 7) := by decide +kernel

/-- C41: the same for records; the class field follows the name and the type. -/
theorem C41_record_read (cfg : Cfg) (d : Bytes) (i j : Nat) (r : ResourceRecord)
    (h : ResourceRecord.parse cfg d i = (.ok r, j)) :
    ∃ (m : Nat) (v : UInt16), extractFqdn d i = (.ok r.name, m) ∧ Octets d (m + 2) (octets16 v) (m + 4) ∧
      v.toNat % 32768 = classNumber r.class_ ∧ r.cacheFlush = (cfg.mdns && decide (32768 ≤ v.toNat)) := by
  obtain ⟨_, _, v, len, k, ⟨h1, h2⟩, ⟨m, h3, m2, h4, m3, h5, _⟩, _⟩ := ResourceRecord.parse_ok.mp h
  refine ⟨m, v, h3, ?_, h1, h2⟩
  have e1 := h4.end_eq
  have e2 := h5.end_eq
  rw [octets16_length] at e1 e2
  subst e1
  subst e2
  exact h5

example : ResourceRecord.parse ⟨true, true, true⟩ ([1, 97, 0, 0, 1, 0x80, 3, 0, 0, 0, 5, 0, 4, 1, 2, 3, 4] : Bytes) 0
    = (.ok ⟨[[97]], .A, true, .CH, 5, .A ⟨0x01020304⟩⟩, 17) := by decide +kernel

theorem octets_at_unique {d : Bytes} {i j k : Nat} {v w : UInt16} (h : Octets d i (octets16 v) j)
    (h' : Octets d i (octets16 w) k) : v = w := by
  have e := h.end_eq
  have e' := h'.end_eq
  have := (extractU16_ok.mpr h).symm.trans (extractU16_ok.mpr h')
  simpa using congrArg Prod.fst this

/-- C41: whatever the type and the data of a record are (also for the types that C27 excludes, because
their data does not survive): if it is written and read again, and its class leaves the top bit free and
has one name only (see C40), then the class is the same, and the flag is the same with `mdns` and `false`
without. -/
theorem C41_record_flag_any (cfg : Cfg) (r r' : ResourceRecord) (hn : NameOk 191 r.name) (hc : classOk r.class_)
    (h : classNumber r.class_ < 32768) (out pre post : Bytes) (j : Nat) (ho : r.toBytes cfg = .ok out)
    (hp : ResourceRecord.parse cfg (pre ++ out ++ post) pre.length = (.ok r', j)) :
    r'.name = r.name ∧ r'.class_ = r.class_ ∧ r'.cacheFlush = (cfg.mdns && r.cacheFlush) := by
  obtain ⟨rest, e⟩ := C41_record_written cfg r h out ho
  obtain ⟨m, v, h1, h2, h3, h4⟩ := C41_record_read cfg _ _ _ _ hp
  have hd := decodes_extends _ (octets16 (UInt16.ofNat (typeNumber r.type)) ++
      octets16 (UInt16.ofNat (classNumber r.class_ + (if cfg.mdns ∧ r.cacheFlush then 32768 else 0))) ++
      octets32 r.ttl ++ rest ++ post) _ _ _ (decodes_plain pre r.name hn)
  rw [List.length_append, ← NameOk.toBytes hn] at hd
  have e2 : pre ++ out ++ post = pre ++ r.name.toBytes ++ (octets16 (UInt16.ofNat (typeNumber r.type)) ++
      octets16 (UInt16.ofNat (classNumber r.class_ + (if cfg.mdns ∧ r.cacheFlush then 32768 else 0))) ++
      octets32 r.ttl ++ rest ++ post) := by
    rw [e]; simp only [List.append_assoc]
  rw [← e2] at hd
  have hd : extractFqdn _ _ = (.ok r.name, pre.length + r.name.toBytes.length) := hd
  rw [hd] at h1
  simp only [Prod.mk.injEq, Res.ok.injEq] at h1
  obtain ⟨n1, rfl⟩ := h1
  have h5 : Octets (pre ++ out ++ post) (pre.length + r.name.toBytes.length + 2)
      (octets16 (UInt16.ofNat (classNumber r.class_ + (if cfg.mdns ∧ r.cacheFlush then 32768 else 0))))
      (pre.length + r.name.toBytes.length + 4) :=
    ⟨pre ++ r.name.toBytes ++ octets16 (UInt16.ofNat (typeNumber r.type)), octets32 r.ttl ++ rest ++ post,
      by rw [e]; simp only [List.append_assoc], by simp [octets16]; omega, by simp [octets16]⟩
  have hv := octets_at_unique h2 h5
  have hv' : v.toNat = classNumber r.class_ + (if cfg.mdns ∧ r.cacheFlush then 32768 else 0) := by
    rw [hv]
    exact UInt16.toNat_ofNat_of_lt' (by simp only [UInt16.size]; split_ifs <;> omega)
  refine ⟨n1.symm, ?_, ?_⟩
  · obtain ⟨_, hc', _⟩ := ResourceRecord.parse_ok.mp hp
    rw [← RecordClass.ofU16_eq.mpr ⟨hc', h3⟩]
    refine RecordClass.ofU16_eq.mpr ⟨hc, ?_⟩
    rw [hv']
    split_ifs <;> omega
  · rw [h4, hv']
    cases cfg.mdns <;> cases r.cacheFlush <;> simp
    omega

/-- C41: a record of a type that C27 excludes, with the flag set: other data is read, but the same flag. -/
example : ResourceRecord.toBytes ⟨true, true, true⟩ ⟨[[97]], .SSHFP, true, .CH, 5, .SSHFP ⟨.RSA, .SHA1, [1, 9]⟩⟩ =
      .ok [1, 97, 0, 0, 44, 0x80, 3, 0, 0, 0, 5, 0, 4, 1, 1, 1, 9] ∧
    ResourceRecord.parse ⟨true, true, true⟩
        ([1, 97, 0, 0, 44, 0x80, 3, 0, 0, 0, 5, 0, 4, 1, 1, 1, 9] : Bytes) 0 =
      (.ok ⟨[[97]], .SSHFP, true, .CH, 5, .SSHFP ⟨.RSA, .SHA1, [9]⟩⟩, 17) := by decide +kernel

theorem extractU16_at {d : Bytes} {i : Nat} {v : UInt16} (h : Octets d i (octets16 v) (i + 2)) :
    extractU16 d i = (.ok v, i + 2) := extractU16_ok.mpr h

/-- C41: in a build without `mdns` the top bit of the class field of a question makes no difference at
all (also not for the errors). -/
theorem C41_question_bit_ignored (cfg : Cfg) (hm : cfg.mdns = false) (n : Fqdn) (hn : NameOk 191 n)
    (t v w : UInt16) (hvw : v.toNat % 32768 = w.toNat % 32768) (pre post : Bytes) :
    Question.parse cfg (pre ++ (n.toBytes ++ octets16 t ++ octets16 v) ++ post) pre.length =
      Question.parse cfg (pre ++ (n.toBytes ++ octets16 t ++ octets16 w) ++ post) pre.length := by
  have key : ∀ v : UInt16, ∀ X, X = pre ++ (n.toBytes ++ octets16 t ++ octets16 v) ++ post →
      extractFqdn X pre.length = (.ok n, pre.length + n.toBytes.length) ∧
      extractU16 X (pre.length + n.toBytes.length) = (.ok t, pre.length + n.toBytes.length + 2) ∧
      extractU16 X (pre.length + n.toBytes.length + 2) = (.ok v, pre.length + n.toBytes.length + 2 + 2) := by
    rintro v _ rfl
    refine ⟨?_, extractU16_at ?_, extractU16_at ?_⟩
    · have := decodes_extends _ (octets16 t ++ octets16 v ++ post) _ _ _ (decodes_plain pre n hn)
      rw [NameOk.toBytes hn]
      rw [List.length_append] at this
      simpa [Decodes] using this
    · exact ⟨pre ++ n.toBytes, octets16 v ++ post, by simp, by simp, by simp [octets16]⟩
    · exact ⟨pre ++ n.toBytes ++ octets16 t, post, by simp, by simp [octets16]; omega, by simp [octets16]⟩
  obtain ⟨a1, a2, a3⟩ := key v _ rfl
  obtain ⟨b1, b2, b3⟩ := key w _ rfl
  have hc : QClass.ofU16 v = QClass.ofU16 w := by
    have : v &&& 0x7FFF = w &&& 0x7FFF := by
      apply UInt16.toNat_inj.mp
      rw [mask_7fff, mask_7fff, hvw]
    unfold QClass.ofU16
    rw [this]
  unfold Question.parse
  simp only [hm, Bool.false_eq_true, if_false]
  simp only [Parser.bind_apply, a1, a2, b1, b2, Parser.lift_apply]
  rcases QType.ofU16 cfg t with q | e | p | _
  · simp only [a3, b3, hc]
    cases QClass.ofU16 w <;> rfl
  all_goals rfl

/-- C41: a question with the flag set. -/
example : QuestionOk ⟨true, true, true⟩ 191 ⟨[[97]], .rr .A, .IN, true⟩ ∧
    Question.toBytes ⟨true, true, true⟩ ⟨[[97]], .rr .A, .IN, true⟩ = [1, 97, 0, 0, 1, 0x80, 1] := by
  exact ⟨⟨by decide, by simp [QReadable, Readable], by simp⟩, by decide +kernel⟩

/-! ## C42 -/

/-- C42: a record whose type number is not one the build can read is refused with `InvalidType` and this
number. -/
theorem C42_unknown_type (cfg : Cfg) (d : Bytes) (i k : Nat) (n : Fqdn) (t : UInt16)
    (hn : extractFqdn d i = (.ok n, k)) (ht : Octets d k (octets16 t) (k + 2))
    (hr : ∀ u, Readable cfg u → typeNumber u ≠ t.toNat) :
    (ResourceRecord.parse cfg d i).1 = .err (.invalidType t) := by
  unfold ResourceRecord.parse
  simp only [Parser.bind_apply, hn, extractU16_at ht, Parser.lift_apply, C39_type_error cfg t hr]

/-- C42: the type 99. -/
example : (ResourceRecord.parse ⟨true, true, true⟩ ([1, 97, 0, 0, 99, 0, 1] : Bytes) 0).1 = .err (.invalidType 99) :=
  C42_unknown_type _ _ 0 3 [[97]] 99 (by decide +kernel) ⟨[1, 97, 0], [0, 1], rfl, rfl, rfl⟩
    (by intro u _; cases u <;> decide)

/-- C42: a question with an unknown type. -/
theorem C42_unknown_qtype (cfg : Cfg) (d : Bytes) (i k : Nat) (n : Fqdn) (t : UInt16)
    (hn : extractFqdn d i = (.ok n, k)) (ht : Octets d k (octets16 t) (k + 2))
    (hr : ∀ u, QReadable cfg u → qtypeNumber u ≠ t.toNat) :
    (Question.parse cfg d i).1 = .err (.invalidType t) := by
  unfold Question.parse
  simp only [Parser.bind_apply, hn, extractU16_at ht, Parser.lift_apply, C39_qtype_error cfg t hr]

example : (Question.parse ⟨true, true, true⟩ ([1, 97, 0, 0, 99, 0, 1] : Bytes) 0).1 = .err (.invalidType 99) :=
  C42_unknown_qtype _ _ 0 3 [[97]] 99 (by decide +kernel) ⟨[1, 97, 0], [0, 1], rfl, rfl, rfl⟩
    (by intro u _; rcases u with u | _ | _ | _ | _ <;> first | decide | (cases u <;> decide))

/-- C42: a parsed record has the type whose number is on the wire, and data of that type. -/
theorem C42_type_as_on_wire (cfg : Cfg) (d : Bytes) (i j : Nat) (r : ResourceRecord)
    (h : ResourceRecord.parse cfg d i = (.ok r, j)) :
    r.rdata.type = r.type ∧ ∃ m, extractFqdn d i = (.ok r.name, m) ∧
      Octets d m (octets16 (UInt16.ofNat (typeNumber r.type))) (m + 2) := by
  obtain ⟨_, _, v, len, k, _, ⟨m, h3, m2, h4, _⟩, _, _, e, h5⟩ := ResourceRecord.parse_ok.mp h
  have := h4.end_eq
  rw [octets16_length] at this
  subst this
  exact ⟨RecordData.parse_type h5, m, h3, h4⟩

example : ResourceRecord.parse ⟨true, true, true⟩ ([1, 97, 0, 0, 16, 0, 1, 0, 0, 0, 5, 0, 2, 1, 98] : Bytes) 0
    = (.ok ⟨[[97]], .TXT, false, .IN, 5, .TXT ⟨[[98]]⟩⟩, 15) := by decide +kernel

theorem times_err {α : Type} {p : Parser α} {d : Bytes} {e : DnsError} : ∀ (n : Nat) (xs : List α) (i k : Nat),
    Seq p d i xs k → xs.length < n → (p d k).1 = .err e → (Parser.times n p d i).1 = .err e := by
  intro n
  induction n with
  | zero => intro xs i k _ h; omega
  | succ n ih =>
    intro xs i k h1 h2 h3
    rw [Parser.times, Parser.bind_apply]
    cases xs with
    | nil =>
      cases h1
      rcases hp : p d i with ⟨r, j⟩
      rw [hp] at h3
      cases h3
      rfl
    | cons x xs =>
      obtain ⟨m, h4, h5⟩ := h1
      rw [h4]
      dsimp only
      have := ih xs m k h5 (by simpa using h2) h3
      rcases hp : Parser.times n p d m with ⟨r, j⟩
      rw [hp] at this
      cases this
      rw [Parser.bind_apply, hp]

theorem seq_append {α : Type} {p : Parser α} {d : Bytes} : ∀ (xs ys : List α) (i k : Nat),
    Seq p d i (xs ++ ys) k ↔ ∃ m, Seq p d i xs m ∧ Seq p d m ys k := by
  intro xs
  induction xs with
  | nil => intro ys i k; simp [Seq]
  | cons x xs ih =>
    intro ys i k
    simp only [List.cons_append, Seq, ih]
    constructor
    · rintro ⟨a, h1, m, h2, h3⟩; exact ⟨m, ⟨a, h1, h2⟩, h3⟩
    · rintro ⟨m, ⟨a, h1, h2⟩, h3⟩; exact ⟨a, h1, m, h2, h3⟩

theorem bind_err {α β : Type} {p : Parser α} {f : α → Parser β} {d : Bytes} {i : Nat} {e : DnsError}
    (h : (p d i).1 = .err e) : ((p >>= f) d i).1 = .err e := by
  rw [Parser.bind_apply]
  rcases hp : p d i with ⟨r, j⟩
  rw [hp] at h
  cases h
  rfl

theorem bind_err_right {α β : Type} {p : Parser α} {f : α → Parser β} {d : Bytes} {i j : Nat} {a : α}
    {e : DnsError} (h1 : p d i = (.ok a, j)) (h2 : (f a d j).1 = .err e) : ((p >>= f) d i).1 = .err e := by
  rw [Parser.bind_apply, h1]; exact h2

theorem sections_err {p : Parser ResourceRecord} {d : Bytes} {e : DnsError} {h : Header} {qs : List Question}
    (an au ad : Nat) (xs : List ResourceRecord) (i k : Nat) (hs : Seq p d i xs k)
    (hl : xs.length < an + au + ad) (he : (p d k).1 = .err e) :
    ((do
      let x ← Parser.times an p
      let y ← Parser.times au p
      let z ← Parser.times ad p
      return (⟨h, qs, x, y, z⟩ : Packet)) d i).1 = .err e := by
  by_cases h1 : xs.length < an
  · exact bind_err (times_err an xs i k hs h1 he)
  · have e1 : xs = xs.take an ++ xs.drop an := (List.take_append_drop _ _).symm
    rw [e1, seq_append] at hs
    obtain ⟨m, s1, s2⟩ := hs
    refine bind_err_right (seq_times.mpr ⟨by simp; omega, s1⟩) ?_
    by_cases h2 : xs.length < an + au
    · exact bind_err (times_err au _ m k s2 (by simp; omega) he)
    · have e2 : xs.drop an = (xs.drop an).take au ++ (xs.drop an).drop au := (List.take_append_drop _ _).symm
      rw [e2, seq_append] at s2
      obtain ⟨m2, s3, s4⟩ := s2
      refine bind_err_right (seq_times.mpr ⟨by simp; omega, s3⟩) ?_
      exact bind_err (times_err ad _ m2 k s4 (by simp; omega) he)

/-- C42: a message in which the header, the questions and any number of records are read, and the next
record of one of the three sections has an unknown type, is refused with `InvalidType` and the number of
this type. -/
theorem C42_packet_unknown_type (cfg : Cfg) (d : Bytes) (h : Header) (i1 i2 i k : Nat) (qs : List Question)
    (rs : List ResourceRecord) (n : Fqdn) (t : UInt16)
    (hh : Header.parse d 0 = (.ok h, i1)) (hq : Parser.times h.quesCount.toNat (Question.parse cfg) d i1 = (.ok qs, i2))
    (hrs : ListAt (fun a r b => ResourceRecord.parse cfg d a = (.ok r, b)) i2 rs i)
    (hl : rs.length < h.ansCount.toNat + h.authCount.toNat + h.addCount.toNat)
    (hn : extractFqdn d i = (.ok n, k)) (ht : Octets d k (octets16 t) (k + 2))
    (hr : ∀ u, Readable cfg u → typeNumber u ≠ t.toNat) :
    Packet.parse cfg d = .err (.invalidType t) := by
  unfold Packet.parse Packet.parseBuf
  refine bind_err_right hh (bind_err_right hq ?_)
  exact sections_err _ _ _ rs i2 i ((seq_listAt (fun _ _ _ => Iff.rfl)).mpr hrs) hl
    (C42_unknown_type cfg d i k n t hn ht hr)

/-- C42: a message with a record of type 99. -/
example : Packet.parse ⟨true, true, true⟩
    ([0, 7, 1, 0, 0, 0, 0, 0, 0, 0, 0, 1, 1, 97, 0, 0, 99, 0, 1, 0, 0, 0, 0, 0, 0] : Bytes) =
    .err (.invalidType 99) := by decide +kernel

example : ∀ u, Readable ⟨true, true, true⟩ u → typeNumber u ≠ (99 : UInt16).toNat := by
  intro u _; cases u <;> decide

/-! ## C61 -/

/-- C61 (partial): the numbers written for the enumerations are those of the registries written down in
`Spec/Numbers.lean`.  What is missing: `Algorithm` (SSHFP, IPSECKEY, HIP) and SHA-512 digests, which are
not as registered, see below. -/
theorem C61_numbers_partial :
    (∀ x : RecordType, x.toU16.toNat = typeNumber x) ∧ (∀ x : QType, x.toU16.toNat = qtypeNumber x) ∧
    (∀ x : QClass, x.toU16.toNat = qclassNumber x) ∧ (∀ x : RecordClass, x.toU16.toNat = classNumber x) ∧
    (∀ x : ResponseCode, x.toU8.toNat = rcodeNumber x) ∧ (∀ x : OpCode, x.toU8.toNat = opcodeNumber x) ∧
    (∀ x : SecAlgorithm, x.toU8.toNat = secAlgorithmNumber x) ∧
    (∀ x : DigestType, ∀ n, ianaDigest x = some n → x.toU8.toNat = n) ∧
    (∀ x : FingerprintType, x.toU8.toNat = fingerprintNumber x) ∧
    (∀ x : CertUsage, x.toU8.toNat = certUsageNumber x) ∧ (∀ x : Selector, x.toU8.toNat = selectorNumber x) ∧
    (∀ x : MatchingType, x.toU8.toNat = matchingNumber x) ∧
    (∀ x : IdentifierType, x.toU16.toNat = identifierNumber x) ∧
    (∀ x : TkeyMode, x.toU16.toNat = tkeyModeNumber x) ∧ (∀ x : TkeyError, x.toU16.toNat = tkeyErrorNumber x) ∧
    (∀ x : TsigError, x.toU16.toNat = tsigErrorNumber x) ∧
    (∀ x : ParamKey, x.toU16.toNat = paramKeyNumber x) ∧ (∀ x : NaptrFlag, x.toU8.toNat = flagNumber x) := by
  refine ⟨fun x => (C39_type_numbers x .ANY .IN).1, fun x => (C39_type_numbers .A x .IN).2.1,
    fun x => (C39_type_numbers .A .ANY x).2.2, ?_, ?_, ?_, ?_, ?_, ?_, ?_, ?_, ?_, ?_, ?_, ?_, ?_, ?_, ?_⟩
  all_goals (intro x; cases x <;> first | rfl | (intro n h; cases h <;> rfl))

/-- C61: the numbers are read as written: a number is read as a value exactly if it is the number of
the value. -/
theorem C61_numbers_read :
    (∀ v x, SecAlgorithm.ofU8 v = .ok x ↔ v.toNat = secAlgorithmNumber x) ∧
    (∀ v x, DigestType.ofU8 v = .ok x ↔ v = x.toU8) ∧ (∀ v x, Algorithm.ofU8 v = .ok x ↔ v = x.toU8) ∧
    (∀ v x, FingerprintType.ofU8 v = .ok x ↔ v.toNat = fingerprintNumber x) ∧
    (∀ v x, CertUsage.ofU8 v = .ok x ↔ v.toNat = certUsageNumber x) ∧
    (∀ v x, Selector.ofU8 v = .ok x ↔ v.toNat = selectorNumber x) ∧
    (∀ v x, MatchingType.ofU8 v = .ok x ↔ v.toNat = matchingNumber x) ∧
    (∀ v x, IdentifierType.ofU16 v = .ok x ↔ v.toNat = identifierNumber x) ∧
    (∀ v x, TsigError.ofU16 v = .ok x ↔ v.toNat = tsigErrorNumber x) ∧
    (∀ v x, TkeyMode.ofU16 v = .ok x ↔ modeOk x ∧ v.toNat = tkeyModeNumber x) ∧
    (∀ v x, TkeyError.ofU16 v = .ok x ↔ errorOk x ∧ v.toNat = tkeyErrorNumber x) ∧
    (∀ v x, ResponseCode.ofU8 v = .ok x ↔ v.toNat = rcodeNumber x) := by
  have k8 : ∀ (v : UInt8) (n : Nat), n < 256 → (v = UInt8.ofNat n ↔ v.toNat = n) := by
    intro v n h
    rw [← UInt8.toNat_inj, UInt8.toNat_ofNat_of_lt' (by simpa [UInt8.size] using h)]
  have k16 : ∀ (v : UInt16) (n : Nat), n < 65536 → (v = UInt16.ofNat n ↔ v.toNat = n) := by
    intro v n h
    rw [← UInt16.toNat_inj, UInt16.toNat_ofNat_of_lt' (by simpa [UInt16.size] using h)]
  refine ⟨?_, ?_, ?_, ?_, ?_, ?_, ?_, ?_, ?_, ?_, ?_, ?_⟩ <;> intro v x
  · rw [SecAlgorithm.ofU8_ok, k8]; cases x <;> decide
  · rw [DigestType.ofU8_ok, DigestType.toU8_eq]
  · rw [Algorithm.ofU8_ok, Algorithm.toU8_eq]
  · rw [FingerprintType.ofU8_ok, k8]; cases x <;> decide
  · rw [CertUsage.ofU8_ok, k8]; cases x <;> decide
  · rw [Selector.ofU8_ok, k8]; cases x <;> decide
  · rw [MatchingType.ofU8_ok, k8]; cases x <;> decide
  · rw [IdentifierType.ofU16_ok, k16]; cases x <;> decide
  · rw [TsigError.ofU16_ok, k16]; cases x <;> decide
  · rw [TkeyMode.ofU16_ok, k16]
    cases x with
    | available n => exact n.toNat_lt
    | _ => decide
  · rw [TkeyError.ofU16_ok, k16]
    cases x with
    | nonExtendedRcode n => exact n.toNat_lt
    | _ => decide
  · revert v
    apply forall_u8
    cases x <;> decide +kernel

/-- C61: the key algorithms of SSHFP records are as registered exactly if they are not Ed448 (6, not 5);
those of IPSECKEY and HIP records are as registered except RSA and DSA, which are exchanged, and Ed448
(EdDSA is 4); SHA-512 is not a registered digest type (and 5 is another one). -/
theorem C61_algorithm_counterexamples (x : Algorithm) :
    (x.toU8.toNat = ianaSshfpAlgorithm x ↔ x ≠ .ed448) ∧
    (x.toU8.toNat = ianaIpseckeyAlgorithm x ↔ x ≠ .RSA ∧ x ≠ .DSA ∧ x ≠ .ed448) ∧
    ianaDigest .SHA512 = none ∧ DigestType.SHA512.toU8 = 5 := by
  refine ⟨?_, ?_, rfl, rfl⟩ <;> cases x <;> decide

end Dns
