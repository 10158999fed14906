import Verif.Model.TimedPlain
import Verif.Lemmas.OutputLength
import Verif.Lemmas.TimedWriteLower

/-!
Steps of the writer without compression.
-/

namespace Dns
open Spec Buf
namespace Timed

theorem nameSizing_eq (n : Fqdn) : nameSizing n = n.length + 1 := by
  induction n with
  | nil => rfl
  | cons l ls ih => simp only [nameSizing, ih, List.length_cons]; omega

theorem labelsPlain_fst (n : Fqdn) : (labelsPlain n).1 = n.toBytes := by
  induction n with
  | nil => rfl
  | cons l ls ih =>
    simp only [labelsPlain, Fqdn.toBytes, Fqdn.labelBytes] at ih ⊢
    cases h : l.isEmpty <;> simp [ih]

theorem labelsPlain_snd (n : Fqdn) : (labelsPlain n).2 = n.length + n.toBytes.length := by
  induction n with
  | nil => rfl
  | cons l ls ih =>
    simp only [labelsPlain, Fqdn.toBytes, Fqdn.labelBytes] at ih ⊢
    cases h : l.isEmpty <;> simp at ih ⊢ <;> omega

theorem namePlain_fst (n : Fqdn) : (namePlain n).1 = n.toBytes := labelsPlain_fst n

theorem namePlain_snd (n : Fqdn) : (namePlain n).2 = 2 * n.length + 1 + n.toBytes.length := by
  simp only [namePlain, nameSizing_eq, labelsPlain_snd]
  omega

theorem questionPlain_fst (cfg : Cfg) (q : Question) : (questionPlain cfg q).1 = q.toBytes cfg := by
  simp only [questionPlain, namePlain_fst, Question.toBytes]

theorem recordPlain_fst (cfg : Cfg) (r : ResourceRecord) : (recordPlain cfg r).1 = r.toBytes cfg := by
  simp only [recordPlain, ResourceRecord.toBytes, rdataPlain, namePlain_fst]
  cases r.rdata.byteSize cfg with
  | ok n => cases r.rdata.toBytes cfg <;> rfl
  | err e => rfl
  | panic k => rfl
  | hang => rfl

theorem questionsPlain_fst (cfg : Cfg) : ∀ (qs : List Question) (bin : Bytes),
    (questionsPlain cfg qs bin).1 = qs.foldl (fun bin q => bin ++ q.toBytes cfg) bin := by
  intro qs
  induction qs with
  | nil => intro bin; rfl
  | cons q qs ih => intro bin; simp only [questionsPlain, ih, questionPlain_fst, List.foldl_cons]

theorem recordsPlain_fst (cfg : Cfg) : ∀ (rs : List ResourceRecord) (bin : Bytes),
    (recordsPlain cfg rs bin).1 = Packet.recordsBytes cfg rs bin := by
  intro rs
  induction rs with
  | nil => intro bin; rfl
  | cons r rs ih =>
    intro bin
    have h1 := recordPlain_fst cfg r
    unfold recordsPlain Packet.recordsBytes
    rcases hd : recordPlain cfg r with ⟨x, t⟩
    rw [hd] at h1
    rw [← h1]
    cases x with
    | ok b => exact ih (bin ++ b)
    | err e => rfl
    | panic k => rfl
    | hang => rfl

theorem thenPlain_fst (r : Res Bytes × Nat) (f : Bytes → Res Bytes × Nat) :
    (thenPlain r f).1 = r.1.bind (fun x => (f x).1) := by
  rcases r with ⟨x, t⟩
  cases x <;> rfl

theorem packetPlain_fst (cfg : Cfg) (p : Packet) : (packetPlain cfg p).1 = p.toBytes cfg := by
  simp only [packetPlain, thenPlain_fst, recordsPlain_fst, questionsPlain_fst, Packet.toBytes]
  show _ = Res.bind _ _
  cases Packet.recordsBytes cfg p.answers _ <;> rfl

theorem thenPlain_ok {r : Res Bytes × Nat} {f : Bytes → Res Bytes × Nat} {x : Bytes} {t : Nat}
    (h : thenPlain r f = (.ok x, t)) : ∃ y t1 t2, r = (.ok y, t1) ∧ f y = (.ok x, t2) ∧ t = t1 + t2 := by
  rcases r with ⟨z, t1⟩
  cases z with
  | ok y =>
    simp only [thenPlain, Prod.mk.injEq] at h
    rcases hf : f y with ⟨a, t2⟩
    rw [hf] at h
    obtain ⟨rfl, rfl⟩ := h
    exact ⟨y, t1, t2, rfl, hf, rfl⟩
  | err e => cases h
  | panic k => cases h
  | hang => cases h

/-- The octets of names, written without compression. -/
def plainSize (ns : List Fqdn) : Nat := (ns.map (fun n => n.toBytes.length)).sum

/-- The labels of names. -/
def labels (ns : List Fqdn) : Nat := (ns.map List.length).sum

theorem plainSize_cons (n : Fqdn) (ns : List Fqdn) : plainSize (n :: ns) = n.toBytes.length + plainSize ns := rfl

theorem labels_cons (n : Fqdn) (ns : List Fqdn) : labels (n :: ns) = n.length + labels ns := rfl

theorem names_le (ns : List Fqdn) : ns.length ≤ plainSize ns := by
  induction ns with
  | nil => simp
  | cons n ns ih =>
    have h1 : 1 ≤ n.toBytes.length := by simp [Fqdn.toBytes]
    rw [plainSize_cons, List.length_cons]
    omega

theorem foldl_names (rs : List Fqdn) : ∀ b : Bytes,
    (rs.foldl (fun buf n => buf ++ Fqdn.toBytes n) b).length = b.length + plainSize rs := by
  induction rs with
  | nil => intro b; simp [plainSize]
  | cons n rs ih =>
    intro b
    simp only [List.foldl_cons, ih, plainSize, List.map_cons, List.sum_cons, List.length_append]
    omega

/-- The names of the data are written without compression among the octets of the data. -/
theorem rdata_names {cfg : Cfg} {d : RecordData} {b : Bytes} (h : d.toBytes cfg = .ok b) :
    plainSize (rdataNames d) ≤ b.length := by
  cases d
  case NSEC r =>
    simp only [RecordData.toBytes, Nsec.toBytes] at h
    obtain ⟨_, _, h⟩ := Res.bind_eq_ok.mp h
    obtain ⟨c, _, h⟩ := Res.bind_eq_ok.mp h
    cases h
    simp [plainSize, rdataNames]
  case SVCB r =>
    simp only [RecordData.toBytes, Svcb.toBytes] at h
    obtain ⟨c, _, h⟩ := Res.bind_eq_ok.mp h
    cases h
    simp [plainSize, rdataNames, u16be]
    omega
  case HIP r =>
    cases h
    simp only [Hip.toBytes, rdataNames, List.length_append]
    cases r.rendevousServer with
    | none => simp [plainSize]
    | some rs => simp only [foldl_names, Option.getD_some]; omega
  case IPSECKEY r =>
    cases h
    simp only [IpSecKey.toBytes, rdataNames, List.length_append]
    cases r.gateway with
    | domain n => simp only [plainSize, Gateway.toBytes, List.map_cons, List.map_nil, List.sum_cons, List.sum_nil]; omega
    | _ => simp [plainSize]
  case NS r | CNAME r | PTR r => cases h; exact Nat.le_refl _
  case MX r => cases h; simp [plainSize, rdataNames, Mx.toBytes]
  case SRV r => cases h; simp [plainSize, rdataNames, Srv.toBytes]; omega
  case NAPTR r => cases h; simp [plainSize, rdataNames, Naptr.toBytes]
  case SOA r => cases h; simp [plainSize, rdataNames, Soa.toBytes]
  case MINFO r => cases h; simp [plainSize, rdataNames, Minfo.toBytes]
  case RRSIG r => cases h; simp [plainSize, rdataNames, Rrsig.toBytes]; omega
  case TKEY r => cases h; simp [plainSize, rdataNames, Tkey.toBytes]
  case TSIG r => cases h; simp [plainSize, rdataNames, Tsig.toBytes]
  all_goals exact Nat.zero_le _

theorem sizing_sum (ns : List Fqdn) : (ns.map nameSizing).sum = labels ns + ns.length := by
  induction ns with
  | nil => rfl
  | cons n ns ih =>
    simp only [labels, List.map_cons, List.sum_cons, List.length_cons, nameSizing_eq] at ih ⊢
    omega

theorem plain_sum (ns : List Fqdn) :
    (ns.map (fun n => (namePlain n).2)).sum = 2 * labels ns + ns.length + plainSize ns := by
  induction ns with
  | nil => rfl
  | cons n ns ih =>
    simp only [labels, plainSize, List.map_cons, List.sum_cons, List.length_cons, namePlain_snd] at ih ⊢
    omega

/-- The labels of a record. -/
def recordLabels (r : ResourceRecord) : Nat := labels (r.name :: rdataNames r.rdata)

theorem rdataSizing_le {cfg : Cfg} {d : RecordData} {b : Bytes} (h : d.toBytes cfg = .ok b) :
    rdataSizing d ≤ 1 + labels (rdataNames d) + b.length + rdataElements d := by
  have h1 := rdata_names h
  have h2 := names_le (rdataNames d)
  simp only [rdataSizing, sizing_sum]
  omega

theorem recordPlain_steps {cfg : Cfg} {r : ResourceRecord} {b : Bytes} {t : Nat}
    (h : recordPlain cfg r = (.ok b, t)) :
    t + recordSizing r + 2 ≤ 8 * b.length + 6 * recordLabels r + 5 * rdataElements r.rdata ∧
      recordLabels r + plainSize (r.name :: rdataNames r.rdata) ≤ recordLabels r + b.length ∧ 2 * b.length ≤ t + b.length := by
  simp only [recordPlain, rdataPlain, namePlain_fst] at h
  cases hs : r.rdata.byteSize cfg <;> rw [hs] at h <;> try (cases h; done)
  cases hd : r.rdata.toBytes cfg <;> rw [hd] at h <;> try (cases h; done)
  rename_i size data
  cases h
  have h1 := rdata_names hd
  have h2 := names_le (rdataNames r.rdata)
  simp only [recordLabels, labels_cons, plainSize_cons, recordSizing, rdataSizing, sizing_sum, plain_sum]
  simp only [nameSizing_eq, namePlain_snd, List.length_append, length_u16be, length_u32be]
  omega

theorem questionPlain_steps (cfg : Cfg) (q : Question) :
    (questionPlain cfg q).2 + questionSizing q + 2 ≤ 8 * (questionPlain cfg q).1.length + 6 * q.qName.length ∧
      q.qName.toBytes.length ≤ (questionPlain cfg q).1.length ∧ (questionPlain cfg q).1.length ≤ (questionPlain cfg q).2 := by
  simp only [questionPlain, questionSizing, nameSizing_eq, namePlain_snd, namePlain_fst, List.length_append, length_u16be]
  omega

theorem questionsPlain_steps (cfg : Cfg) : ∀ (qs : List Question) (bin : Bytes),
    (questionsPlain cfg qs bin).2 + (qs.map (fun q => 1 + questionSizing q)).sum + 9 * bin.length ≤
      9 * (questionsPlain cfg qs bin).1.length + 6 * labels (qs.map Question.qName) ∧
    plainSize (qs.map Question.qName) + bin.length ≤ (questionsPlain cfg qs bin).1.length ∧
    2 * (questionsPlain cfg qs bin).1.length ≤ 2 * bin.length + (questionsPlain cfg qs bin).2 := by
  intro qs
  induction qs with
  | nil => intro bin; simp [questionsPlain, labels, plainSize]
  | cons q qs ih =>
    intro bin
    have h1 := ih (bin ++ (questionPlain cfg q).1)
    have h2 := questionPlain_steps cfg q
    rw [List.length_append] at h1
    simp only [questionsPlain, List.map_cons, List.sum_cons, labels_cons, plainSize_cons]
    omega

/-- The names of records. -/
def recordsNames (rs : List ResourceRecord) : List Fqdn := rs.flatMap (fun r => r.name :: rdataNames r.rdata)

theorem labels_append (a b : List Fqdn) : labels (a ++ b) = labels a + labels b := by simp [labels]

theorem plainSize_append (a b : List Fqdn) : plainSize (a ++ b) = plainSize a + plainSize b := by simp [plainSize]

theorem recordsPlain_steps {cfg : Cfg} : ∀ (rs : List ResourceRecord) (bin x : Bytes) (t : Nat),
    recordsPlain cfg rs bin = (.ok x, t) →
    t + (rs.map (fun r => 1 + recordSizing r)).sum + 9 * bin.length ≤
      9 * x.length + 6 * labels (recordsNames rs) + 5 * (rs.map (fun r => rdataElements r.rdata)).sum ∧
    plainSize (recordsNames rs) + bin.length ≤ x.length ∧ 2 * x.length ≤ 2 * bin.length + t := by
  intro rs
  induction rs with
  | nil => intro bin x t h; cases h; simp [labels, plainSize, recordsNames]
  | cons r rs ih =>
    intro bin x t h
    unfold recordsPlain at h
    rcases hd : recordPlain cfg r with ⟨y, u⟩
    rw [hd] at h
    cases y with
    | ok b =>
      rcases hs : recordsPlain cfg rs (bin ++ b) with ⟨z, v⟩
      simp only [hs, Prod.mk.injEq] at h
      obtain ⟨rfl, rfl⟩ := h
      have h1 := ih (bin ++ b) x _ hs
      have h2 := recordPlain_steps hd
      rw [List.length_append] at h1
      have h3 : recordsNames (r :: rs) = (r.name :: rdataNames r.rdata) ++ recordsNames rs := by
        simp [recordsNames]
      rw [h3, labels_append, plainSize_append]
      simp only [List.map_cons, List.sum_cons, recordLabels] at h2 ⊢
      omega
    | err e => cases h
    | panic k => cases h
    | hang => cases h

theorem packetNames_eq (p : Packet) : packetNames p = p.questions.map Question.qName ++ (recordsNames p.answers ++
    recordsNames p.authorities ++ recordsNames p.additional) := by
  simp [packetNames, recordsNames, records]

theorem packetPlain_steps {cfg : Cfg} {p : Packet} {out : Bytes} (hp : p.toBytes cfg = .ok out) :
    (packetPlain cfg p).2 ≤ 9 * out.length + 6 * labels (packetNames p) +
      5 * ((records p).map (fun r => rdataElements r.rdata)).sum ∧
    plainSize (packetNames p) ≤ out.length ∧ 2 * out.length ≤ (packetPlain cfg p).2 + 12 := by
  rw [← packetPlain_fst] at hp
  simp only [packetPlain] at hp ⊢
  generalize hz : thenPlain _ _ = z at hp ⊢
  obtain ⟨z1, t⟩ := z
  simp only at hp
  subst hp
  obtain ⟨y2, t2, t3, hy, h3, rfl⟩ := thenPlain_ok hz
  obtain ⟨y1, t1, t2, h1, h2, rfl⟩ := thenPlain_ok hy
  have q0 := questionsPlain_steps cfg p.questions p.headerBytes
  have q1 := recordsPlain_steps _ _ _ _ h1
  have q2 := recordsPlain_steps _ _ _ _ h2
  have q3 := recordsPlain_steps _ _ _ _ h3
  have hb : p.headerBytes.length = 12 := by simp [Packet.headerBytes, Header.toBytes, u16be]
  rw [packetNames_eq, labels_append, labels_append, labels_append, plainSize_append, plainSize_append, plainSize_append]
  simp only [packetSizing, records, List.map_append, List.sum_append]
  omega

theorem rdata_length_plain {cfg : Cfg} {d : RecordData} {b : Bytes} (hx : d.toBytes cfg = .ok b) :
    b.length ≤ namesSize (rdataNames d) + 34 * rdataSize d + 64 := by
  have N := name_length
  cases d
  case NSEC r =>
    simp only [RecordData.toBytes, Nsec.toBytes] at hx
    obtain ⟨_, _, hx⟩ := Res.bind_eq_ok.mp hx
    obtain ⟨b, h1, hx⟩ := Res.bind_eq_ok.mp hx
    cases hx
    have := bitmap_length h1
    have := N r.nextDomainName
    simp [namesSize, rdataNames, rdataSize, Spec.rdataStrings, rdataElements]
    omega
  case NS r | CNAME r | PTR r =>
    cases hx
    refine Nat.le_trans (N _) ?_
    simp only [namesSize, rdataNames, List.map_cons, List.map_nil, List.sum_cons, List.sum_nil]
    omega
  case MX r =>
    cases hx
    have := N r.exchange
    simp only [Mx.toBytes, namesSize, rdataNames, List.map_cons, List.map_nil, List.sum_cons, List.sum_nil,
      List.length_append, u16be, toBE_length]
    omega
  case SRV r =>
    cases hx
    have := N r.target
    simp only [Srv.toBytes, namesSize, rdataNames, List.map_cons, List.map_nil, List.sum_cons, List.sum_nil,
      List.length_append, u16be, toBE_length]
    omega
  case NAPTR r =>
    cases hx
    have := N r.replacement
    simp only [Naptr.toBytes, namesSize, rdataNames, List.map_cons, List.map_nil, List.sum_cons, List.sum_nil,
      List.length_append, rdataSize, Spec.rdataStrings, rdataElements]
    have hh : r.headBytes.length = 7 + r.flags.length + r.service.length + r.regexp.length := by
      simp [Naptr.headBytes, u16be]
      omega
    omega
  case SOA r =>
    cases hx
    have h1 := N r.mname
    have h2 := N r.rname
    simp only [Soa.toBytes, namesSize, rdataNames, List.map_cons, List.map_nil, List.sum_cons, List.sum_nil,
      List.length_append, u32be, toBE_length]
    omega
  case MINFO r =>
    cases hx
    have h1 := N r.rmailbx
    have h2 := N r.emailbx
    simp only [Minfo.toBytes, namesSize, rdataNames, List.map_cons, List.map_nil, List.sum_cons, List.sum_nil,
      List.length_append]
    omega
  -- the other types have no names that may be compressed: both writers write the same octets
  all_goals
    refine rdata_length (cfg := cfg) (h := fun _ => 0) (names := Names.empty) (offset := 0) (x := (b, Names.empty)) ?_
    simp only [RecordData.toBytesCompressed, RecordData.toBytes] at hx ⊢
    first | (rw [hx]; rfl) | (cases hx; rfl)

theorem recordsBytes_length {cfg : Cfg} : ∀ (rs : List ResourceRecord) (bin x : Bytes),
    Packet.recordsBytes cfg rs bin = .ok x →
    x.length ≤ bin.length + namesSize (recordsNames rs) + 34 * (rs.map (fun r => rdataSize r.rdata)).sum +
      74 * (recordsNames rs).length := by
  intro rs
  induction rs with
  | nil => intro bin x h; cases h; omega
  | cons r rs ih =>
    intro bin x h
    obtain ⟨b, h1, h2⟩ := Res.bind_eq_ok.mp h
    have h3 := ih _ _ h2
    simp only [ResourceRecord.toBytes] at h1
    obtain ⟨s, _, h1⟩ := Res.bind_eq_ok.mp h1
    obtain ⟨c, hc, h1⟩ := Res.bind_eq_ok.mp h1
    cases h1
    have h4 := rdata_length_plain hc
    have h5 := name_length r.name
    have h6 : recordsNames (r :: rs) = (r.name :: rdataNames r.rdata) ++ recordsNames rs := by simp [recordsNames]
    have h7 : namesSize (r.name :: rdataNames r.rdata) = nameSize r.name + 2 + namesSize (rdataNames r.rdata) := rfl
    rw [h6, namesSize_append, h7]
    simp only [List.map_cons, List.sum_cons, List.length_append, List.length_cons, length_u16be, length_u32be] at h3 ⊢
    omega

theorem questionsBytes_length (cfg : Cfg) : ∀ (qs : List Question) (bin : Bytes),
    (qs.foldl (fun bin q => bin ++ q.toBytes cfg) bin).length ≤
      bin.length + namesSize (qs.map Question.qName) + 74 * (qs.map Question.qName).length := by
  intro qs
  induction qs with
  | nil => intro bin; simp
  | cons q qs ih =>
    intro bin
    have h1 := ih (bin ++ q.toBytes cfg)
    have h2 := name_length q.qName
    have h3 : namesSize (q.qName :: qs.map Question.qName) = nameSize q.qName + 2 + namesSize (qs.map Question.qName) := rfl
    simp only [h3, List.foldl_cons, List.map_cons, List.length_cons, List.length_append, Question.toBytes, length_u16be] at h1 ⊢
    omega

theorem packet_length_plain {cfg : Cfg} {p : Packet} {out : Bytes} (hp : p.toBytes cfg = .ok out) :
    out.length ≤ 12 + namesSize (packetNames p) + 34 * ((records p).map (fun r => rdataSize r.rdata)).sum +
      74 * (packetNames p).length := by
  simp only [Packet.toBytes] at hp
  obtain ⟨x, h1, hp⟩ := Res.bind_eq_ok.mp hp
  obtain ⟨y, h2, h3⟩ := Res.bind_eq_ok.mp hp
  have q0 := questionsBytes_length cfg p.questions p.headerBytes
  have q1 := recordsBytes_length _ _ _ h1
  have q2 := recordsBytes_length _ _ _ h2
  have q3 := recordsBytes_length _ _ _ h3
  have hb : p.headerBytes.length = 12 := by simp [Packet.headerBytes, Header.toBytes, u16be]
  rw [packetNames_eq, namesSize_append, namesSize_append, namesSize_append]
  simp only [records, List.map_append, List.sum_append, List.length_append]
  omega

end Timed
end Dns
