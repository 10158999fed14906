import Verif.Model.CompressedSize
import Verif.Props.PacketSize

/-! C64: the predicted size of compressed questions, record data and records. -/

namespace Dns
open Spec Buf

/-- Two maps that know the same names, at possibly different offsets. -/
def SameKeys (a b : Names) : Prop := ∀ k, (a k).isSome = (b k).isSome

theorem SameKeys.refl (a : Names) : SameKeys a a := fun _ => rfl

theorem SameKeys.insert {a b : Names} (h : SameKeys a b) (k : UInt64) (v w : Nat) :
    SameKeys (a.insert k v) (b.insert k w) := by
  intro k'
  unfold Names.insert
  split
  · rfl
  · exact h k'

/-- The number of octets of a compressed name depends only on which names are known. -/
theorem compressed_length (h : Hash) : ∀ (n : Fqdn) {a b : Names} (o p : Nat), SameKeys a b →
    (n.toBytesCompressed h a o).1.length = (n.toBytesCompressed h b p).1.length ∧
    SameKeys (n.toBytesCompressed h a o).2 (n.toBytesCompressed h b p).2 := by
  intro n
  induction n with
  | nil => intro a b o p hab; exact ⟨rfl, hab⟩
  | cons l n ih =>
    intro a b o p hab
    have hk := hab (h (l :: n))
    unfold Fqdn.toBytesCompressed
    cases ha : a (h (l :: n)) with
    | some x =>
      cases hb : b (h (l :: n)) with
      | some y => exact ⟨rfl, hab⟩
      | none => simp [ha, hb] at hk
    | none =>
      cases hb : b (h (l :: n)) with
      | some y => simp [ha, hb] at hk
      | none =>
        have := ih (o + (l.length + 1)) (p + (l.length + 1)) (hab.insert (h (l :: n)) o p)
        simp only [List.length_cons, List.length_append, this.1, true_and]
        exact this.2

theorem size_length (h : Hash) (n : Fqdn) {a b : Names} (o p : Nat) (hab : SameKeys a b) :
    (n.byteSizeCompressed h a o).1 = (n.toBytesCompressed h b p).1.length ∧
    SameKeys (n.byteSizeCompressed h a o).2 (n.toBytesCompressed h b p).2 := by
  rw [(byteSizeCompressed_eq h n a o).1, (byteSizeCompressed_eq h n a o).2]
  exact compressed_length h n o p hab

/-- The same for record data. -/
theorem RecordData.compressed_length {cfg : Cfg} {h : Hash} {d : RecordData} {a b : Names} {o : Nat}
    {x : Bytes} {a' : Names} (p : Nat) (hab : SameKeys a b)
    (hd : d.toBytesCompressed cfg h a o = .ok (x, a')) :
    ∃ y b', d.toBytesCompressed cfg h b p = .ok (y, b') ∧ y.length = x.length ∧ SameKeys a' b' := by
  cases d
  case NSEC r =>
    have hd : r.toBytesCompressed cfg h a o = .ok (x, a') := hd
    unfold Nsec.toBytesCompressed at hd
    simp only [Res.bind_ok] at hd
    obtain ⟨m, h1, h2⟩ := hd
    cases h2
    have := Dns.compressed_length h r.nextDomainName o p hab
    refine ⟨_, _, by
      show r.toBytesCompressed cfg h b p = _
      unfold Nsec.toBytesCompressed; rw [h1]; rfl, ?_, this.2⟩
    simp [this.1]
  case CSYNC r =>
    have hd : (do let b ← r.toBytes cfg; return (b, a)) = Res.ok (x, a') := hd
    simp only [Res.bind_ok] at hd
    obtain ⟨m, h1, h2⟩ := hd
    cases h2
    exact ⟨x, b, by simp [RecordData.toBytesCompressed, h1, bind, Res.bind, pure], rfl, hab⟩
  case SVCB r =>
    have hd : (do let b ← r.toBytes cfg; return (b, a)) = Res.ok (x, a') := hd
    simp only [Res.bind_ok] at hd
    obtain ⟨m, h1, h2⟩ := hd
    cases h2
    exact ⟨x, b, by simp [RecordData.toBytesCompressed, h1, bind, Res.bind, pure], rfl, hab⟩
  case NS r =>
    have e : r.nsdname.toBytesCompressed h a o = (x, a') := Res.ok.inj hd
    have := Dns.compressed_length h r.nsdname o p hab
    rw [e] at this
    exact ⟨_, _, rfl, this.1.symm, this.2⟩
  case CNAME r =>
    have e : r.cname.toBytesCompressed h a o = (x, a') := Res.ok.inj hd
    have := Dns.compressed_length h r.cname o p hab
    rw [e] at this
    exact ⟨_, _, rfl, this.1.symm, this.2⟩
  case PTR r =>
    have e : r.ptrdname.toBytesCompressed h a o = (x, a') := Res.ok.inj hd
    have := Dns.compressed_length h r.ptrdname o p hab
    rw [e] at this
    exact ⟨_, _, rfl, this.1.symm, this.2⟩
  case MX r =>
    cases hd
    have := Dns.compressed_length h r.exchange (o + 2) (p + 2) hab
    exact ⟨_, _, rfl, by simp [this.1], this.2⟩
  case SRV r =>
    cases hd
    have := Dns.compressed_length h r.target (o + 6) (p + 6) hab
    exact ⟨_, _, rfl, by simp [this.1], this.2⟩
  case NAPTR r =>
    cases hd
    have := Dns.compressed_length h r.replacement (o + r.headBytes.length) (p + r.headBytes.length) hab
    exact ⟨_, _, rfl, by simp [this.1], this.2⟩
  case SOA r =>
    cases hd
    have h1 := Dns.compressed_length h r.mname o p hab
    have h2 := Dns.compressed_length h r.rname (o + (r.mname.toBytesCompressed h a o).1.length)
      (p + (r.mname.toBytesCompressed h b p).1.length) h1.2
    refine ⟨_, _, rfl, ?_, h2.2⟩
    simp [h1.1] at h2 ⊢
    rw [h2.1]
  case MINFO r =>
    cases hd
    have h1 := Dns.compressed_length h r.rmailbx o p hab
    have h2 := Dns.compressed_length h r.emailbx (o + (r.rmailbx.toBytesCompressed h a o).1.length)
      (p + (r.rmailbx.toBytesCompressed h b p).1.length) h1.2
    refine ⟨_, _, rfl, ?_, h2.2⟩
    simp [h1.1] at h2 ⊢
    rw [h2.1]
  all_goals
    cases hd
    exact ⟨_, _, rfl, rfl, hab⟩

/-- C64: a question occupies `byte_size_compressed` octets. -/
theorem C64_question (cfg : Cfg) (h : Hash) (q : Question) (names : Names) (offset : Nat) :
    (q.byteSizeCompressed h names offset).1 = (q.toBytesCompressed cfg h names offset).1.length := by
  have := (byteSizeCompressed_eq h q.qName names offset).1
  simp [Question.byteSizeCompressed, Question.toBytesCompressed, this, u16be_length]

/-- C64: a record occupies `byte_size_compressed` octets, although that counts with wrong offsets. -/
theorem C64_record (cfg : Cfg) (h : Hash) (r : ResourceRecord) (names names' : Names) (offset : Nat)
    (b : Bytes) (hb : r.toBytesCompressed cfg h names offset = .ok (b, names')) :
    ∃ names'', r.byteSizeCompressed cfg h names offset = .ok (b.length, names'') := by
  unfold ResourceRecord.toBytesCompressed at hb
  simp only [Res.bind_ok] at hb
  obtain ⟨⟨data, n1⟩, h1, h2⟩ := hb
  cases h2
  have hn := byteSizeCompressed_eq h r.name names offset
  obtain ⟨y, b', h3, h4, _⟩ := RecordData.compressed_length offset (SameKeys.refl _) h1
  have h3 : r.rdata.toBytesCompressed cfg h (r.name.byteSizeCompressed h names offset).2 offset
      = .ok (y, b') := by rw [hn.2]; exact h3
  refine ⟨b', ?_⟩
  unfold ResourceRecord.byteSizeCompressed RecordData.byteSizeCompressed
  simp only [h3, bind, Res.bind, pure, hn.1, h4]
  simp [ResourceRecord.headCompressed, u16be_length, u32be_length, Nat.add_assoc]
  omega
example : ∃ n names', ResourceRecord.byteSizeCompressed ⟨true, true, true⟩ (fun _ => 0)
    ⟨[[98]], .A, false, .IN, 5, .A ⟨1⟩⟩ Names.empty 12 = .ok (n, names') :=
  ⟨_, C64_record ⟨true, true, true⟩ (fun _ => 0) ⟨[[98]], .A, false, .IN, 5, .A ⟨1⟩⟩ Names.empty _ 12 _ rfl⟩

/-- C64: data of the types that contain compressed names occupy `byte_size_compressed` octets. -/
theorem C64_rdata (h : Hash) (names : Names) (offset : Nat) :
    (∀ r : Ns, (r.byteSizeCompressed h names offset).1 = (r.toBytesCompressed h names offset).1.length) ∧
    (∀ r : Cname, (r.byteSizeCompressed h names offset).1 = (r.toBytesCompressed h names offset).1.length) ∧
    (∀ r : Ptr, (r.byteSizeCompressed h names offset).1 = (r.toBytesCompressed h names offset).1.length) ∧
    (∀ r : Mx, (r.byteSizeCompressed h names offset).1 = (r.toBytesCompressed h names offset).1.length) ∧
    (∀ r : Minfo, (r.byteSizeCompressed h names offset).1 = (r.toBytesCompressed h names offset).1.length) ∧
    (∀ r : Soa, (r.byteSizeCompressed h names offset).1 = (r.toBytesCompressed h names offset).1.length) ∧
    (∀ r : Srv, (r.byteSizeCompressed h names offset).1 = (r.toBytesCompressed h names offset).1.length) ∧
    (∀ r : Naptr, (r.byteSizeCompressed h names offset).1 = (r.toBytesCompressed h names offset).1.length) := by
  have s := SameKeys.refl names
  refine ⟨fun r => (size_length h _ _ _ s).1, fun r => (size_length h _ _ _ s).1,
    fun r => (size_length h _ _ _ s).1, fun r => ?_, fun r => ?_, fun r => ?_, fun r => ?_, fun r => ?_⟩
  · have := (size_length h r.exchange offset (offset + 2) s).1
    simp [Mx.byteSizeCompressed, Mx.toBytesCompressed, this, u16be_length]
  · have h1 := size_length h r.rmailbx offset offset s
    have h2 := size_length h r.emailbx offset (offset + (r.rmailbx.toBytesCompressed h names offset).1.length) h1.2
    simp [Minfo.byteSizeCompressed, Minfo.toBytesCompressed, h1.1, h2.1]
  · have h1 := size_length h r.mname offset offset s
    have h2 := size_length h r.rname offset (offset + (r.mname.toBytesCompressed h names offset).1.length) h1.2
    simp [Soa.byteSizeCompressed, Soa.toBytesCompressed, h1.1, h2.1, u32be_length]; omega
  · have := (size_length h r.target (offset + 6) (offset + 6) s).1
    simp [Srv.byteSizeCompressed, Srv.toBytesCompressed, this, u16be_length]; omega
  · have hs : 2 * 2 + 3 * 1 + r.flags.length + r.service.length + r.regexp.length = r.headBytes.length := by
      simp [Naptr.headBytes, u16be_length]; omega
    have := (size_length h r.replacement (offset + r.headBytes.length) (offset + r.headBytes.length) s).1
    simp only [Naptr.byteSizeCompressed, Naptr.toBytesCompressed, hs, this, List.length_append]

/-- C64: the same for NSEC, whose set of types is a `BTreeSet`. -/
theorem C64_nsec (cfg : Cfg) (h : Hash) (r : Nsec) (names : Names) (offset : Nat) (hs : SetsOk (.NSEC r)) :
    ∃ b names', r.toBytesCompressed cfg h names offset = .ok (b, names') ∧
      r.byteSizeCompressed cfg h names offset = .ok (b.length, names') := by
  obtain ⟨ws, h1, h2, _⟩ := Bitmap.toBytes_ok cfg hs
  have hn := byteSizeCompressed_eq h r.nextDomainName names offset
  refine ⟨_, _, by unfold Nsec.toBytesCompressed; rw [h1]; rfl, ?_⟩
  unfold Nsec.byteSizeCompressed
  rw [h2]
  simp [bind, Res.bind, pure, hn.1, hn.2]

/-- C64: and they leave a map that knows the same names as after writing (at wrong offsets, see the
counterexample below). -/
theorem C64_rdata_map (h : Hash) (names : Names) (offset : Nat) (hash : UInt64) :
    (∀ r : Ns, ((r.byteSizeCompressed h names offset).2 hash).isSome = ((r.toBytesCompressed h names offset).2 hash).isSome) ∧
    (∀ r : Cname, ((r.byteSizeCompressed h names offset).2 hash).isSome = ((r.toBytesCompressed h names offset).2 hash).isSome) ∧
    (∀ r : Ptr, ((r.byteSizeCompressed h names offset).2 hash).isSome = ((r.toBytesCompressed h names offset).2 hash).isSome) ∧
    (∀ r : Mx, ((r.byteSizeCompressed h names offset).2 hash).isSome = ((r.toBytesCompressed h names offset).2 hash).isSome) ∧
    (∀ r : Minfo, ((r.byteSizeCompressed h names offset).2 hash).isSome = ((r.toBytesCompressed h names offset).2 hash).isSome) ∧
    (∀ r : Soa, ((r.byteSizeCompressed h names offset).2 hash).isSome = ((r.toBytesCompressed h names offset).2 hash).isSome) ∧
    (∀ r : Srv, ((r.byteSizeCompressed h names offset).2 hash).isSome = ((r.toBytesCompressed h names offset).2 hash).isSome) ∧
    (∀ r : Naptr, ((r.byteSizeCompressed h names offset).2 hash).isSome = ((r.toBytesCompressed h names offset).2 hash).isSome) := by
  have s := SameKeys.refl names
  refine ⟨fun r => (size_length h _ _ _ s).2 _, fun r => (size_length h _ _ _ s).2 _,
    fun r => (size_length h _ _ _ s).2 _, fun r => (size_length h _ _ _ s).2 _, fun r => ?_, fun r => ?_,
    fun r => (size_length h _ _ _ s).2 _, fun r => (size_length h _ _ _ s).2 _⟩
  · have h1 := size_length h r.rmailbx offset offset s
    exact (size_length h r.emailbx offset (offset + (r.rmailbx.toBytesCompressed h names offset).1.length) h1.2).2 _
  · have h1 := size_length h r.mname offset offset s
    exact (size_length h r.rname offset (offset + (r.mname.toBytesCompressed h names offset).1.length) h1.2).2 _

/-- C64: the hypothesis of `C64_record` is met: an MX record whose owner name is known. -/
example : (ResourceRecord.toBytesCompressed ⟨true, true, true⟩ sampleHash
      ⟨[[98]], .MX, false, .IN, 5, .MX ⟨7, [[97], [98]]⟩⟩ (Names.empty.insert (sampleHash [[98]]) 12) 30
      |> fun | .ok x => x.1.length | _ => 0) = 18 := by decide +kernel

/-- C64: after a call of `byte_size_compressed` the map must not be used for writing: the offsets of the
names in the data are wrong.  Here `b` is said to be at offset 0, where `a` is. -/
theorem C64_map_counterexample : ∃ (r : ResourceRecord) (n : Nat) (names : Names),
    r.byteSizeCompressed ⟨true, true, true⟩ sampleHash Names.empty 0 = .ok (n, names) ∧
    names (sampleHash [[98]]) = some 0 ∧
    (r.name.toBytesCompressed sampleHash Names.empty 0).1 = [1, 97, 0] :=
  ⟨⟨[[97]], .NS, false, .IN, 5, .NS ⟨[[98]]⟩⟩, 16, _, rfl, by decide +kernel, by decide +kernel⟩

/-! ### Sizes of several elements in turn -/

/-- The sizes of questions that follow each other from `offset` on, with the map each call leaves to the
next: the offset behind the last one. -/
def predictQuestions (h : Hash) : List Question → Names → Nat → Nat × Names
  | [], names, offset => (offset, names)
  | q :: qs, names, offset =>
    let s := q.byteSizeCompressed h names offset
    predictQuestions h qs s.2 (offset + s.1)

/-- The same for records. -/
def predictRecords (cfg : Cfg) (h : Hash) : List ResourceRecord → Names → Nat → Res (Nat × Names)
  | [], names, offset => .ok (offset, names)
  | r :: rs, names, offset => do
    let s ← r.byteSizeCompressed cfg h names offset
    predictRecords cfg h rs s.2 (offset + s.1)

theorem record_predicted {cfg : Cfg} {h : Hash} {r : ResourceRecord} {a b b' : Names} {x : Bytes} (o p : Nat)
    (hab : SameKeys a b) (hb : r.toBytesCompressed cfg h b p = .ok (x, b')) :
    ∃ a', r.byteSizeCompressed cfg h a o = .ok (x.length, a') ∧ SameKeys a' b' := by
  unfold ResourceRecord.toBytesCompressed at hb
  simp only [Res.bind_ok] at hb
  obtain ⟨⟨data, n1⟩, h1, h2⟩ := hb
  cases h2
  have hn := size_length h r.name o p hab
  have hk : SameKeys (r.headCompressed cfg h b p).2 (r.name.byteSizeCompressed h a o).2 := fun k => (hn.2 k).symm
  obtain ⟨y, b', h3, h4, h5⟩ := RecordData.compressed_length o hk h1
  refine ⟨b', ?_, fun k => (h5 k).symm⟩
  unfold ResourceRecord.byteSizeCompressed RecordData.byteSizeCompressed
  simp only [h3, bind, Res.bind, pure, hn.1, h4]
  simp [ResourceRecord.headCompressed, u16be_length, u32be_length, Nat.add_assoc]
  omega

theorem questions_predicted (cfg : Cfg) (h : Hash) : ∀ (qs : List Question) (a b : Names) (bin : Bytes),
    SameKeys a b →
    (predictQuestions h qs a bin.length).1 = (Packet.questionsCompressed cfg h qs b bin).1.length ∧
    SameKeys (predictQuestions h qs a bin.length).2 (Packet.questionsCompressed cfg h qs b bin).2 := by
  intro qs
  induction qs with
  | nil => intro a b bin hab; exact ⟨rfl, hab⟩
  | cons q qs ih =>
    intro a b bin hab
    have hn := size_length h q.qName bin.length bin.length hab
    have hl : bin.length + (q.byteSizeCompressed h a bin.length).1 =
        (bin ++ (q.toBytesCompressed cfg h b bin.length).1).length := by
      simp [Question.byteSizeCompressed, Question.toBytesCompressed, hn.1, u16be_length]
    rw [predictQuestions, Packet.questionsCompressed]
    simp only [hl]
    exact ih _ _ _ hn.2

theorem records_predicted (cfg : Cfg) (h : Hash) : ∀ (rs : List ResourceRecord) (a b b' : Names) (bin out : Bytes),
    SameKeys a b → Packet.recordsCompressed cfg h rs b bin = .ok (out, b') →
    ∃ a', predictRecords cfg h rs a bin.length = .ok (out.length, a') ∧ SameKeys a' b' := by
  intro rs
  induction rs with
  | nil =>
    intro a b b' bin out hab hb
    cases hb
    exact ⟨a, rfl, hab⟩
  | cons r rs ih =>
    intro a b b' bin out hab hb
    obtain ⟨⟨x, n1⟩, h1, h2⟩ := Res.bind_ok.mp hb
    obtain ⟨a1, h3, h4⟩ := record_predicted bin.length bin.length hab h1
    obtain ⟨a2, h5, h6⟩ := ih a1 n1 b' (bin ++ x) out h4 h2
    refine ⟨a2, ?_, h6⟩
    rw [predictRecords, h3]
    rw [List.length_append] at h5
    exact h5

/-- C64: the sizes of the questions and records of a packet, computed in turn with one map, add up (after
the twelve octets of the header) to the number of octets of the compressed message. -/
theorem C64_packet (cfg : Cfg) (h : Hash) (p : Packet) (b : Bytes) (hb : p.toBytesCompressed cfg h = .ok b) :
    ∃ names, (do
      let q := predictQuestions h p.questions Names.empty 12
      let an ← predictRecords cfg h p.answers q.2 q.1
      let au ← predictRecords cfg h p.authorities an.2 an.1
      predictRecords cfg h p.additional au.2 au.1) = Res.ok (b.length, names) := by
  unfold Packet.toBytesCompressed at hb
  simp only [Res.bind_ok] at hb
  obtain ⟨⟨x1, n1⟩, h1, ⟨x2, n2⟩, h2, ⟨x3, n3⟩, h3, h4⟩ := hb
  cases h4
  have hq := questions_predicted cfg h p.questions _ _ p.header.toBytes (SameKeys.refl Names.empty)
  have h12 : p.header.toBytes.length = 12 := by simp [Header.toBytes, u16be_length]
  rw [h12] at hq
  obtain ⟨a1, e1, k1⟩ := records_predicted cfg h _ _ _ _ _ _ hq.2 h1
  obtain ⟨a2, e2, k2⟩ := records_predicted cfg h _ _ _ _ _ _ k1 h2
  obtain ⟨a3, e3, k3⟩ := records_predicted cfg h _ _ _ _ _ _ k2 h3
  refine ⟨a3, ?_⟩
  rw [← hq.1] at e1
  simp only [e1, e2, e3, bind, Res.bind]

/-- C64: the packet of the examples has 92 octets with compression. -/
example : (exPacket.toBytesCompressed ⟨true, true, true⟩ exHash |> fun | .ok x => x.length | _ => 0) = 92 := by
  decide +kernel

end Dns
