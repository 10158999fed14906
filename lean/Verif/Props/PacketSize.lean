import Verif.Props.PacketWire

/-! C19, C33 to C36: sizes. -/

namespace Dns
open Spec Buf

/-! ## C36 -/

/-- C36 (partial): the size of record data.  `byte_size()` differs from the length of `to_bytes()` by
`sizeError` — exactly; so it is right for all types but OPT, RRSIG, CAA with a tag and SVCB with
parameters. -/
theorem C36_rdata_size_partial (cfg : Cfg) (r : RecordData) (b : Bytes) (hs : SetsOk r)
    (hb : r.toBytes cfg = .ok b) :
    ∃ n, r.byteSize cfg = .ok n ∧ (n : Int) = b.length + sizeError r := RecordData.size hs hb

/-- C36: an RRSIG, whose size is one less than the number of octets written. -/
example : SetsOk (.RRSIG ⟨.A, .ED25519, 1, 5, 2, 1, 7, [[97]], [1, 2, 3]⟩) ∧
    sizeError (.RRSIG ⟨.A, .ED25519, 1, 5, 2, 1, 7, [[97]], [1, 2, 3]⟩) = -1 := ⟨trivial, by decide⟩

/-- C36: the types for which the size is right. -/
theorem C36_right (cfg : Cfg) (r : RecordData) (b : Bytes) (hs : SetsOk r) (hb : r.toBytes cfg = .ok b)
    (ht : r.type ∉ [.OPT, .RRSIG, .CAA, .SVCB]) : r.byteSize cfg = .ok b.length := by
  obtain ⟨n, h1, h2⟩ := RecordData.size hs hb
  have : sizeError r = 0 := by
    cases r <;> first | rfl | (exfalso; apply ht; simp [RecordData.type])
  rw [h1]; congr 1; omega

example : RecordData.byteSize ⟨true, true, true⟩ (.MX ⟨10, [[97]]⟩) = .ok 5 :=
  C36_right _ (.MX ⟨10, [[97]]⟩) [0, 10, 1, 97, 0] trivial (by decide +kernel) (by decide)

/-- C36: for every other type than SVCB `to_bytes()` does not panic. -/
theorem C36_written (cfg : Cfg) (r : RecordData) (hs : SetsOk r) (ht : r.type ≠ .SVCB) :
    ∃ b, r.toBytes cfg = .ok b := by
  cases r with
  | NSEC r => obtain ⟨b, h, _⟩ := Nsec.size cfg hs; exact ⟨b, h⟩
  | CSYNC r => obtain ⟨b, h, _⟩ := Csync.size cfg hs; exact ⟨b, h⟩
  | SVCB r => exact absurd rfl ht
  | _ => exact ⟨_, rfl⟩
example (cfg : Cfg) : ∃ b, RecordData.toBytes cfg (.NSEC ⟨[[97]], [.A, .MX]⟩) = .ok b :=
  C36_written cfg _ (show SetsOk (.NSEC ⟨[[97]], [.A, .MX]⟩) by simp [SetsOk]; decide) (by simp [RecordData.type])

/-- C36 is false for OPT, RRSIG, CAA, SVCB. -/
theorem C36_counterexamples :
    ∀ r ∈ ([.OPT ⟨[(10, [1, 2, 3, 4])]⟩, .RRSIG ⟨.A, .ED25519, 1, 5, 2, 1, 7, [[97]], [1, 2, 3]⟩,
      .CAA ⟨false, [105], [99, 97]⟩, .SVCB ⟨1, [[98]], [.port 443]⟩] : List RecordData),
      ∃ b, r.toBytes ⟨true, true, true⟩ = .ok b ∧ r.byteSize ⟨true, true, true⟩ ≠ .ok b.length := by
  intro r hr
  simp only [List.mem_cons, List.not_mem_nil, or_false] at hr
  rcases hr with rfl | rfl | rfl | rfl
  all_goals exact ⟨_, rfl, by decide +kernel⟩

/-- C36: a value with a set of types. -/
example : SetsOk (.NSEC ⟨[[97]], [.A, .MX, .CAA]⟩) ∧
    RecordData.byteSize ⟨true, true, true⟩ (.NSEC ⟨[[97]], [.A, .MX, .CAA]⟩) = .ok 10 := by
  refine ⟨by simp [SetsOk, typeNumber], by decide +kernel⟩

/-! ## C35 -/

/-- C35 (partial): a record is written as NAME, TYPE, CLASS, TTL, RDLENGTH, RDATA, and the field
RDLENGTH is the number of octets of the RDATA.  What is missing: the records with wrong sizes (see
`sizeError`), for which it is false. -/
theorem C35_rdlength_partial (cfg : Cfg) (r : ResourceRecord) (data : Bytes)
    (hd : r.rdata.toBytes cfg = .ok data) (hs : SetsOk r.rdata) (hz : sizeError r.rdata = 0) :
    r.toBytes cfg = .ok (r.name.toBytes ++ octets16 (UInt16.ofNat (typeNumber r.type)) ++
      octets16 (r.classBits cfg) ++ octets32 r.ttl ++ octets16 (UInt16.ofNat data.length) ++ data) := by
  obtain ⟨n, h1, h2⟩ := RecordData.size hs hd
  have : n = data.length := by omega
  subst this
  unfold ResourceRecord.toBytes
  rw [h1, hd]
  simp [bind, Res.bind, pure, u16be_eq, u32be_eq, lenU16, RecordType.toU16_eq]

example : SetsOk exRecord.rdata ∧ sizeError exRecord.rdata = 0 ∧
    exRecord.rdata.toBytes ⟨true, true, true⟩ = .ok [1, 2, 3, 4] := ⟨trivial, by decide, by decide +kernel⟩

/-- C35: in the compressed form the field is always right: the octets written end with the RDATA,
preceded by their number of octets. -/
theorem C35_rdlength_compressed (cfg : Cfg) (h : Hash) (r : ResourceRecord) (names names' : Names)
    (offset : Nat) (b : Bytes) (hb : r.toBytesCompressed cfg h names offset = .ok (b, names')) :
    ∃ head data names1, b = head ++ octets16 (UInt16.ofNat data.length) ++ data ∧
      head = (r.name.toBytesCompressed h names offset).1 ++ octets16 (UInt16.ofNat (typeNumber r.type)) ++
        octets16 (r.classBits cfg) ++ octets32 r.ttl ∧
      r.rdata.toBytesCompressed cfg h names1 (offset + head.length + 2) = .ok (data, names') := by
  unfold ResourceRecord.toBytesCompressed at hb
  simp only [Res.bind_ok] at hb
  obtain ⟨⟨data, n1⟩, h1, h2⟩ := hb
  simp only [pure, Res.ok.injEq, Prod.mk.injEq] at h2
  obtain ⟨rfl, rfl⟩ := h2
  refine ⟨(r.headCompressed cfg h names offset).1, data, _, by rw [u16be_eq, lenU16], ?_, h1⟩
  simp [ResourceRecord.headCompressed, u16be_eq, u32be_eq, RecordType.toU16_eq]

/-- C35: the same RRSIG in the compressed form: the field says 22. -/
example : ∃ names, ResourceRecord.toBytesCompressed ⟨true, true, true⟩ exHash
    ⟨[[97]], .RRSIG, false, .IN, 5, .RRSIG ⟨.A, .ED25519, 1, 5, 2, 1, 7, [[97]], [1]⟩⟩ Names.empty 12 =
      .ok ([1, 97, 0, 0, 46, 0, 1, 0, 0, 0, 5, 0, 22] ++ [0, 1, 15, 1, 0, 0, 0, 5, 0, 0, 0, 2, 0, 0, 0, 1, 0, 7,
        1, 97, 0, 1], names) := ⟨_, rfl⟩

/-- C35 is false in the uncompressed form for RRSIG (OPT, CAA, SVCB): the field says 21, 22 octets
follow. -/
theorem C35_counterexample : ∃ (r : ResourceRecord) (data : Bytes),
    r.rdata.toBytes ⟨true, true, true⟩ = .ok data ∧ data.length = 22 ∧
    r.toBytes ⟨true, true, true⟩ = .ok ([1, 97, 0, 0, 46, 0, 1, 0, 0, 0, 5, 0, 21] ++ data) :=
  ⟨⟨[[97]], .RRSIG, false, .IN, 5, .RRSIG ⟨.A, .ED25519, 1, 5, 2, 1, 7, [[97]], [9]⟩⟩,
    [0, 1, 15, 1, 0, 0, 0, 5, 0, 0, 0, 2, 0, 0, 0, 1, 0, 7, 1, 97, 0, 9], by decide +kernel, by decide, by decide +kernel⟩

example : exRecord.toBytes ⟨true, true, true⟩ =
    .ok [1, 97, 1, 98, 0, 0, 1, 0, 1, 0, 0, 1, 44, 0, 4, 1, 2, 3, 4] := by decide +kernel

/-! ## C34 -/

/-- C34: when a record is parsed, its fields NAME, TYPE, CLASS, TTL, RDLENGTH are at its start, and the
position afterwards is the start of the RDATA plus RDLENGTH, which is not behind the end. -/
theorem C34_record_extent (cfg : Cfg) (d : Bytes) (i j : Nat) (r : ResourceRecord)
    (h : ResourceRecord.parse cfg d i = (.ok r, j)) :
    ∃ k m : Nat, ∃ v len : UInt16, extractFqdn d i = (.ok r.name, m) ∧
      Octets d m (octets16 (UInt16.ofNat (typeNumber r.type)) ++ octets16 v ++ octets32 r.ttl ++
        octets16 len) k ∧
      j = k + len.toNat ∧ j ≤ d.length := by
  obtain ⟨_, _, v, len, k, _, ⟨m, h1, m2, h2, m3, h3, m4, h4, m5, h5, rfl⟩, h6, h7, _⟩ :=
    ResourceRecord.parse_ok.mp h
  refine ⟨_, m, v, len, h1, ?_, h6, h7⟩
  rw [octets_append, ]
  refine ⟨m4, ?_, h5⟩
  rw [octets_append]
  refine ⟨m3, ?_, h4⟩
  rw [octets_append]
  exact ⟨m2, h2, h3⟩

/-- C34: the data of the A record here are followed by two octets that belong to the RDATA. -/
example : (ResourceRecord.parse ⟨true, true, true⟩
    ([1, 97, 0, 0, 1, 0, 1, 0, 0, 1, 44, 0, 6, 1, 2, 3, 4, 9, 9, 7] : Bytes) 0).2 = 19 := by decide +kernel

/-! ## C33 -/

theorem Question.size (cfg : Cfg) (q : Question) : q.byteSize = (q.toBytes cfg).length := by
  simp [Question.byteSize, Question.toBytes, Fqdn.byteSize_eq, u16be_length]

/-- C33: the size of a question. -/
theorem C33_question_size (cfg : Cfg) (q : Question) : q.byteSize = (q.toBytes cfg).length := q.size cfg

/-- C33: the size of a record, with the error of the size of its data. -/
theorem C33_record_size_partial (cfg : Cfg) (r : ResourceRecord) (b : Bytes) (hs : SetsOk r.rdata)
    (hb : r.toBytes cfg = .ok b) :
    ∃ n, r.byteSize cfg = .ok n ∧ (n : Int) = b.length + sizeError r.rdata := by
  unfold ResourceRecord.toBytes at hb
  simp only [Res.bind_ok] at hb
  obtain ⟨size, h1, data, h2, h3⟩ := hb
  cases h3
  obtain ⟨n, h4, h5⟩ := RecordData.size hs h2
  rw [h1] at h4
  cases h4
  unfold ResourceRecord.byteSize
  rw [h1]
  refine ⟨_, rfl, ?_⟩
  simp only [List.length_append, u16be_length, u32be_length, Fqdn.byteSize_eq]
  push_cast
  omega

example : SetsOk exRecord.rdata ∧ exRecord.byteSize ⟨true, true, true⟩ = .ok 19 := ⟨trivial, by decide +kernel⟩

theorem recordsSize_eq {cfg : Cfg} : ∀ (rs : List ResourceRecord) (bin b : Bytes) (size : Nat),
    (∀ r ∈ rs, SetsOk r.rdata) → Packet.recordsBytes cfg rs bin = .ok b →
    ∃ n, Packet.recordsSize cfg rs size = .ok n ∧
      (n : Int) - size = b.length - bin.length + (rs.map (fun r => sizeError r.rdata)).sum := by
  intro rs
  induction rs with
  | nil => intro bin b size _ h; cases h; exact ⟨size, rfl, by simp⟩
  | cons r rs ih =>
    intro bin b size hs h
    rw [Packet.recordsBytes, Res.bind_ok] at h
    obtain ⟨a, h1, h⟩ := h
    obtain ⟨m, h2, h3⟩ := C33_record_size_partial cfg r a (hs r List.mem_cons_self) h1
    obtain ⟨n, h4, h5⟩ := ih (bin ++ a) b (size + m) (fun x hx => hs x (List.mem_cons_of_mem _ hx)) h
    refine ⟨n, ?_, ?_⟩
    · rw [Packet.recordsSize, h2]; exact h4
    · simp only [List.map_cons, List.sum_cons]
      rw [List.length_append] at h5
      push_cast at h5
      omega

theorem questionsSize_eq {cfg : Cfg} (qs : List Question) : ∀ (bin : Bytes) (size : Nat),
    qs.foldl (fun s q => s + q.byteSize) size + bin.length =
      (qs.foldl (fun bin q => bin ++ q.toBytes cfg) bin).length + size := by
  induction qs with
  | nil => intro bin size; simp [Nat.add_comm]
  | cons q qs ih =>
    intro bin size
    have := ih (bin ++ q.toBytes cfg) (size + q.byteSize)
    simp only [List.foldl_cons]
    rw [List.length_append, ← Question.size] at this
    omega

/-- C33 (partial): the size of a packet is the length of `to_bytes()` plus the errors of the sizes of
the data of its records; so it is right for packets without OPT, RRSIG, CAA, SVCB.  What is missing:
packets with such records (false, see the counterexample). -/
theorem C33_packet_size_partial (cfg : Cfg) (p : Packet) (b : Bytes)
    (hs : ∀ r ∈ records p, SetsOk r.rdata) (hb : p.toBytes cfg = .ok b) :
    ∃ n, p.byteSize cfg = .ok n ∧
      (n : Int) = b.length + ((records p).map (fun r => sizeError r.rdata)).sum := by
  unfold Packet.toBytes at hb
  simp only [Res.bind_ok] at hb
  obtain ⟨b1, h1, b2, h2, h3⟩ := hb
  have hq := questionsSize_eq (cfg := cfg) p.questions p.headerBytes Header.SIZE
  have hh : p.headerBytes.length = Header.SIZE := by
    rw [headerBytes_eq]; simp [headerItems, Items.octets, Item.octets, octets16, Header.SIZE]
  obtain ⟨n1, e1, f1⟩ := recordsSize_eq p.answers _ _ (p.questions.foldl (fun s q => s + q.byteSize) Header.SIZE)
    (fun r hr => hs r (by simp [records, hr])) h1
  obtain ⟨n2, e2, f2⟩ := recordsSize_eq p.authorities _ _ n1 (fun r hr => hs r (by simp [records, hr])) h2
  obtain ⟨n3, e3, f3⟩ := recordsSize_eq p.additional _ _ n2 (fun r hr => hs r (by simp [records, hr])) h3
  refine ⟨n3, ?_, ?_⟩
  · unfold Packet.byteSize
    simp only [e1, e2, e3, bind, Res.bind]
  · simp only [records, List.map_append, List.sum_append]
    omega

/-- C33 is false for a packet with an RRSIG record. -/
theorem C33_counterexample : ∃ (p : Packet) (b : Bytes), p.toBytes ⟨true, true, true⟩ = .ok b ∧
    p.byteSize ⟨true, true, true⟩ ≠ .ok b.length :=
  ⟨onePacket ⟨[[97]], .RRSIG, false, .IN, 5, .RRSIG ⟨.A, .ED25519, 1, 5, 2, 1, 7, [[97]], [9]⟩⟩,
    _, rfl, by decide +kernel⟩

/-- C33: the packet of the example. -/
example : (∀ r ∈ records exPacket, SetsOk r.rdata) ∧
    (exPacket.toBytes ⟨true, true, true⟩).bind (fun b => .ok b.length) = exPacket.byteSize ⟨true, true, true⟩ := by
  refine ⟨fun r hr => writable_sets (exPacket_ok.2.1 r hr).2.2.2.2.2.2.1, by decide +kernel⟩

/-! ## C19 -/

theorem rdata_compressed_le {cfg : Cfg} {h : Hash} {r : RecordData} {names names' : Names} {off : Nat}
    {b c : Bytes} (hn : ∀ n ∈ rdataNames r, ∀ l ∈ n, 1 ≤ l.length)
    (hb : r.toBytes cfg = .ok b) (hc : r.toBytesCompressed cfg h names off = .ok (c, names')) :
    c.length ≤ b.length := by
  have key := fun n hn names off => compressed_le h n names off hn
  cases r
  case NS r =>
    cases hb
    have := congrArg Prod.fst (Res.ok.inj hc)
    rw [← show _ = c from this]
    exact key _ (hn _ (by simp [rdataNames])) _ _
  case CNAME r =>
    cases hb
    have := congrArg Prod.fst (Res.ok.inj hc)
    rw [← show _ = c from this]
    exact key _ (hn _ (by simp [rdataNames])) _ _
  case PTR r =>
    cases hb
    have := congrArg Prod.fst (Res.ok.inj hc)
    rw [← show _ = c from this]
    exact key _ (hn _ (by simp [rdataNames])) _ _
  case MX r =>
    cases hb; cases hc
    have := key r.exchange (hn _ (by simp [rdataNames])) names (off + 2)
    simp only [Mx.toBytes, List.length_append]; omega
  case SRV r =>
    cases hb; cases hc
    have := key r.target (hn _ (by simp [rdataNames])) names (off + 6)
    simp only [Srv.toBytes, List.length_append]; omega
  case NAPTR r =>
    cases hb; cases hc
    have := key r.replacement (hn _ (by simp [rdataNames])) names (off + r.headBytes.length)
    simp only [Naptr.toBytes, List.length_append]; omega
  case SOA r =>
    cases hb; cases hc
    have h1 := key r.mname (hn _ (by simp [rdataNames])) names off
    have h2 := key r.rname (hn _ (by simp [rdataNames])) (r.mname.toBytesCompressed h names off).2
      (off + (r.mname.toBytesCompressed h names off).1.length)
    simp only [Soa.toBytes, List.length_append]; omega
  case MINFO r =>
    cases hb; cases hc
    have h1 := key r.rmailbx (hn _ (by simp [rdataNames])) names off
    have h2 := key r.emailbx (hn _ (by simp [rdataNames])) (r.rmailbx.toBytesCompressed h names off).2
      (off + (r.rmailbx.toBytesCompressed h names off).1.length)
    simp only [Minfo.toBytes, List.length_append]; omega
  case NSEC r =>
    have h1 := key r.nextDomainName (hn _ (by simp [rdataNames])) names off
    simp only [RecordData.toBytes, Nsec.toBytes, Res.bind_ok] at hb
    obtain ⟨_, _, x, h2, h3⟩ := hb
    cases h3
    simp only [RecordData.toBytesCompressed, Nsec.toBytesCompressed, Res.bind_ok] at hc
    obtain ⟨y, h4, h5⟩ := hc
    rw [h2] at h4
    cases h4; cases h5
    simp only [List.length_append]; omega
  case CSYNC r =>
    simp only [RecordData.toBytes] at hb
    simp only [RecordData.toBytesCompressed, hb, bind, Res.bind, pure] at hc
    cases hc; exact Nat.le_refl _
  case SVCB r =>
    simp only [RecordData.toBytes] at hb
    simp only [RecordData.toBytesCompressed, hb, bind, Res.bind, pure] at hc
    cases hc; exact Nat.le_refl _
  all_goals (cases hb; cases hc; exact Nat.le_refl _)

theorem record_compressed_le {cfg : Cfg} {h : Hash} {r : ResourceRecord} {names names' : Names} {off : Nat}
    {b c : Bytes} (hn : ∀ l ∈ r.name, 1 ≤ l.length) (hn2 : ∀ n ∈ rdataNames r.rdata, ∀ l ∈ n, 1 ≤ l.length)
    (hb : r.toBytes cfg = .ok b) (hc : r.toBytesCompressed cfg h names off = .ok (c, names')) :
    c.length ≤ b.length := by
  unfold ResourceRecord.toBytes at hb
  simp only [Res.bind_ok] at hb
  obtain ⟨size, _, data, h2, h3⟩ := hb
  cases h3
  unfold ResourceRecord.toBytesCompressed at hc
  simp only [Res.bind_ok] at hc
  obtain ⟨⟨data', n'⟩, h4, h5⟩ := hc
  cases h5
  have h6 := rdata_compressed_le hn2 h2 h4
  have h7 := compressed_le h r.name names off hn
  simp only [ResourceRecord.headCompressed, List.length_append, u16be_length, u32be_length]
  omega

theorem records_compressed_le {cfg : Cfg} {h : Hash} : ∀ (rs : List ResourceRecord) (names names' : Names)
    (bin bin' b c : Bytes), (∀ r ∈ rs, (∀ l ∈ r.name, 1 ≤ l.length) ∧
      ∀ n ∈ rdataNames r.rdata, ∀ l ∈ n, 1 ≤ l.length) → bin'.length ≤ bin.length →
    Packet.recordsBytes cfg rs bin = .ok b → Packet.recordsCompressed cfg h rs names bin' = .ok (c, names') →
    c.length ≤ b.length := by
  intro rs
  induction rs with
  | nil => intro names names' bin bin' b c _ hl hb hc; cases hb; cases hc; exact hl
  | cons r rs ih =>
    intro names names' bin bin' b c hn hl hb hc
    rw [Packet.recordsBytes, Res.bind_ok] at hb
    rw [Packet.recordsCompressed, Res.bind_ok] at hc
    obtain ⟨x, h1, hb⟩ := hb
    obtain ⟨⟨y, n1⟩, h2, hc⟩ := hc
    have := record_compressed_le (hn r List.mem_cons_self).1 (hn r List.mem_cons_self).2 h1 h2
    exact ih _ _ (bin ++ x) (bin' ++ y) b c (fun z hz => hn z (List.mem_cons_of_mem _ hz))
      (by simp only [List.length_append]; omega) hb hc

theorem questions_compressed_le {cfg : Cfg} {h : Hash} : ∀ (qs : List Question) (names : Names)
    (bin bin' : Bytes), (∀ q ∈ qs, ∀ l ∈ q.qName, 1 ≤ l.length) → bin'.length ≤ bin.length →
    (Packet.questionsCompressed cfg h qs names bin').1.length ≤
      (qs.foldl (fun bin q => bin ++ q.toBytes cfg) bin).length := by
  intro qs
  induction qs with
  | nil => intro names bin bin' _ hl; exact hl
  | cons q qs ih =>
    intro names bin bin' hn hl
    refine ih _ (bin ++ q.toBytes cfg) _ (fun z hz => hn z (List.mem_cons_of_mem _ hz)) ?_
    have := compressed_le h q.qName names bin'.length (hn q List.mem_cons_self)
    simp only [Question.toBytes, Question.toBytesCompressed, List.length_append]; omega

/-- C19: the message with compression is at most as long as the message without, for every packet
whose names have no empty labels and every hash function, even one with collisions. -/
theorem C19_compression_never_longer (cfg : Cfg) (h : Hash) (p : Packet) (b c : Bytes)
    (hn : ∀ n ∈ packetNames p, ∀ l ∈ n, l ≠ [])
    (hb : p.toBytes cfg = .ok b) (hc : p.toBytesCompressed cfg h = .ok c) : c.length ≤ b.length := by
  have hn' : ∀ n ∈ packetNames p, ∀ l ∈ n, 1 ≤ l.length :=
    fun n h1 l h2 => List.length_pos_of_ne_nil (hn n h1 l h2)
  have hr : ∀ r ∈ records p, (∀ l ∈ r.name, 1 ≤ l.length) ∧
      ∀ n ∈ rdataNames r.rdata, ∀ l ∈ n, 1 ≤ l.length := by
    intro r hr
    refine ⟨hn' _ ?_, fun n hm => hn' _ ?_⟩ <;>
      (simp only [packetNames, List.mem_append, List.mem_flatMap]; exact .inr ⟨r, hr, by simp [*]⟩)
  unfold Packet.toBytes at hb
  simp only [Res.bind_ok] at hb
  obtain ⟨b1, h1, b2, h2, h3⟩ := hb
  unfold Packet.toBytesCompressed at hc
  simp only [Res.bind_ok] at hc
  obtain ⟨⟨c1, n1⟩, g1, ⟨c2, n2⟩, g2, ⟨c3, n3⟩, g3, g4⟩ := hc
  cases g4
  have hq := questions_compressed_le (cfg := cfg) (h := h) p.questions Names.empty p.headerBytes p.header.toBytes
    (fun q hq => hn' _ (by simp only [packetNames, List.mem_append, List.mem_map]; exact .inl ⟨q, hq, rfl⟩))
    (by rw [headerBytes_eq, header_toBytes_eq]; simp [headerItems, Items.octets, Item.octets, octets16])
  exact records_compressed_le _ _ _ _ _ _ _ (fun r hm => hr r (by simp [records, hm]))
    (records_compressed_le _ _ _ _ _ _ _ (fun r hm => hr r (by simp [records, hm]))
      (records_compressed_le _ _ _ _ _ _ _ (fun r hm => hr r (by simp [records, hm])) hq h1 g1) h2 g2) h3 g3

/-- C19: the packet of the example gets shorter. -/
example : (∀ n ∈ packetNames exPacket, ∀ l ∈ n, l ≠ []) ∧
    ∃ b c, exPacket.toBytes ⟨true, true, true⟩ = .ok b ∧
      exPacket.toBytesCompressed ⟨true, true, true⟩ exHash = .ok c ∧ c.length < b.length :=
  ⟨by decide +kernel, _, _, rfl, rfl, by decide +kernel⟩

/-- C19: with an empty label the compressed form can be longer. -/
theorem C19_empty_label : ∃ (p : Packet) (b c : Bytes), p.toBytes ⟨true, true, true⟩ = .ok b ∧
    p.toBytesCompressed ⟨true, true, true⟩ exHash = .ok c ∧ b.length < c.length :=
  ⟨onePacket ⟨[[]], .A, false, .IN, 5, .A ⟨1⟩⟩, _, _, rfl, rfl, by decide +kernel⟩

end Dns
