import Verif.Spec.Default
import Verif.Props.Represented
import Verif.Props.Write
import Verif.Props.RData

/-
C139: default values.
-/

namespace Dns
open Spec Buf

/-- The default data have an encoding, but for CAA, whose tag must not be empty. -/
theorem defaultData_cases {d : RecordData} (h : d ∈ defaultData) :
    SetsOk d ∧ ¬ LongSvcb d ∧ d.type ≠ .SSHFP ∧ (∀ s, d ≠ .SVCB s) ∧
      (∀ cfg, Readable cfg d.type ∧ (Writable cfg 191 d ↔ d.type ≠ .CAA) ∧
        ∀ b, d.toBytes cfg = .ok b → b.length < 65536) := by
  simp only [defaultData, List.mem_cons, List.not_mem_nil, or_false] at h
  have e : IsUtf8 [] := ⟨[], rfl⟩
  rcases h with rfl | rfl | rfl | rfl | rfl | rfl | rfl | rfl | rfl | rfl | rfl | rfl
  all_goals
    refine ⟨by simp [SetsOk, Csync.default], by simp [LongSvcb], by decide, by simp, fun cfg => ⟨?_, ?_, ?_⟩⟩
    · simp [Readable, RecordData.type, dnssecTypes]
    · simp [Writable, RecordData.type, NameOk, TypesOk, e, Fqdn.default, Opt.default, Caa.default, Soa.default, Naptr.default,
        Csync.default, Cname.default, Srv.default]
    · intro b hb
      obtain ⟨x, y, z⟩ := cfg
      cases x <;> cases y <;> cases z <;> (cases hb; decide)

theorem defaultRecord_ok {cfg : Cfg} {r : ResourceRecord} (h : DefaultRecord cfg r) :
    RecordOk cfg 191 r ↔ r.type ≠ .CAA := by
  obtain ⟨h1, h2, h3, h4, h5, h6⟩ := h
  have h7 := (defaultData_cases h1).2.2.2.2 cfg
  rw [h2]
  refine ⟨fun h => h7.2.1.mp h.2.2.2.2.2.2.1, fun h => ⟨h3, ?_, h2.symm, h4, h5, h6, h7.2.1.mpr h, h7.2.2⟩⟩
  rw [h2]; exact h7.1

/-- C139: a record with default data is written, and read back from the octets, wherever they are, if and only if it is
no OPT and no CAA record. -/
theorem C139_record_exact (cfg : Cfg) (r : ResourceRecord) (hr : DefaultRecord cfg r) :
    ∃ b, r.toBytes cfg = .ok b ∧ (b.length < 65536 → ∀ pre post,
      ResourceRecord.parse cfg (pre ++ b ++ post) pre.length = (.ok r, pre.length + b.length) ↔
        r.type ≠ .OPT ∧ r.type ≠ .CAA) := by
  have hc := defaultData_cases hr.1
  obtain ⟨b, hb⟩ : ∃ b, r.toBytes cfg = .ok b := by
    have := hr.1
    simp only [defaultData, List.mem_cons, List.not_mem_nil, or_false] at this
    obtain ⟨n, t, f, c, ttl, d⟩ := r
    rcases this with h | h | h | h | h | h | h | h | h | h | h | h <;> (simp only at h; subst h; exact ⟨_, rfl⟩)
  refine ⟨b, hb, fun hl pre post => ?_⟩
  rw [C27_any_record_exact cfg r b pre post hb hl, defaultRecord_ok hr, hr.2.1]
  have h3 : r.rdata.type ≠ .RRSIG := by
    have := hr.1
    simp only [defaultData, List.mem_cons, List.not_mem_nil, or_false] at this
    rcases this with h | h | h | h | h | h | h | h | h | h | h | h <;> (rw [h]; decide)
  simp only [List.mem_cons, List.not_mem_nil, or_false, not_or]
  exact ⟨fun h => ⟨h.2.1.2.1, h.1⟩, fun h => ⟨h.2, ⟨hc.2.2.1, h.1, h3, h.2⟩, fun s hs => absurd hs (hc.2.2.2.1 s)⟩⟩

/-- C139 (partial): a record with default data arrives.  What is missing: OPT and CAA, for which it is false (see
`C139_record_exact`). -/
theorem C139_arrives_partial (cfg : Cfg) (r : ResourceRecord) (hr : DefaultRecord cfg r) (h1 : r.type ≠ .OPT)
    (h2 : r.type ≠ .CAA) : ∃ b, r.toBytes cfg = .ok b ∧ (b.length < 65536 → ∀ pre post,
      ResourceRecord.parse cfg (pre ++ b ++ post) pre.length = (.ok r, pre.length + b.length)) := by
  obtain ⟨b, h3, h4⟩ := C139_record_exact cfg r hr
  exact ⟨b, h3, fun hl pre post => (h4 hl pre post).mpr ⟨h1, h2⟩⟩

/-- C139: a packet of questions and records with default data, with right counts, is written with compression, and read
back, whatever follows, if and only if it has no CAA record. -/
theorem C139_packet_exact (cfg : Cfg) (hash : Hash) (p : Packet) (hq : ∀ q ∈ p.questions, QuestionOk cfg 191 q)
    (hr : ∀ r ∈ records p, DefaultRecord cfg r) (hc : CountsOk p) (hh : NoCollision hash (packetNames p))
    (hn : p.questions.length < 65536 ∧ p.answers.length < 65536 ∧ p.authorities.length < 65536 ∧
      p.additional.length < 65536) :
    ∃ b, p.toBytesCompressed cfg hash = .ok b ∧ (b.length ≤ 16384 → ∀ rest,
      Packet.parse cfg (b ++ rest) = .ok p ↔ ∀ r ∈ records p, r.type ≠ .CAA) := by
  obtain ⟨b, hb⟩ := (C66_written_partial cfg hash p (fun r h => (defaultData_cases (hr r h).1).1)
    fun r h => (defaultData_cases (hr r h).1).2.1).2
  refine ⟨b, hb, fun hl rest => ?_⟩
  rw [C28_any_packet_exact cfg hash p hh b rest hb hl]
  constructor
  · exact fun h r h' => (defaultRecord_ok (hr r h')).mp (h.1.2.1 r h')
  · exact fun h => ⟨⟨hq, fun r h' => (defaultRecord_ok (hr r h')).mpr (h r h'), hn⟩, hc, fun r h' => (defaultData_cases (hr r h').1).2.2.1⟩

/-- C139: the default CAA data are written and refused by the reader, in all builds. -/
theorem C139_counterexample (cfg : Cfg) : ∃ b, RecordData.toBytes cfg (.CAA .default) = .ok b ∧
    (RecordData.parse cfg .CAA b 0).1 = .err .invalidPacketData := by
  obtain ⟨x, y, z⟩ := cfg
  refine ⟨_, rfl, ?_⟩
  cases x <;> cases y <;> cases z <;> decide

/-- C139: a default name is the root, a default header and packet are those of 12 octets 0, and read from them. -/
theorem C139_empty (cfg : Cfg) (hash : Hash) :
    Fqdn.isRoot .default = true ∧ Fqdn.toBytes .default = [0] ∧
      Packet.toBytes cfg .default = .ok (List.replicate 12 0) ∧
      Packet.toBytesCompressed cfg hash .default = .ok (List.replicate 12 0) ∧
      ∀ rest, Packet.parse cfg (List.replicate 12 0 ++ rest) = .ok .default := by
  refine ⟨by decide, by decide, rfl, rfl, fun rest => ?_⟩
  obtain ⟨b, h1, h2⟩ := C27_packet_round_trip_partial cfg .default
    ⟨by simp [Packet.default], by simp [records, Packet.default], by decide, by decide, by decide, by decide⟩
    (by simp [records, Packet.default])
  obtain rfl : List.replicate 12 0 = b := Res.ok.inj h1
  exact (h2 rest).1

/-- C139: the default data other than CAA are written as the RFCs prescribe, but for CSYNC: an empty set of types is
written as a block without types. -/
theorem C139_rfc_exact (cfg : Cfg) (d : RecordData) (h : d ∈ defaultData) (hc : d.type ≠ .CAA) :
    (∃ its, RDataStrict cfg d its ∧ d.toBytes cfg = .ok (Items.octets its)) ↔ d.type ≠ .CSYNC := by
  rw [C38_write_exact cfg 191 d (((defaultData_cases h).2.2.2.2 cfg).2.1.mpr hc)]
  simp only [defaultData, List.mem_cons, List.not_mem_nil, or_false] at h
  rcases h with rfl | rfl | rfl | rfl | rfl | rfl | rfl | rfl | rfl | rfl | rfl | rfl
  all_goals simp [WrittenWell, RecordData.type, Csync.default]

/-- C139: a location with default data, with its octets, and a packet with it and default options. -/
example : ∃ b, ResourceRecord.toBytes ⟨true, true, true⟩ ⟨[[97]], .LOC, true, .IN, 60, .LOC .default⟩ = .ok b ∧
    ResourceRecord.parse ⟨true, true, true⟩ b 0 = (.ok ⟨[[97]], .LOC, true, .IN, 60, .LOC .default⟩, b.length) := by
  obtain ⟨b, h1, h2⟩ := C139_record_exact ⟨true, true, true⟩ ⟨[[97]], .LOC, true, .IN, 60, .LOC .default⟩
    ⟨by simp [defaultData], rfl, by decide, trivial, by decide, fun _ => rfl⟩
  refine ⟨b, h1, ?_⟩
  have := (h2 (by cases h1; decide) [] []).mpr (by decide)
  simpa using this

example : ∃ b, Packet.toBytesCompressed ⟨true, true, true⟩ exHash
      ⟨⟨1, ⟨0x80, 0⟩, 0, 1, 0, 1⟩, [], [⟨[[97]], .SRV, false, .IN, 60, .SRV .default⟩], [],
        [⟨[], .OPT, false, .IN, 0, .OPT .default⟩]⟩ = .ok b ∧
    Packet.parse ⟨true, true, true⟩ b = .ok ⟨⟨1, ⟨0x80, 0⟩, 0, 1, 0, 1⟩, [],
      [⟨[[97]], .SRV, false, .IN, 60, .SRV .default⟩], [], [⟨[], .OPT, false, .IN, 0, .OPT .default⟩]⟩ :=
  ⟨_, rfl, by decide +kernel⟩

end Dns
