import Verif.Model.Constructors
import Verif.Props.Stable
import Verif.Props.Counts
import Verif.Props.Accessors

/-
C80: what the getters of the receiver report about the header.
C82: packets built with the API arrive, in particular a reply to a request.
-/

namespace Dns
open Spec Buf

/-! ## C80 -/

/-- Everything the getters of a packet report about its header, except the counts. -/
structure Reported where
  id : UInt16
  queryResponse : Bool
  opcode : OpCode
  authoritativeAnswer : Bool
  truncation : Bool
  recursionDesired : Bool
  recursionAvailable : Bool
  responseCode : Res ResponseCode
  deriving DecidableEq

/-- What the getters of `Packet` return. -/
def Packet.reported (p : Packet) : Reported :=
  ⟨p.id, p.queryResponse, p.opcode, p.authoritativeAnswer, p.truncation, p.recursionDesired,
    p.recursionAvailable, p.responseCode⟩

theorem reported_congr {p q : Packet} (h1 : p.header.id = q.header.id) (h2 : p.header.flags = q.header.flags) :
    p.reported = q.reported := by
  simp only [Packet.reported, Packet.id, Packet.queryResponse, Packet.opcode, Packet.authoritativeAnswer,
    Packet.truncation, Packet.recursionDesired, Packet.recursionAvailable, Packet.responseCode,
    Header.queryResponse, Header.opcode, Header.authoritativeAnswer, Header.truncation,
    Header.recursionDesired, Header.recursionAvailable, Header.responseCode, h1, h2]

/-- The header of a packet that is read is given by the first octets. -/
theorem parsed_header {cfg : Cfg} {h : Header} {rest : Bytes} {q : Packet}
    (hq : Packet.parse cfg (h.toBytes ++ rest) = .ok q) : q.header = h := by
  have h1 := C20_header_round_trip h [] rest
  have h2 : Packet.parseBuf cfg (h.toBytes ++ rest) 0 = (.ok q, (Packet.parseBuf cfg (h.toBytes ++ rest) 0).2) :=
    Prod.ext hq rfl
  simp only [Packet.parseBuf, Parser.bind_ok] at h2
  obtain ⟨h', k, e1, qs, k1, -, an, k2, -, au, k3, -, ad, k4, -, e2⟩ := h2
  simp only [List.nil_append, List.length_nil] at h1
  rw [h1] at e1
  cases e1
  cases (Parser.pure_ok.mp e2).1
  rfl

theorem headerBytes_withCounts (p : Packet) : p.headerBytes = (withCounts p).header.toBytes := by
  rw [headerBytes_eq, header_toBytes_eq]

theorem questionsCompressed_prefix {cfg : Cfg} {hash : Hash} (qs : List Question) (names : Names) (bin : Bytes) :
    bin <+: (Packet.questionsCompressed cfg hash qs names bin).1 := by
  induction qs generalizing names bin with
  | nil => exact List.prefix_refl _
  | cons q qs ih => exact (List.prefix_append _ _).trans (ih _ _)

theorem recordsCompressed_prefix {cfg : Cfg} {hash : Hash} : ∀ (rs : List ResourceRecord) (names : Names)
    (bin : Bytes) (r : Bytes × Names), Packet.recordsCompressed cfg hash rs names bin = .ok r → bin <+: r.1 := by
  intro rs
  induction rs with
  | nil => intro names bin r h; cases h; exact List.prefix_refl _
  | cons x rs ih =>
    intro names bin r h
    rw [Packet.recordsCompressed, Res.bind_ok] at h
    obtain ⟨a, _, h⟩ := h
    exact (List.prefix_append _ _).trans (ih _ _ _ h)

theorem toBytesCompressed_prefix {cfg : Cfg} {hash : Hash} {p : Packet} {b : Bytes}
    (h : p.toBytesCompressed cfg hash = .ok b) : p.header.toBytes <+: b := by
  unfold Packet.toBytesCompressed at h
  simp only [Res.bind_ok] at h
  obtain ⟨b1, h1, b2, h2, b3, h3, e⟩ := h
  cases e
  exact (((questionsCompressed_prefix _ _ _).trans (recordsCompressed_prefix _ _ _ _ h1)).trans
    (recordsCompressed_prefix _ _ _ _ h2)).trans (recordsCompressed_prefix _ _ _ _ h3)

/-- C80: for every packet, whatever its sections contain: if what `to_bytes()` writes can be read at all
(whatever follows), the reader gets the same identification, flags, opcode and response code from the
getters, and the numbers of elements of the sections of the sender (modulo 65536) as counts. -/
theorem C80_header_arrives (cfg cfg' : Cfg) (p q : Packet) (b rest : Bytes) (h : p.toBytes cfg = .ok b)
    (hq : Packet.parse cfg' (b ++ rest) = .ok q) :
    q.reported = p.reported ∧ q.questions.length = p.questions.length % 65536 ∧
    q.answers.length = p.answers.length % 65536 ∧ q.authorities.length = p.authorities.length % 65536 ∧
    q.additional.length = p.additional.length % 65536 := by
  obtain ⟨e, rfl⟩ := toBytes_prefix h
  rw [headerBytes_withCounts, List.append_assoc] at hq
  have h1 := parsed_header hq
  obtain ⟨c1, c2, c3, c4⟩ := C29_parsed_counts _ _ _ hq
  rw [h1] at c1 c2 c3 c4
  refine ⟨reported_congr (by rw [h1]; rfl) (by rw [h1]; rfl), ?_, ?_, ?_, ?_⟩
  · rw [← c1]; simp [withCounts]
  · rw [← c2]; simp [withCounts]
  · rw [← c3]; simp [withCounts]
  · rw [← c4]; simp [withCounts]
example : ∃ b, exPacket.toBytes ⟨true, true, true⟩ = .ok b ∧ ∃ q, Packet.parse ⟨false, true, true⟩ (b ++ [7]) = .ok q ∧
    q.reported = exPacket.reported ∧ q.answers.length = 2 :=
  have h1 : exPacket.toBytes ⟨true, true, true⟩ = .ok _ := rfl
  have h2 : Packet.parse ⟨false, true, true⟩ (_ ++ [7]) = .ok exPacket := by decide +kernel
  ⟨_, h1, _, h2, (C80_header_arrives _ _ _ _ _ _ h1 h2).1, (C80_header_arrives _ _ _ _ _ _ h1 h2).2.2.1⟩

/-- C80: the same for `to_bytes_compressed()`, with the counts of the header of the sender. -/
theorem C80_header_arrives_compressed (cfg cfg' : Cfg) (hash : Hash) (p q : Packet) (b rest : Bytes)
    (h : p.toBytesCompressed cfg hash = .ok b) (hq : Packet.parse cfg' (b ++ rest) = .ok q) :
    q.reported = p.reported ∧ q.header = p.header := by
  obtain ⟨e, rfl⟩ := toBytesCompressed_prefix h
  rw [List.append_assoc] at hq
  have h1 := parsed_header hq
  exact ⟨reported_congr (by rw [h1]) (by rw [h1]), h1⟩

/-- C80: a packet with a CAA record, which `to_bytes()` does not write correctly, but which is read. -/
example : ∃ b q, (onePacket ⟨[[97]], .CAA, false, .IN, 5, .CAA ⟨false, [105], [99, 97]⟩⟩).toBytes
      ⟨true, true, true⟩ = .ok b ∧ Packet.parse ⟨true, true, true⟩ (b ++ [1, 2]) = .ok q ∧
    q.reported = ⟨1, true, .standardQuery, false, false, false, false, .ok .noError⟩ := by
  refine ⟨[0, 1, 0x80, 0, 0, 0, 0, 1, 0, 0, 0, 0, 1, 97, 0, 1, 1, 0, 1, 0, 0, 0, 5, 0, 4, 0, 1, 105, 99, 97],
    onePacket ⟨[[97]], .CAA, false, .IN, 5, .CAA ⟨false, [105], [99]⟩⟩, ?_⟩
  decide +kernel

/-! ## C82 -/

/-- The calls a program makes to fill a packet: adding to the sections, and setting flags and codes. -/
def PacketCall.Fills : PacketCall → Prop
  | .header _ | .addQuestion _ | .addAnswer _ | .addAuthority _ | .addAdditional _ => True
  | _ => False

/-- The questions added, in order. -/
def addedQuestions (cs : List PacketCall) : List Question :=
  cs.filterMap fun | .addQuestion q => some q | _ => none
/-- The answers added, in order. -/
def addedAnswers (cs : List PacketCall) : List ResourceRecord :=
  cs.filterMap fun | .addAnswer r => some r | _ => none
/-- The authorities added, in order. -/
def addedAuthorities (cs : List PacketCall) : List ResourceRecord :=
  cs.filterMap fun | .addAuthority r => some r | _ => none
/-- The additionals added, in order. -/
def addedAdditionals (cs : List PacketCall) : List ResourceRecord :=
  cs.filterMap fun | .addAdditional r => some r | _ => none
/-- The calls on the header, in order. -/
def headerCalls (cs : List PacketCall) : List HeaderCall :=
  cs.filterMap fun | .header c => some c | _ => none

/-- None of the sections gets more than 65535 elements. -/
def Fit (cs : List PacketCall) : Prop :=
  (addedQuestions cs).length < 65536 ∧ (addedAnswers cs).length < 65536 ∧
  (addedAuthorities cs).length < 65536 ∧ (addedAdditionals cs).length < 65536

/-- Questions and records added can be represented on the wire. -/
def AddsOk (cfg : Cfg) (cs : List PacketCall) : Prop :=
  (∀ q ∈ addedQuestions cs, QuestionOk cfg 191 q) ∧
  ∀ r ∈ addedAnswers cs ++ addedAuthorities cs ++ addedAdditionals cs, RecordOk cfg 191 r

theorem incr_fits {cfg : Cfg} {n : UInt16} (h : n.toNat + 1 < 65536) :
    ∃ m, Packet.incr cfg n = .ok m ∧ m.toNat = n.toNat + 1 := by
  unfold Packet.incr addU16
  rw [if_pos h]
  exact ⟨_, rfl, UInt16.toNat_ofNat_of_lt' (by simpa [UInt16.size] using h)⟩

theorem fill_returns {cfg : Cfg} : ∀ (cs : List PacketCall) (p : Packet), (∀ c ∈ cs, c.Fills) →
    p.header.quesCount.toNat + (addedQuestions cs).length < 65536 →
    p.header.ansCount.toNat + (addedAnswers cs).length < 65536 →
    p.header.authCount.toNat + (addedAuthorities cs).length < 65536 →
    p.header.addCount.toNat + (addedAdditionals cs).length < 65536 → ∃ q, History cfg p cs q := by
  intro cs
  induction cs with
  | nil => intro p _ _ _ _ _; exact ⟨p, .nil p⟩
  | cons c cs ih =>
    intro p hf h1 h2 h3 h4
    have hf' : ∀ c ∈ cs, c.Fills := fun c hc => hf c (List.mem_cons_of_mem _ hc)
    have step : ∃ q, c.run cfg p = .ok q ∧
        q.header.quesCount.toNat + (addedQuestions cs).length < 65536 ∧
        q.header.ansCount.toNat + (addedAnswers cs).length < 65536 ∧
        q.header.authCount.toNat + (addedAuthorities cs).length < 65536 ∧
        q.header.addCount.toNat + (addedAdditionals cs).length < 65536 := by
      have hc := hf c (List.mem_cons_self ..)
      cases c with
      | header c =>
        obtain ⟨e1, e2, e3, e4⟩ := c.counts p.header
        refine ⟨_, rfl, ?_, ?_, ?_, ?_⟩
        · show (c.run p.header).quesCount.toNat + _ < _; rw [e1]; exact h1
        · show (c.run p.header).ansCount.toNat + _ < _; rw [e2]; exact h2
        · show (c.run p.header).authCount.toNat + _ < _; rw [e3]; exact h3
        · show (c.run p.header).addCount.toNat + _ < _; rw [e4]; exact h4
      | addQuestion x =>
        simp only [addedQuestions, List.filterMap_cons, List.length_cons] at h1
        obtain ⟨m, e1, e2⟩ := incr_fits (cfg := cfg) (n := p.header.quesCount) (by omega)
        refine ⟨{ p with header := { p.header with quesCount := m }, questions := p.questions ++ [x] }, ?_, ?_, h2, h3, h4⟩
        · rw [PacketCall.run, Packet.addQuestion, e1]; rfl
        · show m.toNat + _ < _; rw [e2]; simp only [addedQuestions]; omega
      | addAnswer x =>
        simp only [addedAnswers, List.filterMap_cons, List.length_cons] at h2
        obtain ⟨m, e1, e2⟩ := incr_fits (cfg := cfg) (n := p.header.ansCount) (by omega)
        refine ⟨{ p with header := { p.header with ansCount := m }, answers := p.answers ++ [x] }, ?_, h1, ?_, h3, h4⟩
        · rw [PacketCall.run, Packet.addAnswer, e1]; rfl
        · show m.toNat + _ < _; rw [e2]; simp only [addedAnswers]; omega
      | addAuthority x =>
        simp only [addedAuthorities, List.filterMap_cons, List.length_cons] at h3
        obtain ⟨m, e1, e2⟩ := incr_fits (cfg := cfg) (n := p.header.authCount) (by omega)
        refine ⟨{ p with header := { p.header with authCount := m }, authorities := p.authorities ++ [x] }, ?_, h1, h2, ?_, h4⟩
        · rw [PacketCall.run, Packet.addAuthority, e1]; rfl
        · show m.toNat + _ < _; rw [e2]; simp only [addedAuthorities]; omega
      | addAdditional x =>
        simp only [addedAdditionals, List.filterMap_cons, List.length_cons] at h4
        obtain ⟨m, e1, e2⟩ := incr_fits (cfg := cfg) (n := p.header.addCount) (by omega)
        refine ⟨{ p with header := { p.header with addCount := m }, additional := p.additional ++ [x] }, ?_, h1, h2, h3, ?_⟩
        · rw [PacketCall.run, Packet.addAdditional, e1]; rfl
        · show m.toNat + _ < _; rw [e2]; simp only [addedAdditionals]; omega
      | _ => exact absurd hc (by simp [PacketCall.Fills])
    obtain ⟨q, e, a1, a2, a3, a4⟩ := step
    obtain ⟨r, hr⟩ := ih q hf' a1 a2 a3 a4
    exact ⟨r, .cons e hr⟩

theorem fill_sections : ∀ (cs : List PacketCall) (s : Sections), (∀ c ∈ cs, c.Fills) →
    cs.foldl PacketCall.onSections s = ⟨s.questions ++ addedQuestions cs, s.answers ++ addedAnswers cs,
      s.authorities ++ addedAuthorities cs, s.additionals ++ addedAdditionals cs⟩ := by
  intro cs
  induction cs with
  | nil => intro s _; simp [addedQuestions, addedAnswers, addedAuthorities, addedAdditionals]
  | cons c cs ih =>
    intro s hf
    have hc := hf c (List.mem_cons_self ..)
    rw [List.foldl_cons, ih _ (fun c hc => hf c (List.mem_cons_of_mem _ hc))]
    cases c <;> simp_all [PacketCall.Fills, PacketCall.onSections, addedQuestions, addedAnswers,
      addedAuthorities, addedAdditionals]

theorem fill_header : ∀ (cs : List PacketCall) (h : Header), (∀ c ∈ cs, c.Fills) →
    cs.foldl PacketCall.onHeader (h.id, h.flags) =
      (((headerCalls cs).foldl HeaderCall.run h).id, ((headerCalls cs).foldl HeaderCall.run h).flags) := by
  intro cs
  induction cs with
  | nil => intro h _; rfl
  | cons c cs ih =>
    intro h hf
    have hc := hf c (List.mem_cons_self ..)
    have hf' : ∀ c ∈ cs, c.Fills := fun c hc => hf c (List.mem_cons_of_mem _ hc)
    cases c with
    | header c =>
      rw [List.foldl_cons]
      have h1 : PacketCall.onHeader (h.id, h.flags) (.header c) = ((c.run h).id, (c.run h).flags) := by
        obtain ⟨id, fl, x1, x2, x3, x4⟩ := h
        exact (HeaderCall.run_counts c id fl x1 x2 x3 x4).symm
      rw [h1, ih (c.run h) hf']
      rfl
    | addQuestion x => exact ih h hf'
    | addAnswer x => exact ih h hf'
    | addAuthority x => exact ih h hf'
    | addAdditional x => exact ih h hf'
    | _ => exact absurd hc (by simp [PacketCall.Fills])

theorem fill_careful {cfg : Cfg} : ∀ (cs : List PacketCall) (p : Packet), (∀ c ∈ cs, c.Fills) →
    CarefulFrom cfg p cs := by
  intro cs
  induction cs with
  | nil => intro p _; trivial
  | cons c cs ih =>
    intro p hf
    refine ⟨?_, fun q _ => ih q (fun c hc => hf c (List.mem_cons_of_mem _ hc))⟩
    have hc := hf c (List.mem_cons_self ..)
    cases c <;> simp_all [PacketCall.Fills, PacketCall.Careful]

/-- Where a program starts: `new_query`, `new_reply` or `default`. -/
inductive FreshPacket : Packet → Prop
  | default : FreshPacket .default
  | newQuery (id : UInt16) (rd : Bool) : FreshPacket (.newQuery id rd)
  | newReply (id : UInt16) : FreshPacket (.newReply id)

/-- What arrives of a packet filled by the calls `cs`: the flags and codes set last, and the questions
and records added, in order. -/
def Arrived (p0 : Packet) (cs : List PacketCall) (c : Packet) : Prop :=
  c.reported = (p0.setHeader ((headerCalls cs).foldl HeaderCall.run p0.header)).reported ∧
  c.questions = addedQuestions cs ∧ c.answers = addedAnswers cs ∧ c.authorities = addedAuthorities cs ∧
  c.additional = addedAdditionals cs

theorem filled_any {cfg : Cfg} {p0 p : Packet} {cs : List PacketCall} (h0 : FreshPacket p0)
    (hf : ∀ c ∈ cs, c.Fills) (hfit : Fit cs) (h : History cfg p0 cs p) : CountsOk p ∧ Arrived p0 cs p := by
  have hs := C68_sections cfg p0 p cs h
  have hh := C68_header cfg p0 p cs h
  rw [fill_sections cs _ hf] at hs
  rw [fill_header cs _ hf] at hh
  have h00 : p0.sections = ⟨[], [], [], []⟩ := by cases h0 <;> rfl
  rw [h00] at hs
  simp only [Packet.sections, List.nil_append, Sections.mk.injEq] at hs
  obtain ⟨e1, e2, e3, e4⟩ := hs
  obtain ⟨f1, f2, f3, f4⟩ := hfit
  refine ⟨?_, ?_, e1, e2, e3, e4⟩
  · refine C25_counts_partial cfg p0 p cs ?_ ?_ h (fill_careful cs p0 hf) (by rw [e1]; exact f1)
      (by rw [e2]; exact f2) (by rw [e3]; exact f3) (by rw [e4]; exact f4)
    · cases h0 with
      | default => exact .default
      | newQuery id rd => exact .newQuery id rd
      | newReply id => exact .newReply id
    · intro id rd qs e
      cases h0 <;> exact (congrArg Packet.questions e).symm
  · simp only [Prod.mk.injEq] at hh
    exact reported_congr hh.1 hh.2

theorem filled {cfg : Cfg} {p0 p : Packet} {cs : List PacketCall} (h0 : FreshPacket p0)
    (hf : ∀ c ∈ cs, c.Fills) (hfit : Fit cs) (hok : AddsOk cfg cs) (h : History cfg p0 cs p) :
    PacketOk cfg 191 p ∧ CountsOk p ∧ Arrived p0 cs p := by
  obtain ⟨h1, h2, e1, e2, e3, e4⟩ := filled_any h0 hf hfit h
  obtain ⟨f1, f2, f3, f4⟩ := hfit
  refine ⟨⟨?_, ?_, ?_, ?_, ?_, ?_⟩, h1, h2, e1, e2, e3, e4⟩
  · rw [e1]; exact hok.1
  · rw [records, e2, e3, e4]; exact hok.2
  · rw [e1]; exact f1
  · rw [e2]; exact f2
  · rw [e3]; exact f3
  · rw [e4]; exact f4

/-- C82: filling a new packet by adding questions and records in any order and setting flags and codes
never fails, and what `to_bytes_compressed()` writes is read by the receiver as exactly that: the flags
and codes set last, and the questions and records in the order they were added.  Questions and records
have to be representable on the wire, and the message must not have more than 16384 octets.  What is
missing: SSHFP records (see C27). -/
theorem C82_compressed_arrives_partial (cfg : Cfg) (hash : Hash) (p0 : Packet) (cs : List PacketCall)
    (h0 : FreshPacket p0) (hf : ∀ c ∈ cs, c.Fills) (hfit : Fit cs) (hok : AddsOk cfg cs)
    (hs : ∀ r ∈ addedAnswers cs ++ addedAuthorities cs ++ addedAdditionals cs, r.rdata.type ≠ .SSHFP) :
    ∃ p, History cfg p0 cs p ∧ (NoCollision hash (packetNames p) →
      ∃ b, p.toBytesCompressed cfg hash = .ok b ∧
        (b.length ≤ 16384 → ∃ c, Packet.parse cfg b = .ok c ∧ Arrived p0 cs c)) := by
  obtain ⟨f1, f2, f3, f4⟩ := hfit
  have hz : p0.header.quesCount = 0 ∧ p0.header.ansCount = 0 ∧ p0.header.authCount = 0 ∧
      p0.header.addCount = 0 := by cases h0 <;> exact ⟨rfl, rfl, rfl, rfl⟩
  obtain ⟨p, hp⟩ := fill_returns (cfg := cfg) cs p0 hf (by rw [hz.1]; simpa using f1)
    (by rw [hz.2.1]; simpa using f2) (by rw [hz.2.2.1]; simpa using f3) (by rw [hz.2.2.2]; simpa using f4)
  obtain ⟨g1, g2, g3⟩ := filled h0 hf ⟨f1, f2, f3, f4⟩ hok hp
  refine ⟨p, hp, fun hh => ?_⟩
  obtain ⟨b, h1, h2⟩ := C28_compressed_round_trip_partial cfg hash p g1 g2
    (by rw [records, g3.2.2.1, g3.2.2.2.1, g3.2.2.2.2]; exact hs) hh
  refine ⟨b, h1, fun hl => ⟨p, ?_, g3⟩⟩
  have := (h2 hl []).1
  rwa [List.append_nil] at this

/-- C82: the same for `to_bytes()`, without limit for the length.  What is missing: SSHFP, OPT and RRSIG
records, CAA records and SVCB records with parameters (see C27). -/
theorem C82_plain_arrives_partial (cfg : Cfg) (p0 : Packet) (cs : List PacketCall)
    (h0 : FreshPacket p0) (hf : ∀ c ∈ cs, c.Fills) (hfit : Fit cs) (hok : AddsOk cfg cs)
    (hs : ∀ r ∈ addedAnswers cs ++ addedAuthorities cs ++ addedAdditionals cs,
      r.rdata.type ≠ .SSHFP ∧ sizeError r.rdata = 0) :
    ∃ p b c, History cfg p0 cs p ∧ p.toBytes cfg = .ok b ∧ Packet.parse cfg b = .ok c ∧ Arrived p0 cs c := by
  obtain ⟨f1, f2, f3, f4⟩ := hfit
  have hz : p0.header.quesCount = 0 ∧ p0.header.ansCount = 0 ∧ p0.header.authCount = 0 ∧
      p0.header.addCount = 0 := by cases h0 <;> exact ⟨rfl, rfl, rfl, rfl⟩
  obtain ⟨p, hp⟩ := fill_returns (cfg := cfg) cs p0 hf (by rw [hz.1]; simpa using f1)
    (by rw [hz.2.1]; simpa using f2) (by rw [hz.2.2.1]; simpa using f3) (by rw [hz.2.2.2]; simpa using f4)
  obtain ⟨g1, g2, g3⟩ := filled h0 hf ⟨f1, f2, f3, f4⟩ hok hp
  obtain ⟨b, h1, h2⟩ := C27_packet_round_trip_partial cfg p g1
    (by rw [records, g3.2.2.1, g3.2.2.2.1, g3.2.2.2.2]; exact hs)
  refine ⟨p, b, p, hp, h1, ?_, g3⟩
  have := (h2 []).1
  rwa [List.append_nil, C27_counts p g2] at this

/-- The questions of a packet that has been read can be written. -/
theorem parsed_questions {cfg : Cfg} {d : Bytes} {p : Packet} (h : Packet.parse cfg d = .ok p) :
    ∀ q ∈ p.questions, QuestionOk cfg 191 q := by
  obtain ⟨e, h1, h2, h3, h4, i1, i2, i3, i4, _, hq, ha, hu, hd⟩ := Packet.parse_ok.mp h
  intro q hm
  obtain ⟨a, b, h5, v, ⟨_, h6⟩, h7⟩ := listAt_mem hq hm
  refine ⟨name_mem h7 (by simp), h5, ?_⟩
  intro h8
  rw [h6] at h8
  exact (Bool.and_eq_true_iff.mp h8).1

/-- A server: read the request, start a reply with its identification, repeat its questions and add
the answers. -/
def replyCalls (request : Packet) (answers : List ResourceRecord) : List PacketCall :=
  request.questions.map .addQuestion ++ answers.map .addAnswer

theorem replyCalls_added (q : Packet) (ans : List ResourceRecord) :
    (∀ c ∈ replyCalls q ans, c.Fills) ∧ addedQuestions (replyCalls q ans) = q.questions ∧
    addedAnswers (replyCalls q ans) = ans ∧ addedAuthorities (replyCalls q ans) = [] ∧
    addedAdditionals (replyCalls q ans) = [] ∧ headerCalls (replyCalls q ans) = [] := by
  refine ⟨?_, ?_, ?_, ?_, ?_, ?_⟩
  · intro c hc
    simp only [replyCalls, List.mem_append, List.mem_map] at hc
    rcases hc with ⟨x, _, rfl⟩ | ⟨x, _, rfl⟩ <;> trivial
  all_goals simp [replyCalls, addedQuestions, addedAnswers, addedAuthorities, addedAdditionals,
    headerCalls, List.filterMap_map]

/-- C82: for every octet string a server can read as a request, and every list of less than 65536 answers
that can be represented, the reply is built and written, and the client reads: the identification of
the request, a response, the opcode of a standard query, no error, the questions of the request and the
answers. -/
theorem C82_reply_partial (cfg : Cfg) (request : Bytes) (q : Packet) (hq : Packet.parse cfg request = .ok q)
    (ans : List ResourceRecord) (hl : ans.length < 65536) (hr : ∀ r ∈ ans, RecordOk cfg 191 r)
    (hs : ∀ r ∈ ans, r.rdata.type ≠ .SSHFP ∧ sizeError r.rdata = 0) :
    ∃ p b c, History cfg (.newReply q.id) (replyCalls q ans) p ∧ p.toBytes cfg = .ok b ∧
      Packet.parse cfg b = .ok c ∧
      c.reported = ⟨q.id, true, .standardQuery, false, false, false, false, .ok .noError⟩ ∧
      c.questions = q.questions ∧ c.answers = ans ∧ c.authorities = [] ∧ c.additional = [] := by
  obtain ⟨a0, a1, a2, a3, a4, a5⟩ := replyCalls_added q ans
  have hc := C29_parsed_counts cfg request q hq
  have := q.header.quesCount.toNat_lt
  obtain ⟨p, b, c, h1, h2, h3, h4, h5⟩ := C82_plain_arrives_partial cfg (.newReply q.id) (replyCalls q ans)
    (.newReply _) a0 ⟨by rw [a1]; omega, by rw [a2]; exact hl, by rw [a3]; simp, by rw [a4]; simp⟩
    ⟨by rw [a1]; exact parsed_questions hq, by rw [a2, a3, a4]; simpa using hr⟩
    (by rw [a2, a3, a4]; simpa using hs)
  rw [a1, a2, a3, a4] at h5
  rw [a5] at h4
  have h6 : (Packet.newReply q.id).reported =
      ⟨q.id, true, .standardQuery, false, false, false, false, .ok .noError⟩ := by
    have h7 : (Packet.newReply 0).reported =
      ⟨0, true, .standardQuery, false, false, false, false, .ok .noError⟩ := by decide +kernel
    have h8 : (Packet.newReply q.id).reported = { (Packet.newReply 0).reported with id := q.id } := by
      simp only [Packet.reported, Packet.newReply, Packet.id, Packet.queryResponse, Packet.opcode,
        Packet.authoritativeAnswer, Packet.truncation, Packet.recursionDesired, Packet.recursionAvailable,
        Packet.responseCode, Header.newReply, Header.queryResponse, Header.opcode,
        Header.authoritativeAnswer, Header.truncation, Header.recursionDesired, Header.recursionAvailable,
        Header.responseCode]
    rw [h8, h7]
  exact ⟨p, b, c, h1, h2, h3, h4.trans h6, h5⟩

/-- C82: the calls of a program that meets the hypotheses. -/
def exFill : List PacketCall :=
  [.addAnswer exRecord, .header (.setAuthoritativeAnswer true), .addQuestion exQuestion,
   .header (.setResponseCode .nameError), .header (.setAuthoritativeAnswer false),
   .addAdditional ⟨[[98]], .MX, false, .IN, 5, .MX ⟨10, [[109], [97], [98]]⟩⟩,
   .addAnswer ⟨[[97], [98]], .CNAME, false, .IN, 5, .CNAME ⟨[[99], [98]]⟩⟩]

theorem exFill_ok : (∀ c ∈ exFill, c.Fills) ∧ Fit exFill ∧ AddsOk ⟨true, true, true⟩ exFill ∧
    ∀ r ∈ addedAnswers exFill ++ addedAuthorities exFill ++ addedAdditionals exFill,
      r.rdata.type ≠ .SSHFP ∧ sizeError r.rdata = 0 := by
  refine ⟨?_, by unfold Fit; decide, ⟨?_, ?_⟩, by decide⟩
  · simp only [exFill, List.forall_mem_cons]
    exact ⟨trivial, trivial, trivial, trivial, trivial, trivial, trivial, by simp⟩
  · simp only [exFill, addedQuestions, List.filterMap, exQuestion, List.mem_singleton, forall_eq]
    exact ⟨by decide, by simp [QReadable, Readable], by decide⟩
  · simp only [exFill, addedAnswers, addedAuthorities, addedAdditionals, List.filterMap, exRecord,
      List.cons_append, List.nil_append, List.forall_mem_cons]
    refine ⟨⟨by decide, by simp [Readable], rfl, trivial, by decide, by decide, trivial, ?_⟩,
      ⟨by decide, by simp [Readable], rfl, trivial, by decide, by decide, by simp only [Writable]; decide, ?_⟩,
      ⟨by decide, by simp [Readable], rfl, trivial, by decide, by decide, by simp only [Writable]; decide, ?_⟩,
      by simp⟩ <;> (intro b h; cases h; decide)

/-- C82: the packet arrives with the flags set last; the four sections are in the order of the calls. -/
example : ∃ p b c, History ⟨true, true, true⟩ (.newReply 77) exFill p ∧ p.toBytes ⟨true, true, true⟩ = .ok b ∧
    Packet.parse ⟨true, true, true⟩ b = .ok c ∧ Arrived (.newReply 77) exFill c :=
  C82_plain_arrives_partial _ _ _ (.newReply 77) exFill_ok.1 exFill_ok.2.1 exFill_ok.2.2.1 exFill_ok.2.2.2

example (c : Packet) (h : Arrived (.newReply 77) exFill c) :
    c.reported = ⟨77, true, .standardQuery, false, false, false, false, .ok .nameError⟩ ∧
    c.answers.map (·.type) = [.A, .CNAME] := by
  obtain ⟨h1, -, h3, -, -⟩ := h
  rw [h1, h3]
  decide +kernel

/-- C82: a request that is read and answered. -/
example : (Packet.parse ⟨true, true, true⟩
    [0, 7, 1, 0, 0, 1, 0, 0, 0, 0, 0, 0, 1, 97, 1, 98, 0, 0, 1, 0, 1]).bind (fun q => .ok (q.id, q.questions)) =
      .ok (7, [exQuestion]) ∧ RecordOk ⟨true, true, true⟩ 191 exRecord := by
  refine ⟨by decide +kernel, by decide, by simp [exRecord, Readable], rfl, trivial, by decide, by decide, trivial, ?_⟩
  intro b h; cases h; decide

end Dns
