import Verif.Props.PacketWire
import Verif.Props.Header

/-! C25: the counts of the header after any history of calls on a packet. -/

namespace Dns
open Spec Buf

/-- The calls of the API that change a packet (src/packet.rs:92-239).  `questionsMut qs`: the caller
gets a mutable reference to the vector and leaves `qs` in it. -/
inductive PacketCall where
  | setId (id : UInt16)
  | header (c : HeaderCall)
  | setHeader (h : Header)
  | questionsMut (qs : List Question)
  | takeQuestions | addQuestion (q : Question) | setQuestions (qs : List Question)
  | takeAnswers | addAnswer (r : ResourceRecord) | setAnswers (rs : List ResourceRecord)
  | takeAuthorities | addAuthority (r : ResourceRecord) | setAuthorities (rs : List ResourceRecord)
  | takeAdditionals | addAdditional (r : ResourceRecord) | setAdditionals (rs : List ResourceRecord)

def PacketCall.run (cfg : Cfg) (p : Packet) : PacketCall → Res Packet
  | .setId id => .ok (p.setId id)
  | .header c => .ok { p with header := c.run p.header }
  | .setHeader h => .ok (p.setHeader h)
  | .questionsMut qs => .ok (p.questionsMut qs)
  | .takeQuestions => .ok p.takeQuestions.1
  | .addQuestion q => p.addQuestion cfg q
  | .setQuestions qs => .ok (p.setQuestions qs)
  | .takeAnswers => .ok p.takeAnswers.1
  | .addAnswer r => p.addAnswer cfg r
  | .setAnswers rs => .ok (p.setAnswers rs)
  | .takeAuthorities => .ok p.takeAuthorities.1
  | .addAuthority r => p.addAuthority cfg r
  | .setAuthorities rs => .ok (p.setAuthorities rs)
  | .takeAdditionals => .ok p.takeAdditionals.1
  | .addAdditional r => p.addAdditional cfg r
  | .setAdditionals rs => .ok (p.setAdditionals rs)

/-- Packets to start with. -/
inductive PacketStart (cfg : Cfg) : Packet → Prop
  | default : PacketStart cfg .default
  | newQuery (id : UInt16) (rd : Bool) : PacketStart cfg (.newQuery id rd)
  | newReply (id : UInt16) : PacketStart cfg (.newReply id)
  | withQuestions (id : UInt16) (rd : Bool) (qs : List Question) : PacketStart cfg (.withQuestions id rd qs)
  | parsed (d : Bytes) (p : Packet) (h : Packet.parse cfg d = .ok p) : PacketStart cfg p

/-- A history of calls that all return. -/
inductive History (cfg : Cfg) : Packet → List PacketCall → Packet → Prop
  | nil (p : Packet) : History cfg p [] p
  | cons {p q r : Packet} {c : PacketCall} {cs : List PacketCall} (h : c.run cfg p = .ok q)
      (hs : History cfg q cs r) : History cfg p (c :: cs) r

/-- The counts are the numbers of elements modulo 65536 (they are 16-bit numbers). -/
def CountsMod (p : Packet) : Prop :=
  p.header.quesCount = UInt16.ofNat p.questions.length ∧ p.header.ansCount = UInt16.ofNat p.answers.length ∧
  p.header.authCount = UInt16.ofNat p.authorities.length ∧ p.header.addCount = UInt16.ofNat p.additional.length

/-- The calls that keep the counts right in a packet: `take_authorities` only if there are no answers
and authorities; the vector of questions keeps its length if changed through `questions_mut`; a header
set has right counts. -/
def PacketCall.Careful (p : Packet) : PacketCall → Prop
  | .takeAuthorities => p.answers.length = 0 ∧ p.authorities.length = 0
  | .questionsMut qs => qs.length = p.questions.length
  | .setHeader h => CountsMod (p.setHeader h)
  | _ => True

/-- All calls of the history are careful in the packet they are applied to. -/
def CarefulFrom (cfg : Cfg) : Packet → List PacketCall → Prop
  | _, [] => True
  | p, c :: cs => c.Careful p ∧ ∀ q, c.run cfg p = .ok q → CarefulFrom cfg q cs

theorem HeaderCall.counts (h : Header) (c : HeaderCall) :
    (c.run h).quesCount = h.quesCount ∧ (c.run h).ansCount = h.ansCount ∧
    (c.run h).authCount = h.authCount ∧ (c.run h).addCount = h.addCount := by
  cases c with
  | setQueryResponse v => cases v <;> exact ⟨rfl, rfl, rfl, rfl⟩
  | setResponseCode c => cases c <;> exact ⟨rfl, rfl, rfl, rfl⟩
  | setRecursionAvailable v => cases v <;> exact ⟨rfl, rfl, rfl, rfl⟩
  | _ => exact ⟨rfl, rfl, rfl, rfl⟩

theorem Packet.incr_ok {cfg : Cfg} {n : Nat} {c : UInt16} (h : Packet.incr cfg (UInt16.ofNat n) = .ok c) :
    c = UInt16.ofNat (n + 1) := by
  unfold Packet.incr addU16 at h
  apply UInt16.toNat_inj.mp
  split at h
  · cases h
    simp only [UInt16.toNat_ofNat'] at *
    omega
  · split at h
    · cases h
    · cases h
      simp only [UInt16.toNat_ofNat'] at *
      omega

theorem PacketCall.counts {cfg : Cfg} {p q : Packet} {c : PacketCall} (hp : CountsMod p) (hc : c.Careful p)
    (h : c.run cfg p = .ok q) : CountsMod q := by
  obtain ⟨h1, h2, h3, h4⟩ := hp
  cases c with
  | setHeader h => cases h; exact hc
  | header c =>
    cases h
    obtain ⟨e1, e2, e3, e4⟩ := HeaderCall.counts p.header c
    exact ⟨e1.trans h1, e2.trans h2, e3.trans h3, e4.trans h4⟩
  | questionsMut qs => cases h; exact ⟨h1.trans (by rw [← hc]; rfl), h2, h3, h4⟩
  | takeAuthorities =>
    cases h
    obtain ⟨e1, e2⟩ := hc
    exact ⟨h1, by simp [Packet.takeAuthorities, e1], by simp [Packet.takeAuthorities, h3, e2], h4⟩
  | addQuestion x =>
    simp only [PacketCall.run, Packet.addQuestion, Res.bind_ok] at h
    obtain ⟨n, e1, e2⟩ := h
    cases e2; rw [h1] at e1
    exact ⟨by simp [Packet.incr_ok e1], h2, h3, h4⟩
  | addAnswer x =>
    simp only [PacketCall.run, Packet.addAnswer, Res.bind_ok] at h
    obtain ⟨n, e1, e2⟩ := h
    cases e2; rw [h2] at e1
    exact ⟨h1, by simp [Packet.incr_ok e1], h3, h4⟩
  | addAuthority x =>
    simp only [PacketCall.run, Packet.addAuthority, Res.bind_ok] at h
    obtain ⟨n, e1, e2⟩ := h
    cases e2; rw [h3] at e1
    exact ⟨h1, h2, by simp [Packet.incr_ok e1], h4⟩
  | addAdditional x =>
    simp only [PacketCall.run, Packet.addAdditional, Res.bind_ok] at h
    obtain ⟨n, e1, e2⟩ := h
    cases e2; rw [h4] at e1
    exact ⟨h1, h2, h3, by simp [Packet.incr_ok e1]⟩
  | setId id => cases h; exact ⟨h1, h2, h3, h4⟩
  | takeQuestions => cases h; exact ⟨rfl, h2, h3, h4⟩
  | setQuestions qs => cases h; exact ⟨rfl, h2, h3, h4⟩
  | takeAnswers => cases h; exact ⟨h1, rfl, h3, h4⟩
  | setAnswers rs => cases h; exact ⟨h1, rfl, h3, h4⟩
  | setAuthorities rs => cases h; exact ⟨h1, h2, rfl, h4⟩
  | takeAdditionals => cases h; exact ⟨h1, h2, h3, rfl⟩
  | setAdditionals rs => cases h; exact ⟨h1, h2, h3, rfl⟩

theorem History.counts {cfg : Cfg} {p q : Packet} {cs : List PacketCall} (h : History cfg p cs q)
    (hp : CountsMod p) (hc : CarefulFrom cfg p cs) : CountsMod q := by
  induction h with
  | nil => exact hp
  | cons h hs ih => exact ih (PacketCall.counts hp hc.1 h) (hc.2 _ h)

theorem countsMod_iff {p : Packet} (h1 : p.questions.length < 65536) (h2 : p.answers.length < 65536)
    (h3 : p.authorities.length < 65536) (h4 : p.additional.length < 65536) : CountsMod p ↔ CountsOk p := by
  have key : ∀ (c : UInt16) (n : Nat), n < 65536 → (c = UInt16.ofNat n ↔ c.toNat = n) := by
    intro c n hn
    rw [← UInt16.toNat_inj, UInt16.toNat_ofNat_of_lt' (by simpa [UInt16.size] using hn)]
  unfold CountsMod CountsOk
  rw [key _ _ h1, key _ _ h2, key _ _ h3, key _ _ h4]

theorem packetStart_counts {cfg : Cfg} {p : Packet} (h : PacketStart cfg p)
    (hq : ∀ id rd qs, p = .withQuestions id rd qs → qs = []) : CountsMod p := by
  cases h with
  | default => exact ⟨rfl, rfl, rfl, rfl⟩
  | newQuery id rd => exact ⟨rfl, rfl, rfl, rfl⟩
  | newReply id => exact ⟨rfl, rfl, rfl, rfl⟩
  | withQuestions id rd qs => rw [hq id rd qs rfl]; exact ⟨rfl, rfl, rfl, rfl⟩
  | parsed d p h =>
    obtain ⟨h1, h2, h3, h4⟩ := C29_parsed_counts cfg d p h
    refine ⟨?_, ?_, ?_, ?_⟩ <;> (apply UInt16.toNat_inj.mp)
    · rw [← h1]; simp
    · rw [← h2]; simp
    · rw [← h3]; simp
    · rw [← h4]; simp

/-- C25 (partial): after any history of calls, started from `default`, `new_query`, `new_reply`,
`with_questions` without questions or a parsed packet, the counts are the numbers of elements of the
sections (if these fit into 16 bits).  What is missing: the calls that are not careful
(`take_authorities`, `questions_mut`, `set_header`) and `with_questions` with questions; for these it is
false, see `C25_careless` and `C25_with_questions_counterexample`. -/
theorem C25_counts_partial (cfg : Cfg) (p q : Packet) (cs : List PacketCall) (hp : PacketStart cfg p)
    (hq : ∀ id rd qs, p = .withQuestions id rd qs → qs = []) (h : History cfg p cs q)
    (hc : CarefulFrom cfg p cs)
    (h1 : q.questions.length < 65536) (h2 : q.answers.length < 65536)
    (h3 : q.authorities.length < 65536) (h4 : q.additional.length < 65536) : CountsOk q :=
  (countsMod_iff h1 h2 h3 h4).mp (h.counts (packetStart_counts hp hq) hc)
example (cfg : Cfg) (id : UInt16) (q : Question) : CountsOk (.setQuestions (.newReply id) [q]) :=
  C25_counts_partial cfg (.newReply id) _ [.setQuestions [q]] (.newReply id) (by simp [Packet.newReply, Packet.withQuestions])
    (.cons rfl (.nil _)) ⟨trivial, fun _ _ => trivial⟩ (by simp [Packet.setQuestions]) (by simp [Packet.setQuestions, Packet.newReply])
    (by simp [Packet.setQuestions, Packet.newReply]) (by simp [Packet.setQuestions, Packet.newReply])

/-- C25: without the restriction to sections of less than 65536 elements, the counts are right modulo
65536.  (Only builds without overflow checks get there by adding elements.) -/
theorem C25_counts_mod (cfg : Cfg) (p q : Packet) (cs : List PacketCall) (hp : PacketStart cfg p)
    (hq : ∀ id rd qs, p = .withQuestions id rd qs → qs = []) (h : History cfg p cs q)
    (hc : CarefulFrom cfg p cs) :
    q.header.quesCount.toNat = q.questions.length % 65536 ∧
    q.header.ansCount.toNat = q.answers.length % 65536 ∧
    q.header.authCount.toNat = q.authorities.length % 65536 ∧
    q.header.addCount.toNat = q.additional.length % 65536 := by
  obtain ⟨h1, h2, h3, h4⟩ := h.counts (packetStart_counts hp hq) hc
  rw [h1, h2, h3, h4]
  simp

/-- C25: the calls that are not careful always break the counts (in packets whose sections have less
than 65536 elements), so the restriction in the theorem is the weakest possible. -/
theorem C25_careless (cfg : Cfg) (p q : Packet) (c : PacketCall) (hp : CountsOk p) (hc : ¬ c.Careful p)
    (h : c.run cfg p = .ok q) (h1 : q.questions.length < 65536) (h2 : p.answers.length < 65536)
    (h3 : p.authorities.length < 65536) (h4 : p.additional.length < 65536) : ¬ CountsOk q := by
  obtain ⟨e1, e2, e3, e4⟩ := hp
  intro hq
  cases c with
  | takeAuthorities =>
    cases h
    obtain ⟨f1, f2, f3, f4⟩ := hq
    simp only [Packet.takeAuthorities, List.length_nil] at f2 f3
    apply hc
    refine ⟨?_, by omega⟩
    rw [← f2]; rfl
  | questionsMut qs =>
    cases h
    obtain ⟨f1, f2, f3, f4⟩ := hq
    apply hc
    simp only [Packet.questionsMut] at f1
    show qs.length = _
    omega
  | setHeader h =>
    cases h
    exact hc ((countsMod_iff h1 h2 h3 h4).mpr hq)
  | _ => exact hc trivial

/-- C25: a call that is not careful does exist in every packet that has answers. -/
theorem C25_take_authorities_counterexample : ∃ (p q : Packet) (cs : List PacketCall),
    PacketStart ⟨true, true, true⟩ p ∧ History ⟨true, true, true⟩ p cs q ∧ ¬ CountsOk q :=
  ⟨.newReply 1, _, [.addAnswer exRecord, .takeAuthorities], .newReply 1,
    .cons rfl (.cons rfl (.nil _)), by rintro ⟨_, h, _⟩; revert h; decide +kernel⟩

/-- C25 is false for `with_questions`: the count of the questions is 0. -/
theorem C25_with_questions_counterexample (id : UInt16) (rd : Bool) (q : Question) (qs : List Question) :
    ¬ CountsOk (.withQuestions id rd (q :: qs)) := by
  rintro ⟨h, _⟩
  simp [Packet.withQuestions, Header.newQuery] at h

/-- C25 is false for `questions_mut` and `set_header`. -/
theorem C25_mut_counterexamples : ∀ c ∈ [PacketCall.questionsMut [exQuestion], .setHeader (.newReply 5 .standardQuery)],
    ∃ q, History ⟨true, true, true⟩ exPacket [c] q ∧ ¬ CountsOk q ∨
      History ⟨true, true, true⟩ .default [c] q ∧ ¬ CountsOk q := by
  intro c hc
  simp only [List.mem_cons, List.not_mem_nil, or_false] at hc
  rcases hc with rfl | rfl
  · exact ⟨_, .inr ⟨.cons rfl (.nil _), by rintro ⟨h, _⟩; revert h; decide +kernel⟩⟩
  · exact ⟨_, .inl ⟨.cons rfl (.nil _), by rintro ⟨h, _⟩; revert h; decide +kernel⟩⟩

/-- C25: a history of careful calls, with additions, replacement and `take_authorities`. -/
example : ∃ q, History ⟨true, true, true⟩ (.newReply 1)
    [.takeAuthorities, .addAnswer exRecord, .addAnswer exRecord, .setAdditionals [exRecord],
      .addAuthority exRecord, .header (.setRecursionAvailable true), .takeAdditionals, .addQuestion exQuestion] q ∧
    q.header.ansCount = 2 ∧ q.answers.length = 2 ∧ q.header.authCount = 1 ∧ q.header.addCount = 0 ∧
    CarefulFrom ⟨true, true, true⟩ (.newReply 1) [.takeAuthorities, .addAnswer exRecord] := by
  refine ⟨_, .cons rfl (.cons rfl (.cons rfl (.cons rfl (.cons rfl (.cons rfl (.cons rfl (.cons rfl (.nil _)))))))),
    rfl, rfl, rfl, rfl, ⟨⟨rfl, rfl⟩, fun q _ => ⟨trivial, fun _ _ => trivial⟩⟩⟩

/-- C25: adding to a section of 65535 elements panics in a build with overflow checks; in a build
without, the count becomes 0 although there are 65536 elements. -/
theorem C25_overflow_counterexample (p : Packet) (r : ResourceRecord) (h : p.header.ansCount = 65535)
    (hl : p.answers.length = 65535) (mdns dnssec : Bool) :
    p.addAnswer ⟨true, mdns, dnssec⟩ r = .panic .overflow ∧
    ∃ q, p.addAnswer ⟨false, mdns, dnssec⟩ r = .ok q ∧ q.header.ansCount = 0 ∧ q.answers.length = 65536 := by
  unfold Packet.addAnswer
  rw [h]
  exact ⟨rfl, _, rfl, rfl, by simp [hl]⟩
example (rs : List ResourceRecord) (hl : rs.length = 65535) (r : ResourceRecord) :
    (Packet.setAnswers .default rs).addAnswer ⟨true, true, true⟩ r = .panic .overflow :=
  (C25_overflow_counterexample (.setAnswers .default rs) r (by show lenU16 rs.length = _; rw [hl]; decide) hl true true).1

end Dns
