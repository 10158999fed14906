import Verif.Props.Built
import Verif.Props.NameText

/-!
C124: the example of the README (README.md:21-49), for all names, types and classes: a query is made of texts, written
and read, and the names of its questions are printed.
-/

namespace Dns
open Spec

/-- What a program asks for: the text of a name, a type and a class. -/
structure Asked where
  text : Bytes
  qtype : QType
  qclass : QClass
  deriving DecidableEq

/-- `query.add_question(Question::new(FQDN::new(text), qtype, qclass))` for each of them, in order. -/
def askCalls (asked : List Asked) : List PacketCall :=
  asked.map fun a => .addQuestion (Question.new (Fqdn.new a.text) a.qtype a.qclass)

/-- What the receiver prints of a question: `name().to_string()`, its type and its class. -/
def shown (q : Question) : Asked := ⟨q.qName.display, q.qType, q.qClass⟩

/-- A text of pieces of 1 to 191 octets without dots, with single dots between them; or nothing at all. -/
def PlainText (t : Bytes) : Prop :=
  ∃ pieces : List Bytes, t = [0x2E].intercalate pieces ∧
    ∀ p ∈ pieces, (0x2E : UInt8) ∉ p ∧ 1 ≤ p.length ∧ p.length ≤ 191

theorem splitDots_ne (s : Bytes) : splitDots s ≠ [] := by
  cases s with
  | nil => simp [splitDots]
  | cons c cs =>
    rw [splitDots]
    split
    · simp
    · split <;> simp

theorem splitDots_dot : ∀ (a b : Bytes), splitDots (a ++ 0x2E :: b) = splitDots a ++ splitDots b := by
  intro a b
  induction a with
  | nil => simp [splitDots]
  | cons c cs ih =>
    rw [List.cons_append, splitDots, splitDots]
    by_cases hc : c = 0x2E
    · rw [if_pos hc, if_pos hc, ih]; rfl
    · rw [if_neg hc, if_neg hc, ih]
      have : splitDots cs ≠ [] := splitDots_ne cs
      cases h : splitDots cs with
      | nil => exact absurd h this
      | cons s ss => rfl

theorem splitDots_le : ∀ (a : Bytes), ∀ l ∈ splitDots a, l.length ≤ a.length := by
  intro a
  induction a with
  | nil => intro l hl; simp [splitDots] at hl; simp [hl]
  | cons c cs ih =>
    intro l hl
    rw [splitDots] at hl
    split at hl
    · rcases List.mem_cons.mp hl with rfl | hl
      · simp
      · have := ih l hl; simp only [List.length_cons]; omega
    · cases h : splitDots cs with
      | nil => rw [h] at hl; simp at hl; simp [hl]
      | cons s ss =>
        rw [h] at hl ih
        rcases List.mem_cons.mp hl with rfl | hl
        · have := ih s List.mem_cons_self; simp only [List.length_cons]; omega
        · have := ih l (List.mem_cons_of_mem _ hl); simp only [List.length_cons]; omega

/-- The labels of a printed name are not longer than those of the name. -/
theorem reread_le {k : Nat} : ∀ (n : Fqdn), (∀ l ∈ n, l.length ≤ k) → ∀ l ∈ splitDots n.display, l.length ≤ k := by
  intro n
  induction n with
  | nil => intro _ l hl; simp [Fqdn.display, splitDots] at hl; simp [hl]
  | cons x xs ih =>
    intro h l hl
    have hx := h x List.mem_cons_self
    cases xs with
    | nil => exact Nat.le_trans (splitDots_le x l hl) hx
    | cons y ys =>
      rw [Fqdn.display, splitDots_dot, List.mem_append] at hl
      · rcases hl with hl | hl
        · exact Nat.le_trans (splitDots_le x l hl) hx
        · exact ih (fun m hm => h m (List.mem_cons_of_mem _ hm)) l hl
      · simp

theorem new_display_ok {n : Fqdn} (h : NameOk 191 n) : NameOk 191 (Fqdn.new n.display) := by
  intro l hl
  refine ⟨List.length_pos_iff.mpr (C15_new_no_dots _ l hl).1, ?_⟩
  rw [Fqdn.new, List.mem_filter] at hl
  exact reread_le n (fun m hm => (h m hm).2) l hl.1

theorem plainText_iff (t : Bytes) : PlainText t ↔ NameOk 191 (Fqdn.new t) ∧ (Fqdn.new t).display = t := by
  constructor
  · rintro ⟨pieces, rfl, h⟩
    have e : Fqdn.new ([0x2E].intercalate pieces) = pieces := by
      rw [← C15_display pieces]
      exact C15_new_display pieces fun l hl => ⟨List.length_pos_iff.mp (h l hl).2.1, (h l hl).1⟩
    rw [e]
    exact ⟨fun l hl => (h l hl).2, C15_display pieces⟩
  · rintro ⟨h1, h2⟩
    exact ⟨Fqdn.new t, by rw [← C15_display]; exact h2.symm, fun l hl => ⟨(C15_new_no_dots t l hl).2, h1 l hl⟩⟩

theorem question_parsed {cfg : Cfg} {d : Bytes} {p : Packet} (h : Packet.parse cfg d = .ok p) {q : Question}
    (hm : q ∈ p.questions) : NameOk 191 q.qName ∧ QReadable cfg q.qType := by
  obtain ⟨e, _, _, _, _, i1, i2, i3, i4, _, hq, _⟩ := Packet.parse_ok.mp h
  obtain ⟨a, b, h5, v, _, h7⟩ := listAt_mem hq hm
  exact ⟨name_mem h7 (by simp), h5⟩

theorem ask_added (asked : List Asked) :
    addedQuestions (askCalls asked) = asked.map (fun a => Question.new (Fqdn.new a.text) a.qtype a.qclass) ∧
    addedAnswers (askCalls asked) = [] ∧ addedAuthorities (askCalls asked) = [] ∧
    addedAdditionals (askCalls asked) = [] ∧ ∀ c ∈ askCalls asked, c.Fills := by
  unfold askCalls addedQuestions addedAnswers addedAuthorities addedAdditionals
  refine ⟨?_, ?_, ?_, ?_, ?_⟩
  · rw [List.filterMap_map, ← List.filterMap_eq_map]; rfl
  · rw [List.filterMap_map, List.filterMap_eq_nil_iff]; intro a _; rfl
  · rw [List.filterMap_map, List.filterMap_eq_nil_iff]; intro a _; rfl
  · rw [List.filterMap_map, List.filterMap_eq_nil_iff]; intro a _; rfl
  · intro c hc
    obtain ⟨a, _, rfl⟩ := List.mem_map.mp hc
    trivial

theorem ask_fit {asked : List Asked} (hl : asked.length < 65536) : Fit (askCalls asked) := by
  obtain ⟨h1, h2, h3, h4, _⟩ := ask_added asked
  refine ⟨?_, ?_, ?_, ?_⟩
  · rw [h1, List.length_map]; exact hl
  · rw [h2]; decide
  · rw [h3]; decide
  · rw [h4]; decide

/-- What was asked is representable if what is read and printed is what was asked. -/
theorem ask_shown {cfg : Cfg} {asked : List Asked} {d : Bytes} {c : Packet} (h : Packet.parse cfg d = .ok c)
    (hs : c.questions.map shown = asked) : AddsOk cfg (askCalls asked) := by
  obtain ⟨h1, h2, h3, h4, _⟩ := ask_added asked
  refine ⟨?_, by rw [h2, h3, h4]; simp⟩
  rw [h1]
  intro q hq
  obtain ⟨a, ha, rfl⟩ := List.mem_map.mp hq
  rw [← hs] at ha
  obtain ⟨q', hq', rfl⟩ := List.mem_map.mp ha
  obtain ⟨k1, k2⟩ := question_parsed h hq'
  exact ⟨new_display_ok k1, k2, fun h => by cases h⟩

theorem ask_plain {cfg : Cfg} {asked : List Asked} (h : ∀ a ∈ asked, PlainText a.text ∧ QReadable cfg a.qtype) :
    AddsOk cfg (askCalls asked) := by
  obtain ⟨h1, h2, h3, h4, _⟩ := ask_added asked
  refine ⟨?_, by rw [h2, h3, h4]; simp⟩
  rw [h1]
  intro q hq
  obtain ⟨a, ha, rfl⟩ := List.mem_map.mp hq
  exact ⟨((plainText_iff _).mp (h a ha).1).1, (h a ha).2, fun h => by cases h⟩

/-- When the message is read as the packet that was built, what is printed is what was asked exactly if the texts are
plain. -/
theorem ask_exact {cfg : Cfg} {asked : List Asked} {p : Packet} {d : Bytes}
    (hq : p.questions = asked.map (fun a => Question.new (Fqdn.new a.text) a.qtype a.qclass))
    (hp : AddsOk cfg (askCalls asked) → Packet.parse cfg d = .ok p) :
    (∃ c, Packet.parse cfg d = .ok c ∧ c.questions.map shown = asked) ↔
      ∀ a ∈ asked, PlainText a.text ∧ QReadable cfg a.qtype := by
  constructor
  · rintro ⟨c, hc, hs⟩ a ha
    have hok := ask_shown hc hs
    have e : c = p := Res.ok.inj (hc.symm.trans (hp hok))
    subst e
    have hm : Question.new (Fqdn.new a.text) a.qtype a.qclass ∈ c.questions := by
      rw [hq]; exact List.mem_map.mpr ⟨a, ha, rfl⟩
    obtain ⟨k1, k2⟩ := question_parsed hc hm
    refine ⟨(plainText_iff _).mpr ⟨k1, ?_⟩, k2⟩
    rw [hq, List.map_map] at hs
    have := List.map_inj_left.mp (hs.trans (List.map_id _).symm) a ha
    exact congrArg Asked.text this
  · intro h
    refine ⟨p, hp (ask_plain h), ?_⟩
    rw [hq, List.map_map]
    refine Eq.trans (List.map_congr_left (g := id) fun a ha => ?_) (List.map_id _)
    have := ((plainText_iff _).mp (h a ha).1).2
    cases a
    exact congrArg (fun t => Asked.mk t _ _) this

/-- C124: less than 65536 questions can be added to a new packet. -/
theorem C124_asked (cfg : Cfg) (p0 : Packet) (h0 : FreshPacket p0) (asked : List Asked) (hl : asked.length < 65536) :
    ∃ p, History cfg p0 (askCalls asked) p := by
  obtain ⟨h1, h2, h3, h4, hf⟩ := ask_added asked
  have hz : p0.header.quesCount = 0 ∧ p0.header.ansCount = 0 ∧ p0.header.authCount = 0 ∧
      p0.header.addCount = 0 := by cases h0 <;> exact ⟨rfl, rfl, rfl, rfl⟩
  exact fill_returns _ p0 hf (by rw [hz.1, h1]; simpa using hl) (by rw [hz.2.1, h2]; decide)
    (by rw [hz.2.2.1, h3]; decide) (by rw [hz.2.2.2, h4]; decide)
example (cfg : Cfg) : ∃ p, History cfg (.newQuery 1 true) (askCalls [⟨[97], .rr .A, .IN⟩]) p :=
  C124_asked cfg _ (.newQuery 1 true) _ (by decide)

/-- C124, exactly, for `to_bytes()`: the query is written, and the receiver reads and prints what was asked, whatever
follows the message, if and only if all texts are plain and all types can be read. -/
theorem C124_plain_exact (cfg : Cfg) (p0 p : Packet) (h0 : FreshPacket p0) (asked : List Asked)
    (hl : asked.length < 65536) (h : History cfg p0 (askCalls asked) p) :
    ∃ b, p.toBytes cfg = .ok b ∧ ∀ rest,
      ((∃ c, Packet.parse cfg (b ++ rest) = .ok c ∧ c.questions.map shown = asked) ↔
        ∀ a ∈ asked, PlainText a.text ∧ QReadable cfg a.qtype) := by
  obtain ⟨h1, h2, h3, h4, hf⟩ := ask_added asked
  obtain ⟨k1, k2⟩ := filled_any h0 hf (ask_fit hl) h
  obtain ⟨_, e1, e2, e3, e4⟩ := k2
  rw [h1] at e1
  rw [h2] at e2
  rw [h3] at e3
  rw [h4] at e4
  have hb : ∃ b, p.toBytes cfg = .ok b := by
    rw [Packet.toBytes, e2, e3, e4]
    exact ⟨_, rfl⟩
  obtain ⟨b, hb⟩ := hb
  refine ⟨b, hb, fun rest => ask_exact e1 fun hok => ?_⟩
  have hp := (filled h0 hf (ask_fit hl) hok h).1
  have hr : records p = [] := by rw [records, e2, e3, e4]; rfl
  have := (C27_packet_exact cfg p hp (by rw [hr]; simp) b rest hb).mpr (by rw [hr]; simp)
  rwa [C27_counts p k1] at this

/-- C124, exactly, for `to_bytes_compressed()` and messages of at most 16384 octets. -/
theorem C124_compressed_exact (cfg : Cfg) (hash : Hash) (p0 p : Packet) (h0 : FreshPacket p0) (asked : List Asked)
    (hl : asked.length < 65536) (h : History cfg p0 (askCalls asked) p) (hh : NoCollision hash (packetNames p)) :
    ∃ b, p.toBytesCompressed cfg hash = .ok b ∧ (b.length ≤ 16384 → ∀ rest,
      ((∃ c, Packet.parse cfg (b ++ rest) = .ok c ∧ c.questions.map shown = asked) ↔
        ∀ a ∈ asked, PlainText a.text ∧ QReadable cfg a.qtype)) := by
  obtain ⟨h1, h2, h3, h4, hf⟩ := ask_added asked
  obtain ⟨k1, k2⟩ := filled_any h0 hf (ask_fit hl) h
  obtain ⟨_, e1, e2, e3, e4⟩ := k2
  rw [h1] at e1
  rw [h2] at e2
  rw [h3] at e3
  rw [h4] at e4
  have hb : ∃ b, p.toBytesCompressed cfg hash = .ok b := by
    rw [Packet.toBytesCompressed, e2, e3, e4]
    exact ⟨_, rfl⟩
  obtain ⟨b, hb⟩ := hb
  refine ⟨b, hb, fun hle rest => ask_exact e1 fun hok => ?_⟩
  have hp := (filled h0 hf (ask_fit hl) hok h).1
  have hr : records p = [] := by rw [records, e2, e3, e4]; rfl
  exact (C28_packet_exact cfg hash p hp k1 hh b rest hb hle).mpr (by rw [hr]; simp)

/-- C124: any text with pieces of at most 191 octets is printed without the empty pieces: without a final dot, without
dots at the beginning, and with single dots between the others. -/
theorem C124_normal_form (pieces : List Bytes) (h : pieces ≠ []) (hp : ∀ p ∈ pieces, (0x2E : UInt8) ∉ p ∧ p.length ≤ 191)
    (t : QType) (c : QClass) :
    NameOk 191 (Fqdn.new ([0x2E].intercalate pieces)) ∧
    shown (Question.new (Fqdn.new ([0x2E].intercalate pieces)) t c) =
      ⟨[0x2E].intercalate (pieces.filter (fun p => p ≠ [])), t, c⟩ := by
  have e := C15_new_labels pieces h fun p hm => (hp p hm).1
  rw [e]
  refine ⟨fun l hl => ?_, ?_⟩
  · obtain ⟨h1, h2⟩ := List.mem_filter.mp hl
    exact ⟨List.length_pos_iff.mpr (by simpa using h2), (hp l h1).2⟩
  · rw [shown, Question.new]
    dsimp only
    rw [C15_display]
example (t : QType) (c : QClass) := C124_normal_form [[97], [], [98]] (by decide) (by decide) t c

/-- C124, false of a text with a final dot, as absolute names are written: it is printed without. -/
theorem C124_counterexample : ∃ p b, History ⟨true, true, true⟩ .default (askCalls [⟨[97, 46], .rr .TXT, .IN⟩]) p ∧
    p.toBytes ⟨true, true, true⟩ = .ok b ∧
    ∃ c, Packet.parse ⟨true, true, true⟩ b = .ok c ∧ c.questions.map shown = [⟨[97], .rr .TXT, .IN⟩] := by
  refine ⟨⟨⟨0, ⟨0, 0⟩, 1, 0, 0, 0⟩, [⟨[[97]], .rr .TXT, .IN, false⟩], [], [], []⟩,
    [0, 0, 0, 0, 0, 1, 0, 0, 0, 0, 0, 0, 1, 97, 0, 0, 16, 0, 1], ?_, by decide +kernel,
    ⟨⟨0, ⟨0, 0⟩, 1, 0, 0, 0⟩, [⟨[[97]], .rr .TXT, .IN, false⟩], [], [], []⟩, by decide +kernel, by decide⟩
  exact .cons (q := ⟨⟨0, ⟨0, 0⟩, 1, 0, 0, 0⟩, [⟨[[97]], .rr .TXT, .IN, false⟩], [], [], []⟩) (by decide) (.nil _)

/-- C124: the texts of the README meet the hypotheses. -/
example : FreshPacket .default ∧
    (∀ a ∈ ([⟨"_srv._udp.local".toUTF8.toList, .rr .TXT, .IN⟩, ⟨"_srv2._udp.local".toUTF8.toList, .rr .TXT, .IN⟩] : List Asked),
      PlainText a.text ∧ QReadable ⟨true, true, true⟩ a.qtype) := by
  refine ⟨.default, fun a ha => ?_⟩
  have h1 : NameOk 191 (Fqdn.new "_srv._udp.local".toUTF8.toList) ∧
    (Fqdn.new "_srv._udp.local".toUTF8.toList).display = "_srv._udp.local".toUTF8.toList := by decide +kernel
  have h2 : NameOk 191 (Fqdn.new "_srv2._udp.local".toUTF8.toList) ∧
    (Fqdn.new "_srv2._udp.local".toUTF8.toList).display = "_srv2._udp.local".toUTF8.toList := by decide +kernel
  simp only [List.mem_cons, List.not_mem_nil, or_false] at ha
  rcases ha with rfl | rfl
  · exact ⟨(plainText_iff _).mpr h1, by simp [QReadable, Readable, dnssecTypes]⟩
  · exact ⟨(plainText_iff _).mpr h2, by simp [QReadable, Readable, dnssecTypes]⟩

end Dns
