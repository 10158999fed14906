import Verif.Props.Exchange

/-! C80: the first four octets of messages that are made with `new_query`, `new_reply`, `with_questions` and `default`. -/

namespace Dns
open Spec Buf

theorem written_take4 {cfg : Cfg} {hash : Hash} {p : Packet} {b : Bytes}
    (hb : p.toBytes cfg = .ok b ∨ p.toBytesCompressed cfg hash = .ok b) :
    b.take 4 = octets16 p.header.id ++ [p.header.flags.hi, p.header.flags.lo] := by
  rcases hb with h | h
  · obtain ⟨e, rfl⟩ := toBytes_prefix h
    rw [headerBytes_withCounts]
    simp [Header.toBytes, withCounts, u16be_eq, octets16]
  · obtain ⟨e, rfl⟩ := toBytesCompressed_prefix h
    simp [Header.toBytes, u16be_eq, octets16]

theorem filled_take4 {cfg : Cfg} {hash : Hash} {p0 p : Packet} {cs : List PacketCall} {b : Bytes}
    (hf : ∀ c ∈ cs, c.Fills) (hc : headerCalls cs = []) (h : History cfg p0 cs p)
    (hb : p.toBytes cfg = .ok b ∨ p.toBytesCompressed cfg hash = .ok b) :
    b.take 4 = octets16 p0.header.id ++ [p0.header.flags.hi, p0.header.flags.lo] := by
  have hh := C68_header cfg p0 p cs h
  rw [fill_header cs _ hf, hc] at hh
  simp only [List.foldl_nil, Prod.mk.injEq] at hh
  rw [written_take4 hb, hh.1, hh.2]

/-- C80: a message made with `new_query(id, rd)` and any questions and records that are added starts with the identification,
and of the 16 bits of flags and codes (RFC 1035, section 4.1.1) only RD is set, if it was asked for. -/
theorem C80_new_query (cfg : Cfg) (hash : Hash) (id : UInt16) (rd : Bool) (p : Packet) (cs : List PacketCall) (b : Bytes)
    (hf : ∀ c ∈ cs, c.Fills) (hc : headerCalls cs = []) (h : History cfg (.newQuery id rd) cs p)
    (hb : p.toBytes cfg = .ok b ∨ p.toBytesCompressed cfg hash = .ok b) :
    b.take 4 = octets16 id ++ [if rd then 1 else 0, 0] := by
  rw [filled_take4 hf hc h hb]
  cases rd <;> rfl
example (cfg : Cfg) (b : Bytes) (h : (Packet.newQuery 7 true).toBytes cfg = .ok b) : b.take 4 = [0, 7, 1, 0] :=
  C80_new_query cfg (fun _ => 0) 7 true _ [] b (by simp) rfl (.nil _) (.inl h)

/-- C80: a message made with `new_reply(id)` and any questions and records that are added starts with the identification, and
of the flags and codes only QR is set. -/
theorem C80_new_reply (cfg : Cfg) (hash : Hash) (id : UInt16) (p : Packet) (cs : List PacketCall) (b : Bytes)
    (hf : ∀ c ∈ cs, c.Fills) (hc : headerCalls cs = []) (h : History cfg (.newReply id) cs p)
    (hb : p.toBytes cfg = .ok b ∨ p.toBytesCompressed cfg hash = .ok b) :
    b.take 4 = octets16 id ++ [0x80, 0] := by
  rw [filled_take4 hf hc h hb]
  rfl
example (cfg : Cfg) (b : Bytes) (h : (Packet.newReply 7).toBytes cfg = .ok b) : b.take 4 = [0, 7, 128, 0] :=
  C80_new_reply cfg (fun _ => 0) 7 _ [] b (by simp) rfl (.nil _) (.inl h)

/-- C80: a message made with `with_questions(id, rd, questions)` starts like one made with `new_query(id, rd)`, and has these
questions. -/
theorem C80_with_questions (cfg : Cfg) (hash : Hash) (id : UInt16) (rd : Bool) (qs : List Question) (p : Packet)
    (cs : List PacketCall) (b : Bytes)
    (hf : ∀ c ∈ cs, c.Fills) (hc : headerCalls cs = []) (h : History cfg (.withQuestions id rd qs) cs p)
    (hb : p.toBytes cfg = .ok b ∨ p.toBytesCompressed cfg hash = .ok b) :
    b.take 4 = octets16 id ++ [if rd then 1 else 0, 0] ∧ p.questions = qs ++ addedQuestions cs := by
  refine ⟨?_, ?_⟩
  · rw [filled_take4 hf hc h hb]
    cases rd <;> rfl
  · have hs := C68_sections cfg _ p cs h
    rw [fill_sections cs _ hf] at hs
    exact congrArg Sections.questions hs
example (cfg : Cfg) (b : Bytes) (h : (Packet.withQuestions 7 true [exQuestion]).toBytes cfg = .ok b) :
    b.take 4 = [0, 7, 1, 0] :=
  (C80_with_questions cfg (fun _ => 0) 7 true [exQuestion] _ [] b (by simp) rfl (.nil _) (.inl h)).1

/-- C80: a message made with `default()` starts with four zero octets. -/
theorem C80_default (cfg : Cfg) (hash : Hash) (p : Packet) (cs : List PacketCall) (b : Bytes)
    (hf : ∀ c ∈ cs, c.Fills) (hc : headerCalls cs = []) (h : History cfg .default cs p)
    (hb : p.toBytes cfg = .ok b ∨ p.toBytesCompressed cfg hash = .ok b) :
    b.take 4 = [0, 0, 0, 0] := by
  rw [filled_take4 hf hc h hb]
  rfl

/-- C80: a query with one question. -/
example : ∃ p b, History ⟨true, true, true⟩ (.newQuery 258 true) [.addQuestion exQuestion] p ∧
    (∀ c ∈ [PacketCall.addQuestion exQuestion], c.Fills) ∧ headerCalls [.addQuestion exQuestion] = [] ∧
    p.toBytes ⟨true, true, true⟩ = .ok b ∧ b.take 4 = [1, 2, 1, 0] :=
  ⟨_, [1, 2, 1, 0, 0, 1, 0, 0, 0, 0, 0, 0, 1, 97, 1, 98, 0, 0, 1, 0, 1], .cons rfl (.nil _), by simp [PacketCall.Fills],
    rfl, by decide +kernel, by decide⟩

end Dns
