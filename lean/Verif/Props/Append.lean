import Verif.Props.PacketWire

/-
C92: messages are written part by part.
-/

namespace Dns
open Spec Buf

/-- Questions and records. -/
inductive Part where
  | question (q : Question)
  | record (r : ResourceRecord)

/-- What a packet contains, in the order of the message. -/
def parts (p : Packet) : List Part :=
  p.questions.map .question ++ (p.answers ++ p.authorities ++ p.additional).map .record

/-- What `to_bytes()` of a question or a record writes. -/
def Part.toBytes (cfg : Cfg) : Part → Res Bytes
  | .question q => .ok (q.toBytes cfg)
  | .record r => r.toBytes cfg

/-- What `to_bytes_compressed()` of a question or a record writes. -/
def Part.toBytesCompressed (cfg : Cfg) (h : Hash) (x : Part) (names : Names) (offset : Nat) : Res (Bytes × Names) :=
  match x with
  | .question q => .ok (q.toBytesCompressed cfg h names offset)
  | .record r => r.toBytesCompressed cfg h names offset

/-- The octets of parts one after the other. -/
def partsBytes (cfg : Cfg) : List Part → Res Bytes
  | [] => .ok []
  | x :: xs => do
    let a ← x.toBytes cfg
    let b ← partsBytes cfg xs
    return a ++ b

/-- The same with compression, the first part at `offset`. -/
def partsCompressed (cfg : Cfg) (h : Hash) : List Part → Names → Nat → Res (Bytes × Names)
  | [], names, _ => .ok ([], names)
  | x :: xs, names, offset => do
    let a ← x.toBytesCompressed cfg h names offset
    let b ← partsCompressed cfg h xs a.2 (offset + a.1.length)
    return (a.1 ++ b.1, b.2)

theorem partsBytes_append (cfg : Cfg) (xs ys : List Part) : partsBytes cfg (xs ++ ys) = do
    let a ← partsBytes cfg xs
    let b ← partsBytes cfg ys
    return a ++ b := by
  induction xs with
  | nil => cases h : partsBytes cfg ys <;> simp [partsBytes, h]
  | cons x xs ih =>
    simp only [List.cons_append, partsBytes, ih, bind_assoc, pure_bind, List.append_assoc]

theorem partsCompressed_append (cfg : Cfg) (h : Hash) (xs ys : List Part) (ns : Names) (o : Nat) :
    partsCompressed cfg h (xs ++ ys) ns o = do
      let a ← partsCompressed cfg h xs ns o
      let b ← partsCompressed cfg h ys a.2 (o + a.1.length)
      return (a.1 ++ b.1, b.2) := by
  induction xs generalizing ns o with
  | nil =>
    simp only [List.nil_append, partsCompressed, Res.ok_bind, List.length_nil, Nat.add_zero]
    cases h : partsCompressed cfg _ ys ns o <;> rfl
  | cons x xs ih =>
    simp only [List.cons_append, partsCompressed, ih, bind_assoc, pure_bind, List.append_assoc,
      List.length_append, Nat.add_assoc]

theorem recordsBytes_parts (cfg : Cfg) (rs : List ResourceRecord) (bin : Bytes) :
    Packet.recordsBytes cfg rs bin = do
      let b ← partsBytes cfg (rs.map .record)
      return bin ++ b := by
  induction rs generalizing bin with
  | nil => simp [Packet.recordsBytes, partsBytes]
  | cons r rs ih =>
    simp only [Packet.recordsBytes, ih, List.map_cons, partsBytes, Part.toBytes, bind_assoc, pure_bind,
      List.append_assoc]

theorem questions_parts (cfg : Cfg) (qs : List Question) (bin : Bytes) :
    partsBytes cfg (qs.map .question) = .ok (qs.flatMap (·.toBytes cfg)) ∧
      qs.foldl (fun bin q => bin ++ q.toBytes cfg) bin = bin ++ qs.flatMap (·.toBytes cfg) := by
  induction qs generalizing bin with
  | nil => simp [partsBytes]
  | cons q qs ih =>
    simp [partsBytes, Part.toBytes, (ih []).1, (ih (bin ++ q.toBytes cfg)).2]

theorem toBytes_parts (cfg : Cfg) (p : Packet) : p.toBytes cfg = do
    let b ← partsBytes cfg (parts p)
    return p.headerBytes ++ b := by
  unfold Packet.toBytes parts
  simp only [recordsBytes_parts, List.map_append, partsBytes_append, (questions_parts cfg p.questions _).2,
    (questions_parts cfg p.questions []).1, bind_assoc, pure_bind, List.append_assoc, Res.ok_bind]

theorem questionsCompressed_parts (cfg : Cfg) (h : Hash) (qs : List Question) (ns : Names) (bin : Bytes) :
    ∃ b ns', partsCompressed cfg h (qs.map .question) ns bin.length = .ok (b, ns') ∧
      Packet.questionsCompressed cfg h qs ns bin = (bin ++ b, ns') := by
  induction qs generalizing ns bin with
  | nil => exact ⟨[], ns, rfl, by simp [Packet.questionsCompressed]⟩
  | cons q qs ih =>
    obtain ⟨b, ns', h1, h2⟩ := ih (q.toBytesCompressed cfg h ns bin.length).2
      (bin ++ (q.toBytesCompressed cfg h ns bin.length).1)
    refine ⟨(q.toBytesCompressed cfg h ns bin.length).1 ++ b, ns', ?_, ?_⟩
    · rw [List.length_append] at h1
      simp only [List.map_cons, partsCompressed, Part.toBytesCompressed, Res.ok_bind, h1, Res.pure_eq]
    · rw [Packet.questionsCompressed, h2, List.append_assoc]

theorem recordsCompressed_parts (cfg : Cfg) (h : Hash) (rs : List ResourceRecord) (ns : Names) (bin : Bytes) :
    Packet.recordsCompressed cfg h rs ns bin = do
      let b ← partsCompressed cfg h (rs.map .record) ns bin.length
      return (bin ++ b.1, b.2) := by
  induction rs generalizing ns bin with
  | nil => simp [Packet.recordsCompressed, partsCompressed]
  | cons r rs ih =>
    simp only [Packet.recordsCompressed, ih, List.map_cons, partsCompressed, Part.toBytesCompressed, bind_assoc,
      pure_bind, List.append_assoc, List.length_append]

theorem toBytesCompressed_parts (cfg : Cfg) (h : Hash) (p : Packet) : p.toBytesCompressed cfg h = do
    let b ← partsCompressed cfg h (parts p) Names.empty 12
    return p.header.toBytes ++ b.1 := by
  have h12 : p.header.toBytes.length = 12 := rfl
  obtain ⟨b, ns, h1, h2⟩ := questionsCompressed_parts cfg h p.questions Names.empty p.header.toBytes
  rw [h12] at h1
  unfold Packet.toBytesCompressed parts
  simp only [h2, recordsCompressed_parts, List.map_append, partsCompressed_append, h1, Res.ok_bind, bind_assoc,
    pure_bind, List.append_assoc, List.length_append, h12, Nat.add_assoc]

/-- C92: what `to_bytes()` writes for a packet is its header (identification and flags, and the true
counts), followed by what `to_bytes()` writes for each of its questions and records. -/
theorem C92_layout (cfg : Cfg) (p : Packet) (out : Bytes) : p.toBytes cfg = .ok out ↔
    ∃ bs, List.Forall₂ (fun x b => Part.toBytes cfg x = .ok b) (parts p) bs ∧
      out = p.header.toBytes.take 4 ++ octets16 (UInt16.ofNat p.questions.length) ++
        octets16 (UInt16.ofNat p.answers.length) ++ octets16 (UInt16.ofNat p.authorities.length) ++
        octets16 (UInt16.ofNat p.additional.length) ++ bs.flatten := by
  have key : ∀ (xs : List Part) (b : Bytes), partsBytes cfg xs = .ok b ↔
      ∃ bs, List.Forall₂ (fun x b => Part.toBytes cfg x = .ok b) xs bs ∧ b = bs.flatten := by
    intro xs
    induction xs with
    | nil => intro b; simp [partsBytes, eq_comm]
    | cons x xs ih =>
      intro b
      simp only [partsBytes, Res.bind_eq_ok, Res.pure_eq, Res.ok.injEq, ih]
      constructor
      · rintro ⟨a, h1, _, ⟨bs, h2, rfl⟩, rfl⟩
        exact ⟨a :: bs, .cons h1 h2, rfl⟩
      · rintro ⟨_, h, rfl⟩
        cases h with
        | cons h1 h2 => exact ⟨_, h1, _, ⟨_, h2, rfl⟩, rfl⟩
  have hh : p.headerBytes = p.header.toBytes.take 4 ++ octets16 (UInt16.ofNat p.questions.length) ++
        octets16 (UInt16.ofNat p.answers.length) ++ octets16 (UInt16.ofNat p.authorities.length) ++
        octets16 (UInt16.ofNat p.additional.length) := by
    simp only [Packet.headerBytes, u16be_eq, lenU16]
  rw [toBytes_parts]
  simp only [Res.bind_eq_ok, Res.pure_eq, Res.ok.injEq, key, hh]
  constructor
  · rintro ⟨_, ⟨bs, h, rfl⟩, rfl⟩; exact ⟨bs, h, rfl⟩
  · rintro ⟨bs, h, rfl⟩; exact ⟨_, ⟨bs, h, rfl⟩, rfl⟩

/-- C92: the octets behind the header that are written for a packet, with or without compression, only
depend on its questions and records in their order; if those of one packet begin with those of another,
then so do the octets.  In particular questions and records that are added at the end do not change what
is written before them (apart from the counts), and neither do the header and the way the records are
divided into sections. -/
theorem C92_append (cfg : Cfg) (h : Hash) (p q : Packet) (hpq : parts p <+: parts q) (a b : Bytes) :
    (p.toBytes cfg = .ok a → q.toBytes cfg = .ok b → a.drop 12 <+: b.drop 12) ∧
    (p.toBytesCompressed cfg h = .ok a → q.toBytesCompressed cfg h = .ok b → a.drop 12 <+: b.drop 12) := by
  obtain ⟨xs, hx⟩ := hpq
  have l1 : ∀ p : Packet, p.headerBytes.length = 12 := fun p => rfl
  have l2 : ∀ p : Packet, p.header.toBytes.length = 12 := fun p => rfl
  rw [toBytes_parts, toBytes_parts, toBytesCompressed_parts, toBytesCompressed_parts, ← hx, partsBytes_append,
    partsCompressed_append]
  simp only [Res.bind_eq_ok, Res.pure_eq, Res.ok.injEq]
  constructor
  · rintro ⟨u, h1, rfl⟩ ⟨_, ⟨u', h1', v, h2, rfl⟩, rfl⟩
    rw [h1] at h1'
    cases h1'
    rw [List.drop_left' (l1 p), List.drop_left' (l1 q)]
    exact List.prefix_append _ _
  · rintro ⟨u, h1, rfl⟩ ⟨_, ⟨u', h1', v, h2, rfl⟩, rfl⟩
    rw [h1] at h1'
    cases h1'
    rw [List.drop_left' (l2 p), List.drop_left' (l2 q)]
    exact List.prefix_append _ _
example (cfg : Cfg) (h : Hash) (r : ResourceRecord) (a b : Bytes)
    (ha : Packet.toBytes cfg ⟨.newReply 1 .standardQuery, [], [r], [], []⟩ = .ok a)
    (hb : Packet.toBytes cfg ⟨.newReply 1 .standardQuery, [], [r], [], [r]⟩ = .ok b) : a.drop 12 <+: b.drop 12 :=
  (C92_append cfg h _ _ ⟨[.record r], rfl⟩ a b).1 ha hb

/-- C92: a packet can be written if a longer one can. -/
theorem C92_shorter (cfg : Cfg) (h : Hash) (p q : Packet) (hpq : parts p <+: parts q) (b : Bytes) :
    (q.toBytes cfg = .ok b → ∃ a, p.toBytes cfg = .ok a) ∧
    (q.toBytesCompressed cfg h = .ok b → ∃ a, p.toBytesCompressed cfg h = .ok a) := by
  obtain ⟨xs, hx⟩ := hpq
  rw [toBytes_parts, toBytes_parts, toBytesCompressed_parts, toBytesCompressed_parts, ← hx, partsBytes_append,
    partsCompressed_append]
  simp only [Res.bind_eq_ok, Res.pure_eq, Res.ok.injEq]
  constructor
  · rintro ⟨_, ⟨u, h1, v, h2, rfl⟩, rfl⟩; exact ⟨_, _, h1, rfl⟩
  · rintro ⟨_, ⟨u, h1, v, h2, rfl⟩, rfl⟩; exact ⟨_, _, h1, rfl⟩

/-- The hypotheses are met: a record is added. -/
example (cfg : Cfg) (h : Hash) : ∃ p q a b a' b', parts p <+: parts q ∧ parts p ≠ parts q ∧ parts p ≠ [] ∧
    p.toBytes cfg = .ok a ∧ q.toBytes cfg = .ok b ∧ p.toBytesCompressed cfg h = .ok a' ∧
    q.toBytesCompressed cfg h = .ok b' := by
  let r : ResourceRecord := ⟨[[97]], .A, false, .IN, 5, .A ⟨1⟩⟩
  let p : Packet := ⟨Header.newReply 1 .standardQuery, [], [r], [], []⟩
  let q : Packet := ⟨Header.newReply 1 .standardQuery, [], [r], [], [r]⟩
  exact ⟨p, q, _, _, _, _, ⟨[.record r], rfl⟩, fun h => by simpa [parts, p, q] using congrArg List.length h,
    by simp [parts, p], rfl, rfl, rfl, rfl⟩

end Dns
