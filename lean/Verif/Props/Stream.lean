import Verif.Props.Receive
import Verif.Props.Conform
import Verif.Props.Hash
import Verif.Lemmas.Forward

/-
C108: messages that stand somewhere in a buffer, one behind the other.
-/

namespace Dns
open Spec Buf

/-! ## Moving octets to another place -/

theorem octets_move {b x : Bytes} {i j : Nat} (h : Octets b i x j) (pre : Bytes) :
    Octets (pre ++ b) (pre.length + i) x (pre.length + j) := by
  obtain ⟨u, v, rfl, rfl, rfl⟩ := h
  exact ⟨pre ++ u, v, by simp, by simp, by omega⟩

theorem getElem?_move {b : Bytes} {i : Nat} (pre : Bytes) : (pre ++ b)[pre.length + i]? = b[i]? := by
  rw [List.getElem?_append_right (by omega)]
  congr 1
  omega

theorem plainName_move {b : Bytes} {i j : Nat} {n : Fqdn} (h : PlainName b i n j) (pre : Bytes) :
    PlainName (pre ++ b) (pre.length + i) n (pre.length + j) := by
  induction h with
  | root h => exact .root (by rw [getElem?_move]; exact h)
  | label h1 h2 h3 h4 _ ih =>
    have h5 := octets_move h4 pre
    have e : ∀ a k : Nat, pre.length + (a + 1 + k) = pre.length + a + 1 + k := by omega
    rw [e] at h5 ih
    exact .label h1 h2 h3 h5 ih
  | pointer _ _ h => exact h.elim

theorem item_move {N : NameRel} {b : Bytes} (hN : ∀ i n j pre, N b i n j → N (pre ++ b) (pre.length + i) n (pre.length + j))
    {it : Item} {i j : Nat} (h : it.At N b i j) (pre : Bytes) :
    it.At N (pre ++ b) (pre.length + i) (pre.length + j) := by
  cases it with
  | u8 v => exact octets_move h pre
  | u16 v => exact octets_move h pre
  | u32 v => exact octets_move h pre
  | num k v => obtain ⟨x, h1, h2⟩ := h; exact ⟨x, octets_move h1 pre, h2⟩
  | name n => exact hN _ _ _ _ h
  | raw x => exact octets_move h pre
  | str x => exact ⟨h.1, octets_move h.2 pre⟩
  | str16 x => exact ⟨h.1, octets_move h.2 pre⟩
  | rest x => exact ⟨octets_move h.1 pre, by rw [h.2]; simp⟩
  | eof => exact ⟨by rw [h.1]; simp, by rw [h.2]⟩

theorem items_move {N : NameRel} {b : Bytes} (hN : ∀ i n j pre, N b i n j → N (pre ++ b) (pre.length + i) n (pre.length + j)) :
    ∀ {its : List Item} {i j : Nat}, Items.At N b i its j → ∀ pre : Bytes,
      Items.At N (pre ++ b) (pre.length + i) its (pre.length + j) := by
  intro its
  induction its with
  | nil => intro i j h pre; exact congrArg _ h
  | cons it its ih =>
    rintro i j ⟨k, h1, h2⟩ pre
    exact ⟨_, item_move hN h1 pre, ih h2 pre⟩

theorem plainItems_move {b : Bytes} {its : List Item} {i j : Nat} (h : Items.At PlainName b i its j) (pre : Bytes) :
    Items.At PlainName (pre ++ b) (pre.length + i) its (pre.length + j) :=
  items_move (fun _ _ _ _ h => plainName_move h _) h pre

theorem question_move {cfg : Cfg} {b : Bytes} {i j : Nat} {q : Question} (h : QuestionAt PlainName cfg b i q j)
    (pre : Bytes) : QuestionAt PlainName cfg (pre ++ b) (pre.length + i) q (pre.length + j) := by
  obtain ⟨h1, v, h2, h3⟩ := h
  exact ⟨h1, v, h2, plainItems_move h3 pre⟩

theorem record_move {cfg : Cfg} {b : Bytes} {i j : Nat} {r : ResourceRecord}
    (h : RecordAtWith (RDataWritten PlainName cfg) PlainName cfg b i r j) (pre : Bytes) :
    RecordAtWith (RDataWritten PlainName cfg) PlainName cfg (pre ++ b) (pre.length + i) r (pre.length + j) := by
  obtain ⟨h1, h2, v, len, k, h3, h4, h5, h6, h7, its, h8, h9⟩ := h
  refine ⟨h1, h2, v, len, pre.length + k, h3, plainItems_move h4 pre, by omega, by simp; omega, h7, its, h8, ?_⟩
  have e : (pre ++ b).take (pre.length + j) = pre ++ b.take j := List.take_length_add_append j
  rw [e, List.length_append]
  exact plainItems_move h9 pre

theorem listAt_move {α : Type} {R S : Nat → α → Nat → Prop} {m : Nat} (h : ∀ i x j, R i x j → S (m + i) x (m + j)) :
    ∀ {xs : List α} {i j : Nat}, ListAt R i xs j → ListAt S (m + i) xs (m + j) := by
  intro xs
  induction xs with
  | nil => intro i j h; exact congrArg _ h
  | cons x xs ih => rintro i j ⟨k, h1, h2⟩; exact ⟨_, h _ _ _ h1, ih h2⟩

/-- A message without compression is read wherever it stands. -/
theorem moved_read {cfg : Cfg} {b : Bytes} {p : Packet} (h : SentMessage PlainName cfg b p)
    (hv : ∀ r ∈ records p, Writable cfg 63 r.rdata ∧ ReadWell r.rdata) (pre post : Bytes) :
    Packet.parseBuf cfg (pre ++ b ++ post) pre.length = (.ok p, pre.length + b.length) := by
  obtain ⟨c1, c2, c3, c4, i1, i2, i3, i4, h0, h1, h2, h3, h4⟩ := h
  have hm : ∀ {d its i j}, Items.At PlainName d i its j → Items.At Decodes d i its j :=
    fun h => legal_decodes (items_mono (fun _ _ _ _ => plain_legal) h)
  have key : ∀ i x j, (Writable cfg 63 x.rdata ∧ ReadWell x.rdata) →
      RecordAtWith (RDataWritten PlainName cfg) PlainName cfg (pre ++ b) i x j →
      RecordAtWith (ParsedData cfg) Decodes cfg (pre ++ b ++ post) i x j := by
    rintro i x j hx ⟨a1, a2, v, len, k, a3, a4, a5, a6, a7, its, a8, a9⟩
    exact recordAt_extend decodes_extends ⟨a1, a2, v, len, k, a3, hm a4, a5, a6, readWell_parsed hx.1 hx.2
      ⟨a7, its, a8, items_mono (fun _ _ _ _ => plain_legal) a9⟩⟩ post
  have keyq : ∀ i x j, QuestionAt PlainName cfg (pre ++ b) i x j → QuestionAt Decodes cfg (pre ++ b ++ post) i x j := by
    rintro i x j ⟨a1, v, a2, a3⟩
    exact questionAt_extend decodes_extends ⟨a1, v, a2, hm a3⟩ post
  have k0 := items_extend decodes_extends (by simp [headerItems, Item.Open]) (hm (plainItems_move h0 pre)) post
  have k1 := listAt_mono keyq _ _ _ (listAt_move (m := pre.length) (fun _ _ _ h => question_move h pre) h1)
  have mv : ∀ {rs i j}, ListAt (RecordAtWith (RDataWritten PlainName cfg) PlainName cfg b) i rs j →
      (∀ r ∈ rs, Writable cfg 63 r.rdata ∧ ReadWell r.rdata) →
      ListAt (RecordAtWith (ParsedData cfg) Decodes cfg (pre ++ b ++ post)) (pre.length + i) rs (pre.length + j) :=
    fun h hr => listAt_mono_mem key _ _ _ hr (listAt_move (m := pre.length) (fun _ _ _ h => record_move h pre) h)
  have k2 := mv h2 (fun r hr => hv r (by simp [records, hr]))
  have k3 := mv h3 (fun r hr => hv r (by simp [records, hr]))
  have k4 := mv h4 (fun r hr => hv r (by simp [records, hr]))
  obtain ⟨h, q, an, au, ad⟩ := p
  simp only [Packet.parseBuf, Parser.bind_ok, Parser.pure_ok, Header.parse_ok (N := Decodes), seq_times,
    seq_listAt (fun i x j => Question.parse_ok), seq_listAt (fun i x j => ResourceRecord.parse_ok)]
  exact ⟨h, _, k0, q, _, ⟨c1, k1⟩, an, _, ⟨c2, k2⟩, au, _, ⟨c3, k3⟩, ad, _, ⟨c4, k4⟩, rfl, rfl⟩

/-! ## C108 -/

/-- C108 (partial): messages without compression that stand one behind the other in a buffer, with any octets before and
behind them, are read one after the other as what they say, and the position is left behind the last one.  What is
missing: messages with compression (false, see `C108_counterexample`), and data that are not `ReadWell` (C99). -/
theorem C108_sequence_partial (cfg : Cfg) (ms : List (Bytes × Packet)) (pre post : Bytes)
    (h : ∀ m ∈ ms, SentMessage PlainName cfg m.1 m.2 ∧
      ∀ r ∈ records m.2, Writable cfg 63 r.rdata ∧ ReadWell r.rdata) :
    Parser.times ms.length (Packet.parseBuf cfg) (pre ++ (ms.map (·.1)).flatten ++ post) pre.length =
      (.ok (ms.map (·.2)), pre.length + (ms.map (·.1)).flatten.length) := by
  induction ms generalizing pre with
  | nil => rfl
  | cons m ms ih =>
    have h1 := moved_read (h m (by simp)).1 (h m (by simp)).2 pre ((ms.map (·.1)).flatten ++ post)
    have h2 := ih (pre ++ m.1) (fun x hx => h x (by simp [hx]))
    simp only [List.length_cons, List.map_cons, List.flatten_cons, Parser.times, Parser.bind_ok, Parser.pure_ok]
    rw [show pre ++ (m.1 ++ (ms.map (·.1)).flatten) ++ post = pre ++ m.1 ++ ((ms.map (·.1)).flatten ++ post) by simp]
    refine ⟨_, _, h1, _, _, ?_, rfl, rfl⟩
    rw [show pre ++ m.1 ++ ((ms.map (·.1)).flatten ++ post) = pre ++ m.1 ++ (ms.map (·.1)).flatten ++ post by simp]
    simp only [List.length_append] at h2 ⊢
    rw [h2, Nat.add_assoc]

/-- C108 for what the crate writes without compression (partial): packets written one behind the other are read one
after the other. -/
theorem C108_written_partial (cfg : Cfg) (ps : List Packet) (pre post : Bytes)
    (h : ∀ p ∈ ps, PacketOk cfg 63 p ∧ CountsOk p ∧
      ∀ r ∈ records p, WrittenWell r.rdata ∧ sizeError r.rdata = 0 ∧ r.rdata.type ≠ .SSHFP) :
    ∃ bs : List Bytes, List.Forall₂ (fun p b => p.toBytes cfg = .ok b) ps bs ∧
      Parser.times ps.length (Packet.parseBuf cfg) (pre ++ bs.flatten ++ post) pre.length =
        (.ok ps, pre.length + bs.flatten.length) := by
  have key : ∀ ps : List Packet, (∀ p ∈ ps, PacketOk cfg 63 p ∧ CountsOk p ∧
      ∀ r ∈ records p, WrittenWell r.rdata ∧ sizeError r.rdata = 0 ∧ r.rdata.type ≠ .SSHFP) →
      ∃ ms : List (Bytes × Packet), ms.map (·.2) = ps ∧
        List.Forall₂ (fun p b => p.toBytes cfg = .ok b) ps (ms.map (·.1)) ∧
        ∀ m ∈ ms, SentMessage PlainName cfg m.1 m.2 ∧ ∀ r ∈ records m.2, Writable cfg 63 r.rdata ∧ ReadWell r.rdata := by
    intro ps
    induction ps with
    | nil => intro _; exact ⟨[], rfl, .nil, by simp⟩
    | cons p ps ih =>
      intro h
      obtain ⟨ms, h1, h2, h3⟩ := ih (fun p hp => h p (by simp [hp]))
      obtain ⟨a1, a2, a3⟩ := h p (by simp)
      obtain ⟨b, b1, b2⟩ := C97_plain_partial cfg p a1 (fun r hr => ⟨(a3 r hr).1, (a3 r hr).2.1⟩)
      rw [C27_counts p a2] at b2
      refine ⟨(b, p) :: ms, by simp [h1], .cons b1 h2, ?_⟩
      rintro m hm
      rcases List.mem_cons.mp hm with rfl | hm
      · exact ⟨b2, fun r hr => ⟨(a1.2.1 r hr).2.2.2.2.2.2.1, written_read (a3 r hr).1 (a3 r hr).2.2⟩⟩
      · exact h3 m hm
  obtain ⟨ms, rfl, h2, h3⟩ := key ps h
  exact ⟨_, h2, by rw [List.length_map]; exact C108_sequence_partial cfg ms pre post h3⟩

/-- A message over TCP (RFC 1035, section 4.2.2): two octets with its length stand before it. -/
def Spec.framed (b : Bytes) : Bytes := octets16 (UInt16.ofNat b.length) ++ b

/-- A caller that reads one message from TCP with the calls of the crate: `extract_u16`, `sub_buffer`,
`Packet::try_from` on the sub-buffer, and `advance`. -/
def readFramed (cfg : Cfg) : Parser Packet := do
  let len ← extractU16
  let p ← withSubBuffer len.toNat (Packet.parseBuf cfg)
  advance len.toNat
  return p.1

theorem framed_read {cfg : Cfg} {b : Bytes} {p : Packet} (h : SentMessage PlainName cfg b p) (hb : b.length < 65536)
    (hv : ∀ r ∈ records p, Writable cfg 63 r.rdata ∧ ReadWell r.rdata) (pre post : Bytes) :
    readFramed cfg (pre ++ framed b ++ post) pre.length = (.ok p, pre.length + (framed b).length) := by
  have h0 := moved_read h hv (pre ++ octets16 (UInt16.ofNat b.length)) []
  have hl : (UInt16.ofNat b.length).toNat = b.length := by
    rw [UInt16.toNat_ofNat']; exact Nat.mod_eq_of_lt hb
  have l16 : (octets16 (UInt16.ofNat b.length)).length = 2 := rfl
  simp only [readFramed, Parser.bind_ok, Parser.pure_ok, framed]
  refine ⟨UInt16.ofNat b.length, pre.length + 2, extractU16_ok.mpr ⟨pre, b ++ post, by simp, rfl, rfl⟩, (p, pre.length + 2 + b.length), pre.length + 2, ?_, (), _, ?_,
    rfl, rfl⟩
  · simp only [withSubBuffer, hl]
    rw [if_neg (by simp [l16]; omega)]
    have e : (pre ++ (octets16 (UInt16.ofNat b.length) ++ b) ++ post).take (b.length + (pre.length + 2)) =
        pre ++ octets16 (UInt16.ofNat b.length) ++ b ++ [] := by
      rw [List.append_nil, ← List.append_assoc]
      exact List.take_left' (by simp [l16]; omega)
    rw [e]
    simp only [List.length_append, l16] at h0
    rw [h0]
  · simp only [advance, hl]
    rw [if_neg (by simp [l16]; omega)]
    simp [l16]; omega

/-- C108 over TCP (partial): messages without compression, each with its length before it, are read one after the
other. -/
theorem C108_tcp_partial (cfg : Cfg) (ms : List (Bytes × Packet)) (pre post : Bytes)
    (h : ∀ m ∈ ms, SentMessage PlainName cfg m.1 m.2 ∧ m.1.length < 65536 ∧
      ∀ r ∈ records m.2, Writable cfg 63 r.rdata ∧ ReadWell r.rdata) :
    Parser.times ms.length (readFramed cfg) (pre ++ (ms.map (fun m => framed m.1)).flatten ++ post) pre.length =
      (.ok (ms.map (·.2)), pre.length + (ms.map (fun m => framed m.1)).flatten.length) := by
  induction ms generalizing pre with
  | nil => rfl
  | cons m ms ih =>
    have hm := h m (by simp)
    have h1 := framed_read hm.1 hm.2.1 hm.2.2 pre ((ms.map (fun m => framed m.1)).flatten ++ post)
    have h2 := ih (pre ++ framed m.1) (fun x hx => h x (by simp [hx]))
    simp only [List.length_cons, List.map_cons, List.flatten_cons, Parser.times, Parser.bind_ok, Parser.pure_ok]
    rw [show pre ++ (framed m.1 ++ (ms.map (fun m => framed m.1)).flatten) ++ post =
      pre ++ framed m.1 ++ ((ms.map (fun m => framed m.1)).flatten ++ post) by simp]
    refine ⟨_, _, h1, _, _, ?_, rfl, rfl⟩
    rw [show pre ++ framed m.1 ++ ((ms.map (fun m => framed m.1)).flatten ++ post) =
      pre ++ framed m.1 ++ (ms.map (fun m => framed m.1)).flatten ++ post by simp]
    simp only [List.length_append] at h2 ⊢
    rw [h2, Nat.add_assoc]

/-- A name read behind a pointer to an octet 0 or 1. -/
theorem nameWith_first {max : Nat} {a : Nat → Nat → Prop} {d : Bytes} {t k : Nat} {ls : Fqdn}
    (h : NameWith max a d t ls k) : (d[t]? = some 0 → ls = []) ∧ (d[t]? = some 1 → ls ≠ []) := by
  cases h with
  | root h => exact ⟨fun _ => rfl, fun h1 => by rw [h1] at h; cases h⟩
  | label h1 _ _ h2 _ =>
    have := octets_cons_getElem? h2
    refine ⟨fun h3 => ?_, fun _ => by simp⟩
    rw [this] at h3
    cases h3
    simp at h1
  | pointer h1 h2 _ _ =>
    have := octets_cons_getElem? h2
    constructor <;>
    · intro h3
      rw [this] at h3
      cases h3
      simp at h1

/-- C108 for names, exactly: a name of RFC 1035 is read as the same name wherever the octets it is in stand in the
buffer if and only if it has no compression pointer. -/
theorem C108_name_exact (b : Bytes) (i j : Nat) (n : Fqdn) (h : LegalName b i n j) :
    (∀ pre : Bytes, extractFqdn (pre ++ b) (pre.length + i) = (.ok n, pre.length + j)) ↔ PlainName b i n j := by
  constructor
  · intro hp
    replace hp := fun pre => extractFqdn_ok.mp (hp pre)
    induction h with
    | root h => exact .root h
    | @label i j ls len l h1 h2 h3 h4 _ ih =>
      refine .label h1 h2 h3 h4 (ih fun pre => ?_)
      have e : pre.length + (i + 1 + l.length) = pre.length + i + 1 + l.length := by omega
      have hc := hp pre
      rw [e]
      generalize hy : pre.length + j = y at hc ⊢
      cases hc with
      | label _ _ _ _ h5 => exact h5
      | pointer g1 g2 =>
        have a1 := octets_cons_getElem? g2
        have a2 := octets_cons_getElem? (octets_move h4 pre)
        rw [a1] at a2
        cases a2
        omega
    | @pointer i k ls hi lo h1 h2 h3 h4 =>
      exfalso
      have ht : (hi.toNat - 192) * 256 + lo.toNat < 16384 := by
        have := hi.toNat_lt
        have := lo.toNat_lt
        omega
      have key : ∀ c : UInt8, ∃ (k : Nat) (a : Nat → Nat → Prop) (d : Bytes) (t : Nat),
          NameWith 191 a d t ls k ∧ d[t]? = some c := by
        intro c
        have hc := hp (List.replicate 16384 c)
        have a2 := octets_move h2 (List.replicate 16384 c)
        have a3 := octets_cons_getElem? a2
        generalize hx : (List.replicate 16384 c).length + i = x at hc a3 a2
        generalize hy : (List.replicate 16384 c).length + (i + 2) = y at hc
        cases hc with
        | root g => rw [g] at a3; cases a3; simp at h1
        | label g1 g2 g3 g4 _ =>
          rw [octets_cons_getElem? g4] at a3
          cases a3
          omega
        | pointer g1 g2 g3 g4 =>
          refine ⟨_, _, _, _, g4, ?_⟩
          have e : [hi, lo] = [_, _] := a2.inj g2 rfl
          simp only [List.cons.injEq, and_true] at e
          obtain ⟨rfl, rfl⟩ := e
          rw [List.getElem?_append_left (by rw [List.length_replicate]; exact ht), List.getElem?_replicate, if_pos ht]
      obtain ⟨k0, _, _, _, g0, e0⟩ := key 0
      obtain ⟨k1, _, _, _, g1, e1⟩ := key 1
      exact (nameWith_first g1).2 e1 ((nameWith_first g0).1 e0)
  · intro hp pre
    exact C08_legal_name_decoded _ _ _ _ (plain_legal (plainName_move hp pre))

/-! ## Exactly -/

/-- The place where a name ends does not depend on where its octets stand. -/
theorem name_end {b : Bytes} {i j : Nat} {n : Fqdn} (h : LegalName b i n j) (pre : Bytes) :
    ∀ {m : Fqdn} {k : Nat}, Decodes (pre ++ b) (pre.length + i) m k → k = pre.length + j := by
  intro m k hd
  replace hd := extractFqdn_ok.mp hd
  induction h generalizing m k with
  | @root i h =>
    have h1 : (pre ++ b)[pre.length + i]? = some 0 := by rw [getElem?_move]; exact h
    generalize hx : pre.length + i = x at hd h1
    cases hd with
    | root g => omega
    | label g1 g2 g3 g4 _ => rw [octets_cons_getElem? g4] at h1; cases h1; simp at g1
    | pointer g1 g2 => rw [octets_cons_getElem? g2] at h1; cases h1; simp at g1
  | @label i j ls len l h1 h2 h3 h4 _ ih =>
    have a2 := octets_move h4 pre
    have a3 := octets_cons_getElem? a2
    have e : pre.length + (i + 1 + l.length) = pre.length + i + 1 + l.length := by omega
    rw [e] at ih a2
    generalize hx : pre.length + i = x at hd a3 a2 ih
    cases hd with
    | root g => rw [g] at a3; cases a3; simp at h1
    | @label _ _ _ len' l' g1 g2 g3 g4 g5 =>
      have h6 := octets_cons_getElem? g4
      rw [a3] at h6
      cases h6
      have e2 : l.length = l'.length := by omega
      rw [← e2] at g5
      exact ih g5
    | pointer g1 g2 =>
      rw [octets_cons_getElem? g2] at a3
      cases a3
      omega
  | @pointer i k' ls hi lo h1 h2 h3 h4 =>
    have a3 := octets_cons_getElem? (octets_move h2 pre)
    generalize hx : pre.length + i = x at hd a3
    cases hd with
    | root g => rw [g] at a3; cases a3; simp at h1
    | label g1 g2 g3 g4 _ => rw [octets_cons_getElem? g4] at a3; cases a3; omega
    | pointer g1 g2 g3 g4 => omega

theorem item_end {b : Bytes} {it : Item} {i j : Nat} (h : it.At LegalName b i j) (pre : Bytes) {k : Nat}
    (hd : it.At Decodes (pre ++ b) (pre.length + i) k) : k = pre.length + j := by
  cases it with
  | u8 v => have := h.end_eq; have := hd.end_eq; omega
  | u16 v => have := h.end_eq; have := hd.end_eq; omega
  | u32 v => have := h.end_eq; have := hd.end_eq; omega
  | num n v =>
    obtain ⟨x, h1, h2, -⟩ := h
    obtain ⟨y, h3, h4, -⟩ := hd
    have := h1.end_eq; have := h3.end_eq; omega
  | name n => exact name_end h pre hd
  | raw x => have := h.end_eq; have := hd.end_eq; omega
  | str x => have := h.2.end_eq; have := hd.2.end_eq; omega
  | str16 x => have := h.2.end_eq; have := hd.2.end_eq; omega
  | rest x => have := h.1.end_eq; have := hd.1.end_eq; omega
  | eof => have := h.2; have := hd.2; omega

/-- Items that are read wherever they stand. -/
theorem items_plain_of_moved {b : Bytes} : ∀ {its : List Item} {i j : Nat}, Items.At LegalName b i its j →
    (∀ pre : Bytes, ∃ k, Items.At Decodes (pre ++ b) (pre.length + i) its k) →
    Items.At PlainName b i its j ∧ ∀ (pre : Bytes) (k : Nat), Items.At Decodes (pre ++ b) (pre.length + i) its k →
      k = pre.length + j := by
  intro its
  induction its with
  | nil => intro i j h _; exact ⟨h, fun pre k hk => by have h1 : i = j := h; have h2 : _ = k := hk; omega⟩
  | cons it its ih =>
    rintro i j ⟨m, h1, h2⟩ hp
    obtain ⟨c1, c2⟩ := ih h2 (fun pre => by
      obtain ⟨k, m', g1, g2⟩ := hp pre
      rw [item_end h1 pre g1] at g2
      exact ⟨k, g2⟩)
    refine ⟨⟨m, ?_, c1⟩, ?_⟩
    · cases it with
      | name n =>
        refine (C108_name_exact b i m n h1).mp fun pre => ?_
        obtain ⟨k, m', g1, g2⟩ := hp pre
        have := item_end h1 pre g1
        subst this
        exact g1
      | _ => exact h1
    · rintro pre k ⟨m', g1, g2⟩
      rw [item_end h1 pre g1] at g2
      exact c2 pre k g2

theorem items_nameless {N M : NameRel} {d : Bytes} : ∀ {its : List Item} {i j : Nat}, (∀ n, Item.name n ∉ its) →
    Items.At N d i its j → Items.At M d i its j := by
  intro its
  induction its with
  | nil => intro i j _ h; exact h
  | cons it its ih =>
    rintro i j hn ⟨k, h1, h2⟩
    refine ⟨k, ?_, ih (fun n h => hn n (by simp [h])) h2⟩
    cases it with
    | name n => exact absurd List.mem_cons_self (hn n)
    | _ => exact h1

/-- Items of which the first ones are read wherever they stand, and the others have no names. -/
theorem items_plain_front {b : Bytes} {front tail : List Item} {i j : Nat}
    (h : Items.At LegalName b i (front ++ tail) j) (ht : ∀ n, Item.name n ∉ tail)
    (hp : ∀ pre : Bytes, ∃ k, Items.At Decodes (pre ++ b) (pre.length + i) front k) :
    Items.At PlainName b i (front ++ tail) j := by
  obtain ⟨k, h1, h2⟩ := itemsAt_append.mp h
  exact itemsAt_append.mpr ⟨k, (items_plain_of_moved h1 hp).1, items_nameless ht h2⟩

theorem str_unique {N : NameRel} {d x y : Bytes} {i j k : Nat} (h1 : (Item.str x).At N d i j)
    (h2 : (Item.str y).At N d i k) : x = y := by
  obtain ⟨a1, a2⟩ := h1
  obtain ⟨b1, b2⟩ := h2
  have e := (octets_cons_getElem? a2).symm.trans (octets_cons_getElem? b2)
  have e2 := congrArg UInt8.toNat (Option.some.inj e)
  rw [UInt8.toNat_ofNat_of_lt' a1, UInt8.toNat_ofNat_of_lt' b1] at e2
  have := a2.inj b2 (by simp [e2])
  simpa using (List.cons.inj this).2

theorem rdata_plain {cfg : Cfg} {t : RecordType} {b : Bytes} {k : Nat} {r : RecordData}
    (h : RDataWritten LegalName cfg t b k r)
    (hp : ∀ pre : Bytes, ParsedData cfg t (pre ++ b) (pre.length + k) r) : RDataWritten PlainName cfg t b k r := by
  have hrw : ReadWell r := parsed_readWell h (by simpa using hp [])
  obtain ⟨rfl, its, hs, hi⟩ := h
  refine ⟨rfl, its, hs, ?_⟩
  have nl : (∀ n, Item.name n ∉ its) → Items.At PlainName b k its b.length := fun hn => items_nameless hn hi
  have ex : Exact r → ∀ pre : Bytes, ∃ its' e, RData cfg r its' ∧
      Items.At Decodes (pre ++ b) (pre.length + k) its' e := fun hx pre => by
    obtain ⟨e, he⟩ := hp pre
    obtain ⟨-, its', h1, h2⟩ := (RecordData.parse_ok hx).mp he
    exact ⟨its', e, h1, h2⟩
  have def' : Exact r → (∀ its', RData cfg r its' → its' = its) → Items.At PlainName b k its b.length := by
    intro hx hu
    refine (items_plain_of_moved hi fun pre => ?_).1
    obtain ⟨its', e, h1, h2⟩ := ex hx pre
    rw [hu _ h1] at h2
    exact ⟨e, h2⟩
  cases r with
  | NS r => exact def' trivial fun _ h => h.trans (Eq.symm hs)
  | CNAME r => exact def' trivial fun _ h => h.trans (Eq.symm hs)
  | SOA r => exact def' trivial fun _ h => h.trans (Eq.symm hs)
  | PTR r => exact def' trivial fun _ h => h.trans (Eq.symm hs)
  | MINFO r => exact def' trivial fun _ h => h.trans (Eq.symm hs)
  | MX r => exact def' trivial fun _ h => h.trans (Eq.symm hs)
  | SRV r => exact def' trivial fun _ h => h.trans (Eq.symm hs)
  | TSIG r => exact def' trivial fun _ h => h.trans (Eq.symm hs)
  | RRSIG r => exact def' trivial fun _ h => h.2.trans (Eq.symm hs.2)
  | TKEY r => exact def' trivial fun _ h => h.2.2.trans (Eq.symm hs.2.2)
  | HIP r => exact def' trivial fun _ h => h.2.2.2.trans (Eq.symm hs.2.2.2)
  | IPSECKEY r => exact def' hrw fun _ h => h.trans (Eq.symm hs)
  | NAPTR r =>
    cases hs
    refine (items_plain_of_moved hi fun pre => ?_).1
    obtain ⟨_, e, ⟨fl, rfl, -, -⟩, h2⟩ := ex trivial pre
    obtain ⟨k1, a1, k2, a2, k3, a3, a4⟩ := hi
    obtain ⟨m1, b1, m2, b2, m3, b3, b4⟩ := h2
    have e1 := item_end a1 pre b1
    rw [e1] at b2
    have e2 := item_end a2 pre b2
    rw [e2] at b3
    have := str_unique (N := Decodes) ⟨a3.1, octets_move a3.2 pre⟩ b3
    subst this
    exact ⟨e, _, b1, _, e1 ▸ b2, _, e2 ▸ b3, b4⟩
  | NSEC r =>
    obtain ⟨ws, rfl, -⟩ := hs
    refine items_plain_front (front := [.name _]) hi (by simp [windowItems]) fun pre => ?_
    obtain ⟨_, e, ⟨ws', rfl, -⟩, m, h2, -⟩ := ex trivial pre
    exact ⟨m, m, h2, rfl⟩
  | SVCB r =>
    obtain ⟨rfl, -⟩ := hs
    rw [List.append_assoc] at hi ⊢
    refine items_plain_front hi (by simp [paramItems, o16]) fun pre => ?_
    obtain ⟨e, he⟩ := hp pre
    simp only [RecordData.parse, RecordData.type, Parser.bind_ok, Parser.pure_ok] at he
    obtain ⟨_, _, h1, h2, -⟩ := he
    cases h2
    unfold Svcb.parse at h1
    simp only [Parser.bind_ok, Parser.pure_ok] at h1
    obtain ⟨_, k1, h3, _, k2, h4, _, _, -, rfl, -⟩ := h1
    exact ⟨k2, k1, extractU16_ok.mp h3, k2, h4, rfl⟩
  | TXT r => cases hs; exact nl (by simp)
  | OPT r => cases hs; exact nl (by simp [optionItems])
  | APL r => obtain ⟨part, rfl, -⟩ := hs; exact nl (by simp [o16, o8])
  | CSYNC r => obtain ⟨ws, rfl, -⟩ := hs; exact nl (by simp [windowItems])
  | DNSKEY r => cases hs; exact nl (by simp [o16, o8])
  | CDNSKEY r => cases hs; exact nl (by simp [o16, o8])
  | CAA r => cases hs; exact nl (by simp [o8])
  | _ => cases hs; exact nl (by simp [o16, o8, dsItems])

theorem question_plain {cfg : Cfg} {b : Bytes} {i j : Nat} {q : Question} (h : QuestionAt LegalName cfg b i q j)
    (hp : ∀ pre : Bytes, ∃ k, QuestionAt Decodes cfg (pre ++ b) (pre.length + i) q k) :
    QuestionAt PlainName cfg b i q j ∧ ∀ (pre : Bytes) (k : Nat),
      QuestionAt Decodes cfg (pre ++ b) (pre.length + i) q k → k = pre.length + j := by
  obtain ⟨h1, v, h2, h3⟩ := h
  refine ⟨⟨h1, v, h2, items_plain_front (front := [.name q.qName]) h3 (by simp [o16]) fun pre => ?_⟩, ?_⟩
  · obtain ⟨k, -, v', -, m, a1, -⟩ := hp pre
    exact ⟨m, m, a1, rfl⟩
  · rintro pre k ⟨-, v', -, m1, a1, m2, a2, m3, a3, a4⟩
    obtain ⟨n1, c1, n2, c2, n3, c3, c4⟩ := h3
    have e1 := item_end c1 pre a1
    have := a2.end_eq; have := a3.end_eq; have := c2.end_eq; have := c3.end_eq
    have : m3 = k := a4
    have : n3 = j := c4
    simp [octets16] at *
    omega

theorem record_plain {cfg : Cfg} {b : Bytes} {i j : Nat} {r : ResourceRecord}
    (h : RecordAtWith (RDataWritten LegalName cfg) LegalName cfg b i r j)
    (hp : ∀ pre : Bytes, ∃ k, RecordAtWith (ParsedData cfg) Decodes cfg (pre ++ b) (pre.length + i) r k) :
    RecordAtWith (RDataWritten PlainName cfg) PlainName cfg b i r j ∧ ∀ (pre : Bytes) (k : Nat),
      RecordAtWith (ParsedData cfg) Decodes cfg (pre ++ b) (pre.length + i) r k → k = pre.length + j := by
  obtain ⟨h1, h2, v, len, m, h3, h4, h5, h6, h7⟩ := h
  have key : ∀ (pre : Bytes) (k : Nat), RecordAtWith (ParsedData cfg) Decodes cfg (pre ++ b) (pre.length + i) r k →
      k = pre.length + j ∧ ParsedData cfg r.type (pre ++ b.take j) (pre.length + m) r.rdata := by
    rintro pre k ⟨-, -, v', len', m', -, ⟨a, a1, a', a2, a'', a3, a''', a4, a'''', a5, a6⟩, g5, -, g7⟩
    obtain ⟨c, c1, c', c2, c'', c3, c''', c4, c'''', c5, c6⟩ := h4
    have e1 := item_end c1 pre a1
    have x2 := a2.end_eq; have x3 := a3.end_eq; have x4 := a4.end_eq; have x5 := a5.end_eq
    have y2 := c2.end_eq; have y3 := c3.end_eq; have y4 := c4.end_eq; have y5 := c5.end_eq
    have z1 : a'''' = m' := a6
    have z2 : c'''' = m := c6
    simp only [octets16, octets32, List.length_cons, List.length_nil] at x2 x3 x4 x5 y2 y3 y4 y5
    have p5 : a''' = pre.length + c''' := by omega
    have hlen : len' = len := by
      have q := octets_move c5 pre
      rw [← p5] at q
      exact octets_at_unique a5 q
    subst hlen
    have hk : k = pre.length + j := by omega
    refine ⟨hk, ?_⟩
    have e : (pre ++ b).take (pre.length + j) = pre ++ b.take j := List.take_length_add_append j
    rw [hk, e] at g7
    rw [show pre.length + m = m' by omega]
    exact g7
  refine ⟨⟨h1, h2, v, len, m, h3, ?_, h5, h6, ?_⟩, fun pre k hk => (key pre k hk).1⟩
  · refine items_plain_front (front := [.name r.name]) h4 (by simp [o16]) fun pre => ?_
    obtain ⟨k, -, -, v', len', m', -, ⟨a, a1, -⟩, -⟩ := hp pre
    exact ⟨a, a, a1, rfl⟩
  · refine rdata_plain h7 fun pre => ?_
    obtain ⟨k, hk⟩ := hp pre
    exact (key pre k hk).2

theorem listAt_plain {α : Type} {R S : Nat → α → Nat → Prop} {T : Bytes → Nat → α → Nat → Prop}
    (hR : ∀ i x j, R i x j → (∀ pre : Bytes, ∃ k, T pre (pre.length + i) x k) →
      S i x j ∧ ∀ (pre : Bytes) (k : Nat), T pre (pre.length + i) x k → k = pre.length + j) :
    ∀ {xs : List α} {i j : Nat}, ListAt R i xs j → (∀ pre : Bytes, ∃ k, ListAt (T pre) (pre.length + i) xs k) →
      ListAt S i xs j ∧ ∀ (pre : Bytes) (k : Nat), ListAt (T pre) (pre.length + i) xs k → k = pre.length + j := by
  intro xs
  induction xs with
  | nil => intro i j h _; exact ⟨h, fun pre k hk => by have h1 : i = j := h; have h2 : _ = k := hk; omega⟩
  | cons x xs ih =>
    rintro i j ⟨m, h1, h2⟩ hp
    obtain ⟨c1, c2⟩ := hR _ _ _ h1 (fun pre => by obtain ⟨k, m', g1, -⟩ := hp pre; exact ⟨m', g1⟩)
    obtain ⟨d1, d2⟩ := ih h2 (fun pre => by
      obtain ⟨k, m', g1, g2⟩ := hp pre
      rw [c2 pre m' g1] at g2
      exact ⟨k, g2⟩)
    refine ⟨⟨m, c1, d1⟩, ?_⟩
    rintro pre k ⟨m', g1, g2⟩
    rw [c2 pre m' g1] at g2
    exact d2 pre k g2

/-- C108, exactly: of the messages of RFC 1035 that the crate reads at the start of a buffer, those without compression
are read as the same packet wherever they stand in a buffer, and no others. -/
theorem C108_exact (cfg : Cfg) (b : Bytes) (p : Packet) (h : SentMessage LegalName cfg b p)
    (hv : ∀ r ∈ records p, Writable cfg 63 r.rdata) (hr : Packet.parse cfg b = .ok p) :
    (∀ pre : Bytes, Packet.parseBuf cfg (pre ++ b) pre.length = (.ok p, pre.length + b.length)) ↔
      SentMessage PlainName cfg b p := by
  constructor
  · intro hp
    obtain ⟨c1, c2, c3, c4, i1, i2, i3, i4, h0, h1, h2, h3, h4⟩ := h
    have hq : ∀ pre : Bytes, ∃ e j2 j3 j4, ListAt (QuestionAt Decodes cfg (pre ++ b)) (pre.length + i1) p.questions j2 ∧
        ListAt (RecordAtWith (ParsedData cfg) Decodes cfg (pre ++ b)) j2 p.answers j3 ∧
        ListAt (RecordAtWith (ParsedData cfg) Decodes cfg (pre ++ b)) j3 p.authorities j4 ∧
        ListAt (RecordAtWith (ParsedData cfg) Decodes cfg (pre ++ b)) j4 p.additional e := by
      intro pre
      have h := hp pre
      obtain ⟨hd, q, an, au, ad⟩ := p
      simp only [Packet.parseBuf, Parser.bind_ok, Parser.pure_ok, Header.parse_ok (N := Decodes), seq_times,
        seq_listAt (fun i x j => Question.parse_ok), seq_listAt (fun i x j => ResourceRecord.parse_ok)] at h
      obtain ⟨hd', j1, k0, q', j2, ⟨-, k1⟩, an', j3, ⟨-, k2⟩, au', j4, ⟨-, k3⟩, ad', j5, ⟨-, k4⟩, hx, hy⟩ := h
      cases hx
      have e1 : j1 = pre.length + i1 :=
        (items_plain_of_moved (b := b) (i := 0) h0 (fun pre => ⟨_, items_nameless (by simp [headerItems])
          (items_move (N := PlainName) (fun _ _ _ _ h => plainName_move h _) (items_nameless (by simp [headerItems]) h0) pre)⟩)).2 pre j1 k0
      rw [e1] at k1
      exact ⟨_, _, _, _, k1, k2, k3, k4⟩
    obtain ⟨a1, b1⟩ := listAt_plain (T := fun pre => QuestionAt Decodes cfg (pre ++ b)) (fun _ _ _ => question_plain) h1
      (fun pre => by obtain ⟨e, j2, j3, j4, k1, -⟩ := hq pre; exact ⟨_, k1⟩)
    obtain ⟨a2, b2⟩ := listAt_plain (T := fun pre => RecordAtWith (ParsedData cfg) Decodes cfg (pre ++ b))
      (fun _ _ _ => record_plain) h2 (fun pre => by
        obtain ⟨e, j2, j3, j4, k1, k2, -⟩ := hq pre
        rw [b1 _ _ k1] at k2
        exact ⟨_, k2⟩)
    obtain ⟨a3, b3⟩ := listAt_plain (T := fun pre => RecordAtWith (ParsedData cfg) Decodes cfg (pre ++ b))
      (fun _ _ _ => record_plain) h3 (fun pre => by
        obtain ⟨e, j2, j3, j4, k1, k2, k3, -⟩ := hq pre
        rw [b1 _ _ k1] at k2
        rw [b2 _ _ k2] at k3
        exact ⟨_, k3⟩)
    obtain ⟨a4, -⟩ := listAt_plain (T := fun pre => RecordAtWith (ParsedData cfg) Decodes cfg (pre ++ b))
      (fun _ _ _ => record_plain) h4 (fun pre => by
        obtain ⟨e, j2, j3, j4, k1, k2, k3, k4⟩ := hq pre
        rw [b1 _ _ k1] at k2
        rw [b2 _ _ k2] at k3
        rw [b3 _ _ k3] at k4
        exact ⟨_, k4⟩)
    exact ⟨c1, c2, c3, c4, i1, i2, i3, i4, items_nameless (by simp [headerItems]) h0, a1, a2, a3, a4⟩
  · intro hp pre
    have hw : ∀ r ∈ records p, ReadWell r.rdata := (C99_exact cfg b p _ h hv).mp hr
    have := moved_read hp (fun r hr => ⟨hv r hr, hw r hr⟩) pre []
    simpa using this

/-- C108 is false with compression: of two messages that the crate writes with compression (whatever the hash function),
one behind the other, the second is read as one that asks for the name of the first. -/
theorem C108_counterexample (cfg : Cfg) (h : Hash) : ∃ (p q r : Packet) (a b : Bytes) (x y z : Question),
    p.toBytesCompressed cfg h = .ok a ∧ q.toBytesCompressed cfg h = .ok b ∧ p.questions = [x, x] ∧
    q.questions = [y, z] ∧ y.qName = [[98]] ∧ z.qName = [[98]] ∧ x.qName = [[97]] ∧
    Packet.parse cfg b = .ok q ∧
    Packet.parseBuf cfg (a ++ b) a.length = (.ok r, (a ++ b).length) ∧
    r.questions = [y, { z with qName := x.qName }] := by
  let r : Packet := { twoQuestions [98] [98] with
    questions := [⟨[[98]], .rr .A, .IN, false⟩, ⟨[[97]], .rr .A, .IN, false⟩] }
  refine ⟨twoQuestions [97] [97], twoQuestions [98] [98], r, _, _, ⟨[[97]], .rr .A, .IN, false⟩,
    ⟨[[98]], .rr .A, .IN, false⟩, ⟨[[98]], .rr .A, .IN, false⟩, twoQuestions_bytes cfg h [97] [97] rfl,
    twoQuestions_bytes cfg h [98] [98] rfl, rfl, rfl, rfl, rfl, rfl, ?_, ?_, rfl⟩
  all_goals
    obtain ⟨o, m, s⟩ := cfg
    cases o <;> cases m <;> cases s <;> decide +kernel

/-- Two packets meet the hypotheses of C108. -/
example : ∀ p ∈ [exPacket, exPacket], PacketOk ⟨true, true, true⟩ 63 p ∧ CountsOk p ∧
    ∀ r ∈ records p, WrittenWell r.rdata ∧ sizeError r.rdata = 0 ∧ r.rdata.type ≠ .SSHFP := by
  intro p hp
  obtain rfl : p = exPacket := by simpa using hp
  refine ⟨exPacket_ok, ⟨rfl, rfl, rfl, rfl⟩, fun r hr => ⟨(exPacket_well r hr).1, (exPacket_well r hr).2, ?_⟩⟩
  have : ∀ r ∈ records exPacket, r.rdata.type ≠ .SSHFP := by decide
  exact this r hr

/-- A message that meets the hypotheses of `C108_exact`, and of the others. -/
example : ∃ b, SentMessage LegalName ⟨true, true, true⟩ b exPacket ∧ SentMessage PlainName ⟨true, true, true⟩ b exPacket ∧
    (∀ r ∈ records exPacket, Writable ⟨true, true, true⟩ 63 r.rdata ∧ ReadWell r.rdata) ∧
    Packet.parse ⟨true, true, true⟩ b = .ok exPacket := by
  obtain ⟨b, -, h⟩ := C97_plain_partial ⟨true, true, true⟩ exPacket exPacket_ok exPacket_well
  rw [C27_counts exPacket ⟨rfl, rfl, rfl, rfl⟩] at h
  have hw : ∀ r ∈ records exPacket, Writable ⟨true, true, true⟩ 63 r.rdata ∧ ReadWell r.rdata := fun r hr =>
    ⟨(exPacket_ok.2.1 r hr).2.2.2.2.2.2.1, written_read (exPacket_well r hr).1
      ((by decide : ∀ r ∈ records exPacket, r.rdata.type ≠ .SSHFP) r hr)⟩
  have hl : SentMessage LegalName ⟨true, true, true⟩ b exPacket := C99_of_sent _ _ _ h
  exact ⟨b, hl, h, hw, (C99_exact _ b exPacket _ hl (fun r hr => (hw r hr).1)).mpr (fun r hr => (hw r hr).2)⟩

/-- A message with its length before it, read from the middle of a stream. -/
example : readFramed ⟨true, true, true⟩ ([7, 7] ++ framed ([0, 1, 0, 0, 0, 1, 0, 0, 0, 0, 0, 0] ++
    [1, 97, 0, 0, 1, 0, 1]) ++ [9]) 2 =
      (.ok ⟨⟨1, ⟨0, 0⟩, 1, 0, 0, 0⟩, [⟨[[97]], .rr .A, .IN, false⟩], [], [], []⟩, 23) := by decide +kernel

/-- A name without and one with a pointer. -/
example : LegalName [1, 97, 0, 0xC0, 0] 0 [[97]] 3 ∧ LegalName [1, 97, 0, 0xC0, 0] 3 [[97]] 5 ∧
    extractFqdn ([2] ++ [1, 97, 0, 0xC0, 0]) 1 = (.ok [[97]], 4) ∧
    extractFqdn ([0] ++ [1, 97, 0, 0xC0, 0]) 4 = (.ok [], 6) := by
  refine ⟨?_, ?_, by decide, by decide⟩
  · exact .label (by decide) (by decide) rfl ⟨[], [0, 0xC0, 0], rfl, rfl, rfl⟩ (.root rfl)
  · exact .pointer (by decide) ⟨[1, 97, 0], [], rfl, rfl, rfl⟩ (by decide)
      (.label (by decide) (by decide) rfl ⟨[], [0, 0xC0, 0], rfl, rfl, rfl⟩ (.root rfl))

end Dns
