import Verif.Props.Header
import Verif.Model.Reserved
import Verif.Props.Limits

/-
C123: memory reserved before anything is read (Model/Reserved.lean).
-/

namespace Dns
open Spec Buf

theorem sect_fst {α β : Type} {n : Nat} {p : Parser α} {next : List α → Bytes → Nat → Res β × List Nat}
    {f : List α → Parser β} (h : ∀ as d i, (next as d i).1 = (f as d i).1) (d : Bytes) (i : Nat) :
    (Reserved.sect n p next d i).1 = ((Parser.times n p >>= f) d i).1 := by
  show _ = (Parser.bind (Parser.times n p) f d i).1
  unfold Reserved.sect Parser.bind
  rcases Parser.times n p d i with ⟨_ | _ | _ | _, j⟩
  · exact h _ _ _
  · rfl
  · rfl
  · rfl

/-- C123: writing down what is reserved does not change the outcome of `Packet::try_from`. -/
theorem C123_same (cfg : Cfg) (d : Bytes) : (Reserved.packet cfg d).1 = Packet.parse cfg d := by
  unfold Reserved.packet Packet.parse Packet.parseBuf
  show _ = (Parser.bind Header.parse _ d 0).1
  unfold Parser.bind
  rcases Header.parse d 0 with ⟨h | _ | _ | _, i⟩
  · refine sect_fst (fun qs d i => sect_fst (fun an d i => sect_fst (fun au d i => sect_fst (fun ad d i => ?_) d i) d i) d i) d i
    rfl
  · rfl
  · rfl
  · rfl

theorem times_spans {α : Type} {p : Parser α} {d : Bytes} {c : Nat}
    (hp : ∀ i x j, p d i = (.ok x, j) → i + c ≤ j ∧ j ≤ d.length) : ∀ (n i j : Nat) (xs : List α), i ≤ d.length →
    Parser.times n p d i = (.ok xs, j) → xs.length = n ∧ i + c * n ≤ j ∧ j ≤ d.length := by
  intro n
  induction n with
  | zero => intro i j xs hi h; cases h; exact ⟨rfl, by omega, hi⟩
  | succ n ih =>
    intro i j xs hi h
    rw [Parser.times] at h
    obtain ⟨x, k, h1, h2⟩ := Parser.bind_ok.mp h
    obtain ⟨ys, k2, h3, h4⟩ := Parser.bind_ok.mp h2
    obtain ⟨rfl, rfl⟩ := Parser.pure_ok.mp h4
    have h5 := hp _ _ _ h1
    have h6 := ih _ _ _ h5.2 h3
    rw [List.length_cons, Nat.mul_add]
    omega

/-- What is reserved for a list of sections, the last of which may be incomplete: all but the last one are read. -/
theorem sect_bound {α β : Type} {n c : Nat} {p : Parser α} {d : Bytes}
    {next : List α → Bytes → Nat → Res β × List Nat} {i : Nat} (hi : i ≤ d.length)
    (hp : ∀ i x j, p d i = (.ok x, j) → i + c ≤ j ∧ j ≤ d.length)
    (hn : ∀ as j, i + c * n ≤ j → j ≤ d.length → (next as d j).2 = [] ∨
      ∃ l m, (next as d j).2 = l ++ [m] ∧ m < 65536 ∧ j + 5 * l.sum ≤ d.length) (hc : 5 ≤ c) (h16 : n < 65536) :
    ∃ l m, (Reserved.sect n p next d i).2 = l ++ [m] ∧ m < 65536 ∧ i + 5 * l.sum ≤ d.length := by
  unfold Reserved.sect
  cases h : Parser.times n p d i with
  | mk r j =>
    cases r with
    | ok as =>
      obtain ⟨_, h1, h2⟩ := times_spans hp n i j as hi h
      dsimp only
      rcases hn as j h1 h2 with h3 | ⟨l, m, h3, h4, h5⟩
      · exact ⟨[], n, by rw [h3]; rfl, h16, by simpa using hi⟩
      · refine ⟨n :: l, m, by rw [h3]; rfl, h4, ?_⟩
        rw [List.sum_cons]
        have := Nat.mul_le_mul_right n hc
        omega
    | err e => exact ⟨[], n, rfl, h16, by simpa using hi⟩
    | panic k => exact ⟨[], n, rfl, h16, by simpa using hi⟩
    | hang => exact ⟨[], n, rfl, h16, by simpa using hi⟩

theorem header_end {d : Bytes} {i j : Nat} {h : Header} (hh : Header.parse d i = (.ok h, j)) :
    j = i + 12 ∧ j ≤ d.length := by
  obtain ⟨k1, h1, k2, h2, k3, h3, k4, h4, k5, h5, k6, h6, k7, h7, rfl⟩ := Header.parse_ok (N := Decodes).mp hh
  obtain ⟨h1, _, _⟩ := octets_iff.mp h1
  obtain ⟨h2, _, _⟩ := octets_iff.mp h2
  obtain ⟨h3, _, _⟩ := octets_iff.mp h3
  obtain ⟨h4, _, _⟩ := octets_iff.mp h4
  obtain ⟨h5, _, _⟩ := octets_iff.mp h5
  obtain ⟨h6, _, _⟩ := octets_iff.mp h6
  obtain ⟨h7, h8, _⟩ := octets_iff.mp h7
  simp [octets16] at *
  omega

/-- C123 (partial): whatever the octets are, the elements reserved for all sections but the last one that is begun have
been read, five octets each at least, and the last one adds at most 65535.  What is missing: a bound by the length of the
message alone, which is false (`C123_counterexample`). -/
theorem C123_reserved_partial (cfg : Cfg) (d : Bytes) :
    5 * (Reserved.packet cfg d).2.sum ≤ d.length + 5 * 65535 := by
  have key : (Reserved.packet cfg d).2 = [] ∨
      ∃ l m, (Reserved.packet cfg d).2 = l ++ [m] ∧ m < 65536 ∧ 12 + 5 * l.sum ≤ d.length := by
    unfold Reserved.packet
    cases hh : Header.parse d 0 with
    | mk r i =>
      cases r with
      | ok h =>
        obtain ⟨e, hi⟩ := header_end hh
        have hq : ∀ i x j, Question.parse cfg d i = (.ok x, j) → i + 5 ≤ j ∧ j ≤ d.length :=
          fun i x j h => questionAt_length (Question.parse_ok.mp h)
        have hr : ∀ i x j, ResourceRecord.parse cfg d i = (.ok x, j) → i + 11 ≤ j ∧ j ≤ d.length :=
          fun i x j h => recordAt_length (ResourceRecord.parse_ok.mp h)
        have := sect_bound (next := fun qs => Reserved.sect h.ansCount.toNat (ResourceRecord.parse cfg) (fun an =>
          Reserved.sect h.authCount.toNat (ResourceRecord.parse cfg) (fun au =>
            Reserved.sect h.addCount.toNat (ResourceRecord.parse cfg) (fun ad _ _ =>
              ((.ok ⟨h, qs, an, au, ad⟩ : Res Packet), []))))) hi hq
          (fun qs j _ hj => .inr (sect_bound hj hr
            (fun an j _ hj => .inr (sect_bound hj hr
              (fun au j _ hj => .inr (sect_bound hj hr (fun _ _ _ _ => .inl rfl) (by decide) h.addCount.toNat_lt))
              (by decide) h.authCount.toNat_lt)) (by decide) h.ansCount.toNat_lt)) (by decide) h.quesCount.toNat_lt
        rw [e] at this
        rw [e]
        exact .inr this
      | err e => exact .inl rfl
      | panic k => exact .inl rfl
      | hang => exact .inl rfl
  rcases key with h | ⟨l, m, h, h1, h2⟩
  · rw [h]; simp
  · rw [h, List.sum_append]
    simp only [List.sum_cons, List.sum_nil]
    omega

theorem sect_ok {α β : Type} {n : Nat} {p : Parser α} {next : List α → Bytes → Nat → Res β × List Nat} {d : Bytes} {i : Nat}
    {b : β} (h : (Reserved.sect n p next d i).1 = .ok b) : ∃ as j, Parser.times n p d i = (.ok as, j) ∧
      (next as d j).1 = .ok b ∧ (Reserved.sect n p next d i).2 = n :: (next as d j).2 := by
  unfold Reserved.sect at h ⊢
  cases ht : Parser.times n p d i with
  | mk r j =>
    rw [ht] at h
    cases r with
    | ok as => exact ⟨as, j, rfl, h, rfl⟩
    | err e => cases h
    | panic k => cases h
    | hang => cases h

/-- C123: for a message that is accepted exactly the numbers of questions and records it has are reserved, so that
twelve octets, five for each question and eleven for each record reserved are in the message. -/
theorem C123_accepted (cfg : Cfg) (d : Bytes) (p : Packet) (h : Packet.parse cfg d = .ok p) :
    (Reserved.packet cfg d).2 =
      [p.questions.length, p.answers.length, p.authorities.length, p.additional.length] ∧
    12 + 5 * (Reserved.packet cfg d).2.sum ≤ d.length := by
  have hl : ∀ {α : Type} {q : Parser α} {n i j : Nat} {xs : List α}, Parser.times n q d i = (.ok xs, j) → xs.length = n :=
    fun h => (seq_times.mp h).1
  have h1 : (Reserved.packet cfg d).2 =
      [p.questions.length, p.answers.length, p.authorities.length, p.additional.length] := by
    rw [← C123_same] at h
    unfold Reserved.packet at h ⊢
    cases hh : Header.parse d 0 with
    | mk r i =>
      rw [hh] at h
      cases r with
      | ok hd =>
        obtain ⟨qs, j1, t1, h, e1⟩ := sect_ok h
        obtain ⟨an, j2, t2, h, e2⟩ := sect_ok h
        obtain ⟨au, j3, t3, h, e3⟩ := sect_ok h
        obtain ⟨ad, j4, t4, h, e4⟩ := sect_ok h
        dsimp only
        rw [e1, e2, e3, e4]
        cases h
        rw [hl t1, hl t2, hl t3, hl t4]
      | err e => cases h
      | panic k => cases h
      | hang => cases h
  refine ⟨h1, ?_⟩
  have := C87_sections_fit cfg d p h
  rw [h1]
  simp only [records, List.length_append, List.sum_cons, List.sum_nil] at this ⊢
  omega
example : (Reserved.packet ⟨true, true, true⟩ [0, 1, 1, 0, 0, 1, 0, 0, 0, 0, 0, 0, 1, 97, 0, 0, 1, 0, 1]).2 = [1, 0, 0, 0] :=
  (C123_accepted ⟨true, true, true⟩ _ ⟨⟨1, ⟨1, 0⟩, 1, 0, 0, 0⟩, [⟨[[97]], .rr .A, .IN, false⟩], [], [], []⟩
    (by decide +kernel)).1

theorem short_question (cfg : Cfg) (a b c d e f g h i j k l : UInt8) :
    Question.parse cfg [a, b, c, d, e, f, g, h, i, j, k, l, 0] 12 = (.err .lengthViolation, 13) := rfl

theorem short_record (cfg : Cfg) (a b c d e f g h i j k l : UInt8) :
    ResourceRecord.parse cfg [a, b, c, d, e, f, g, h, i, j, k, l, 0] 12 = (.err .lengthViolation, 13) := rfl

theorem sect_fails {α β : Type} {n : Nat} {p : Parser α} {next : List α → Bytes → Nat → Res β × List Nat} {d : Bytes}
    {i j : Nat} {e : DnsError} (h : p d i = (.err e, j)) :
    Reserved.sect n p next d i = if n = 0 then ((next [] d i).1, 0 :: (next [] d i).2) else (.err e, [n]) := by
  cases n with
  | zero => rfl
  | succ n =>
    have : Parser.times (n + 1) p d i = (.err e, j) := by
      rw [Parser.times]
      show Parser.bind p _ d i = _
      rw [Parser.bind, h]
    rw [Reserved.sect, this]
    rfl

/-- C123, false: a header and one more octet make the reader reserve memory for any number of questions, of answers, of
authorities or of additional records up to 65535, in whatever build, before it refuses the message: as many as the first
count says that is not zero. -/
theorem C123_counterexample (cfg : Cfg) (h : Header)
    (hc : ¬ (h.quesCount = 0 ∧ h.ansCount = 0 ∧ h.authCount = 0 ∧ h.addCount = 0)) :
    (h.toBytes ++ [0]).length = 13 ∧ Packet.parse cfg (h.toBytes ++ [0]) = .err .lengthViolation ∧
    (Reserved.packet cfg (h.toBytes ++ [0])).2.sum =
      if h.quesCount ≠ 0 then h.quesCount.toNat else if h.ansCount ≠ 0 then h.ansCount.toNat
      else if h.authCount ≠ 0 then h.authCount.toNat else h.addCount.toNat := by
  have h1 : Header.parse (h.toBytes ++ [0]) 0 = (.ok h, 12) := C20_header_round_trip h [] [0]
  have hb : ∃ a b c d e f g x i j k l, h.toBytes = [a, b, c, d, e, f, g, x, i, j, k, l] :=
    ⟨_, _, _, _, _, _, _, _, _, _, _, _, rfl⟩
  obtain ⟨a, b, c, d, e, f, g, x, i, j, k, l, hb⟩ := hb
  have hq := short_question cfg a b c d e f g x i j k l
  have hr := short_record cfg a b c d e f g x i j k l
  rw [hb] at h1 ⊢
  have hz : ∀ n : UInt16, n = 0 ↔ n.toNat = 0 := fun n => by rw [← UInt16.toNat_inj]; rfl
  have hp : (Reserved.packet cfg ([a, b, c, d, e, f, g, x, i, j, k, l] ++ [0])).1 = .err .lengthViolation ∧
      (Reserved.packet cfg ([a, b, c, d, e, f, g, x, i, j, k, l] ++ [0])).2.sum =
      if h.quesCount ≠ 0 then h.quesCount.toNat else if h.ansCount ≠ 0 then h.ansCount.toNat
      else if h.authCount ≠ 0 then h.authCount.toNat else h.addCount.toNat := by
    unfold Reserved.packet
    rw [h1]
    simp only [hz] at hc
    simp only [List.cons_append, List.nil_append, sect_fails hq, sect_fails hr]
    by_cases c1 : h.quesCount.toNat = 0
    · by_cases c2 : h.ansCount.toNat = 0
      · by_cases c3 : h.authCount.toNat = 0
        · by_cases c4 : h.addCount.toNat = 0
          · exact absurd ⟨c1, c2, c3, c4⟩ hc
          · rw [if_pos c1, if_pos c2, if_pos c3, if_neg c4, if_neg (not_not.mpr ((hz _).mpr c1)),
              if_neg (not_not.mpr ((hz _).mpr c2)),              if_neg (not_not.mpr ((hz _).mpr c3))]
            exact ⟨rfl, by simp⟩
        · rw [if_pos c1, if_pos c2, if_neg c3, if_neg (not_not.mpr ((hz _).mpr c1)),
            if_neg (not_not.mpr ((hz _).mpr c2)), if_pos (mt (hz _).mp c3)]
          exact ⟨rfl, by simp⟩
      · rw [if_pos c1, if_neg c2, if_neg (not_not.mpr ((hz _).mpr c1)), if_pos (mt (hz _).mp c2)]
        exact ⟨rfl, by simp⟩
    · rw [if_neg c1, if_pos (mt (hz _).mp c1)]
      exact ⟨rfl, by simp⟩
  exact ⟨rfl, by rw [← C123_same]; exact hp.1, hp.2⟩

/-- Non-vacuity: 65535 answers announced in 13 octets, and a message of 28 octets with one question and one record. -/
example : (Reserved.packet ⟨true, true, true⟩ [0, 0, 0, 0, 0, 0, 255, 255, 0, 0, 0, 0, 0]) =
      (.err .lengthViolation, [0, 65535]) ∧
    (Reserved.packet ⟨true, true, true⟩ [0, 1, 0x80, 0, 0, 1, 0, 1, 0, 0, 0, 0, 0, 0, 10, 0, 1,
      0, 0, 10, 0, 1, 0, 0, 0, 5, 0, 0]).2 = [1, 1, 0, 0] := by decide +kernel

end Dns
