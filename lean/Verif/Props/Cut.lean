import Verif.Lemmas.Cut
import Verif.Props.Robust
import Verif.Props.Stream
import Verif.Props.Write

/-
C109: what is said about a message that has not arrived completely.
-/

namespace Dns
open Spec Buf

/-! ## C109 -/

/-- C109 (partial): a message that is cut anywhere before its end is refused with the error of length, or with an index
out of bounds; never with another error, and reading it always ends.  What is missing: the panics, see
`C109_exact` and `C109_counterexample`. -/
theorem C109_packet_partial (cfg : Cfg) (d : Bytes) (p : Packet) (j k : Nat)
    (h : Packet.parseBuf cfg d 0 = (.ok p, j)) (hk : k < j) :
    Packet.parse cfg (d.take k) = .err .lengthViolation ∨ Packet.parse cfg (d.take k) = .panic .index := by
  have hj : j ≤ d.length := by
    have := Packet.bounded cfg d 0 (Nat.zero_le _)
    rwa [h] at this
  rcases CutWell.packet cfg d 0 p j h k (Nat.zero_le _) (by omega) with ⟨-, h1⟩ | h1
  · omega
  · exact h1
example : Packet.parse ⟨true, true, true⟩ ([0, 1, 0, 0, 0, 1, 0, 0, 0, 0, 0, 0, 1, 97, 0, 0, 1, 0, 1].take 16) =
      .err .lengthViolation ∨
    Packet.parse ⟨true, true, true⟩ ([0, 1, 0, 0, 0, 1, 0, 0, 0, 0, 0, 0, 1, 97, 0, 0, 1, 0, 1].take 16) = .panic .index :=
  C109_packet_partial ⟨true, true, true⟩ _ ⟨⟨1, ⟨0, 0⟩, 1, 0, 0, 0⟩, [⟨[[97]], .rr .A, .IN, false⟩], [], [], []⟩ 19 16
    (by decide +kernel) (by decide)

/-- C109 for a question that stands somewhere in the data (partial). -/
theorem C109_question_partial (cfg : Cfg) (d : Bytes) (q : Question) (i j k : Nat)
    (h : Question.parse cfg d i = (.ok q, j)) (hi : i ≤ k) (hk : k < j) :
    (Question.parse cfg (d.take k) i).1 = .err .lengthViolation ∨
      (Question.parse cfg (d.take k) i).1 = .panic .index := by
  have hj : j ≤ d.length := by
    obtain ⟨-, v, -, m1, -, m2, -, m3, h3, h4⟩ := Question.parse_ok.mp h
    have := h3.le
    have : m3 = j := h4
    omega
  rcases CutWell.question cfg d i q j h k hi (by omega) with ⟨-, h1⟩ | h1
  · omega
  · exact h1
example : (Question.parse ⟨true, true, true⟩ ([1, 97, 0, 0, 1, 0, 1].take 5) 0).1 = .err .lengthViolation ∨
    (Question.parse ⟨true, true, true⟩ ([1, 97, 0, 0, 1, 0, 1].take 5) 0).1 = .panic .index :=
  C109_question_partial ⟨true, true, true⟩ _ ⟨[[97]], .rr .A, .IN, false⟩ 0 7 5 (by decide +kernel) (by decide) (by decide)

/-- C109 for a record that stands somewhere in the data (partial). -/
theorem C109_record_partial (cfg : Cfg) (d : Bytes) (r : ResourceRecord) (i j k : Nat)
    (h : ResourceRecord.parse cfg d i = (.ok r, j)) (hi : i ≤ k) (hk : k < j) :
    (ResourceRecord.parse cfg (d.take k) i).1 = .err .lengthViolation ∨
      (ResourceRecord.parse cfg (d.take k) i).1 = .panic .index := by
  have hj : j ≤ d.length := by
    obtain ⟨-, -, v, len, m, -, -, -, h6, -⟩ := ResourceRecord.parse_ok.mp h
    exact h6
  rcases CutWell.record cfg d i r j h k hi (by omega) with ⟨-, h1⟩ | h1
  · omega
  · exact h1
example : (ResourceRecord.parse ⟨true, true, true⟩ ([0, 0, 1, 0, 1, 0, 0, 0, 5, 0, 4, 1, 2, 3, 4].take 12) 0).1 =
      .err .lengthViolation ∨
    (ResourceRecord.parse ⟨true, true, true⟩ ([0, 0, 1, 0, 1, 0, 0, 0, 5, 0, 4, 1, 2, 3, 4].take 12) 0).1 = .panic .index :=
  C109_record_partial ⟨true, true, true⟩ _ ⟨[], .A, false, .IN, 5, .A ⟨0x01020304⟩⟩ 0 15 12 (by decide +kernel) (by decide)
    (by decide)

/-- C109, exactly: a message that is cut is refused with the error of length if and only if no name the reader gets to
leads behind the end of what is there (or to a label that is one octet too long for it). -/
theorem C109_exact (cfg : Cfg) (d : Bytes) (p : Packet) (j k : Nat)
    (h : Packet.parseBuf cfg d 0 = (.ok p, j)) (hk : k < j) :
    Packet.parse cfg (d.take k) = .err .lengthViolation ↔
      ¬ ∃ d' i p o, Reads cfg (d.take k) d' i ∧ Visits d' i (p, o) ∧ Stuck d' p := by
  have h1 := C109_packet_partial cfg d p j k h hk
  have h2 := C31_no_panic_partial cfg (d.take k) .index
  simp only [true_and, reduceCtorEq, false_and, or_false] at h2
  rw [← h2]
  constructor
  · intro h3; rw [h3]; simp
  · intro h3; exact h1.resolve_right h3
/-! ## Messages without compression -/

/-- Octets of the labels, each with its length octet. -/
def Spec.labelsSize (ls : Fqdn) : Nat := (ls.map (fun l => l.length + 1)).sum

/-- The octets up to `k` end within the name `n`, which starts at `i` and has no pointer, either before a length octet
(or the zero octet at the end), or before the last octet of a label. -/
def Spec.CutInName (i : Nat) (n : Fqdn) (k : Nat) : Prop :=
  ∃ ls rest, n = ls ++ rest ∧ (k = i + labelsSize ls ∨ ∃ l rest', rest = l :: rest' ∧ k = i + labelsSize ls + l.length)

theorem cutInName_cons {i k : Nat} {l : Bytes} {n : Fqdn} : CutInName i (l :: n) k ↔
    k = i ∨ k = i + l.length ∨ CutInName (i + 1 + l.length) n k := by
  constructor
  · rintro ⟨ls, rest, h, hk⟩
    cases ls with
    | nil =>
      simp only [List.nil_append] at h
      subst h
      rcases hk with hk | ⟨l', rest', h1, hk⟩
      · left; simpa [labelsSize] using hk
      · cases h1; right; left; simpa [labelsSize] using hk
    | cons x ls =>
      simp only [List.cons_append, List.cons.injEq] at h
      obtain ⟨rfl, rfl⟩ := h
      right; right
      refine ⟨ls, rest, rfl, ?_⟩
      simp only [labelsSize, List.map_cons, List.sum_cons] at hk ⊢
      rcases hk with hk | ⟨l', rest', h1, hk⟩
      · left; omega
      · right; exact ⟨l', rest', h1, by omega⟩
  · rintro (rfl | rfl | ⟨ls, rest, rfl, hk⟩)
    · exact ⟨[], _, rfl, .inl (by simp [labelsSize])⟩
    · exact ⟨[], _, rfl, .inr ⟨l, n, rfl, by simp [labelsSize]⟩⟩
    · refine ⟨l :: ls, rest, rfl, ?_⟩
      simp only [labelsSize, List.map_cons, List.sum_cons] at hk ⊢
      rcases hk with hk | ⟨l', rest', h1, hk⟩
      · left; omega
      · right; exact ⟨l', rest', h1, by omega⟩

theorem cutInName_nil {i k : Nat} : CutInName i [] k ↔ k = i := by
  constructor
  · rintro ⟨ls, rest, h, hk⟩
    obtain ⟨rfl, rfl⟩ := List.append_eq_nil_iff.mp h.symm
    rcases hk with hk | ⟨l', rest', h1, hk⟩
    · simpa [labelsSize] using hk
    · cases h1
  · rintro rfl; exact ⟨[], [], rfl, .inl (by simp [labelsSize])⟩

theorem cutInName_bounds {i k j : Nat} {n : Fqdn} {d : Bytes} (h : PlainName d i n j) (hc : CutInName i n k) :
    i ≤ k ∧ k < j := by
  induction h with
  | root h => rw [cutInName_nil] at hc; omega
  | label _ _ _ h4 h5 ih =>
    have := (nameWith_end_le h5).1
    rcases cutInName_cons.mp hc with h | h | h
    · omega
    · omega
    · have := ih h; omega
  | pointer _ _ h => exact h.elim

theorem name_cut {d : Bytes} {i j : Nat} {n : Fqdn} (h : PlainName d i n j) (k : Nat) (hi : i ≤ k) (hk : k < j) :
    ∀ acc, ∃ fuel r l, fqdnLoop (d.take k) fuel ⟨i, acc, none⟩ = some (r, l) ∧
      (CutInName i n k → r = .panic .index) ∧ (¬ CutInName i n k → r = .err .lengthViolation) := by
  induction h with
  | root h =>
    intro acc
    have : k = _ := Nat.le_antisymm (Nat.le_of_lt_succ hk) hi
    subst this
    refine ⟨1, .panic .index, k, ?_, fun _ => rfl, fun h => absurd (cutInName_nil.mpr rfl) h⟩
    simp [fqdnLoop_succ, fqdnStep]
  | @label i j ls len l h1 h2 h3 h4 h5 ih =>
    intro acc
    have hle := h4.le
    have hlen : k ≤ d.length := by have := nameWith_end_le h5; omega
    have hl : (d.take k).length = k := by simp [hlen]
    have hg := octets_cons_getElem? h4
    have hm : len &&& 0xC0 ≠ 0xC0 := by rw [Ne, and_c0_iff]; omega
    by_cases hc : i = k
    · subst hc
      refine ⟨1, .panic .index, i, ?_, fun _ => rfl, fun h => absurd (cutInName_cons.mpr (.inl rfl)) h⟩
      simp [fqdnLoop_succ, fqdnStep]
    · have hg' : (d.take k)[i]? = some len := by rw [List.getElem?_take_of_lt (by omega)]; exact hg
      by_cases hc2 : k < i + l.length
      · refine ⟨1, .err .lengthViolation, i, ?_, ?_, fun _ => rfl⟩
        · rw [fqdnLoop_succ]
          simp only [fqdnStep, hg', if_neg hm, hl]
          rw [if_pos (by omega)]
        · intro h
          rcases cutInName_cons.mp h with h | h | h
          · omega
          · omega
          · have := (cutInName_bounds h5 h).1; omega
      · have hne : len ≠ 0 := by rintro rfl; simp at h1
        by_cases hc3 : k = i + l.length
        · refine ⟨1, .panic .index, i + 1, ?_, fun _ => rfl, fun h => absurd (cutInName_cons.mpr (.inr (.inl hc3))) h⟩
          rw [fqdnLoop_succ]
          simp only [fqdnStep, hg', if_neg hm, hl]
          rw [if_neg (by omega), if_neg hne, if_pos (by omega)]
        · obtain ⟨fuel, r, q, g1, g2, g3⟩ := ih (by omega) hk
            (acc ++ [((d.take k).drop (i + 1)).take len.toNat])
          refine ⟨fuel + 1, r, q, ?_, fun h => g2 ?_, fun h => g3 fun h' => h (cutInName_cons.mpr (.inr (.inr h')))⟩
          · rw [fqdnLoop_succ]
            simp only [fqdnStep, hg', if_neg hm, hl]
            rw [if_neg (by omega), if_neg hne, if_neg (by omega)]
            simp only
            rw [h3] at g1
            exact g1
          · rcases cutInName_cons.mp h with h | h | h
            · omega
            · omega
            · exact h
  | pointer _ _ h => exact h.elim

/-- C109 for names without pointers, exactly: a name that is cut is refused with the error of length, except where the
cut is before a length octet or before the last octet of a label; there the crate panics. -/
theorem C109_name_exact (d : Bytes) (i j k : Nat) (n : Fqdn) (h : PlainName d i n j) (hi : i ≤ k) (hk : k < j) :
    (CutInName i n k → (extractFqdn (d.take k) i).1 = .panic .index) ∧
    (¬ CutInName i n k → (extractFqdn (d.take k) i).1 = .err .lengthViolation) := by
  obtain ⟨fuel, r, l, h1, h2, h3⟩ := name_cut h k hi hk []
  have : extractFqdn (d.take k) i = (r, l) := by unfold Buf.extractFqdn; rw [fqdnLoop_fuel h1]
  rw [this]
  exact ⟨h2, h3⟩

/-- What a reader does with data cut at `k` that are read as `a` from `i` to `j`: it reads them if they are there; it
panics under the condition `B`, and gives the error of length otherwise. -/
def CutAs {α : Type} (p : Parser α) (d : Bytes) (k i : Nat) (a : α) (j : Nat) (B : Prop) : Prop :=
  i ≤ j ∧ (B → i ≤ k ∧ k < j) ∧ (j ≤ k → p (d.take k) i = (.ok a, j)) ∧
    (i ≤ k → k < j → (B → (p (d.take k) i).1 = .panic .index) ∧ (¬ B → (p (d.take k) i).1 = .err .lengthViolation))

namespace CutAs
variable {α β : Type} {d : Bytes} {k i m j : Nat}

theorem bind {p : Parser α} {f : α → Parser β} {a : α} {b : β} {A B : Prop} (hp : CutAs p d k i a m A)
    (hf : CutAs (f a) d k m b j B) : CutAs (p >>= f) d k i b j (A ∨ B) := by
  obtain ⟨p1, p2, p3, p4⟩ := hp
  obtain ⟨f1, f2, f3, f4⟩ := hf
  refine ⟨by omega, ?_, ?_, ?_⟩
  · rintro (h | h)
    · have := p2 h; omega
    · have := f2 h; omega
  · intro h
    rw [Parser.bind_apply, p3 (by omega)]
    exact f3 h
  · intro hi hj
    rw [Parser.bind_apply]
    by_cases hm : k < m
    · obtain ⟨q1, q2⟩ := p4 hi hm
      rcases hq : p (d.take k) i with ⟨r, l⟩
      rw [hq] at q1 q2
      constructor
      · rintro (h | h)
        · obtain rfl : r = _ := q1 h
          rfl
        · have := f2 h; omega
      · intro h
        obtain rfl : r = _ := q2 (fun h' => h (.inl h'))
        rfl
    · rw [p3 (by omega)]
      obtain ⟨q1, q2⟩ := f4 (by omega) hj
      constructor
      · rintro (h | h)
        · have := p2 h; omega
        · exact q1 h
      · exact fun h => q2 (fun h' => h (.inr h'))

theorem pure (a : α) : CutAs (pure a : Parser α) d k i a i False :=
  ⟨Nat.le_refl _, False.elim, fun _ => rfl, fun h1 h2 => absurd h1 (by omega)⟩

theorem lift {r : Res α} {a : α} (h : r = .ok a) : CutAs (Parser.lift r) d k i a i False := by
  subst h; exact ⟨Nat.le_refl _, False.elim, fun _ => rfl, fun h1 h2 => absurd h1 (by omega)⟩

theorem still {p : Parser α} {a : α} (h : p (d.take k) i = (.ok a, i)) : CutAs p d k i a i False :=
  ⟨Nat.le_refl _, False.elim, fun _ => h, fun h1 h2 => absurd h1 (by omega)⟩

theorem octets_take {x : Bytes} (h : Octets d i x j) (hk : j ≤ k) : Octets (d.take k) i x j := by
  obtain ⟨u, v, rfl, rfl, rfl⟩ := h
  refine ⟨u, v.take (k - (u ++ x).length), ?_, rfl, rfl⟩
  rw [List.take_append, List.take_of_length_le (by simp; omega)]

theorem name {n : Fqdn} (h : PlainName d i n j) : CutAs extractFqdn d k i n j (CutInName i n k) := by
  refine ⟨(nameWith_end_le h).1.le, cutInName_bounds h, fun hk => ?_, fun h1 h2 => C109_name_exact d i j k n h h1 h2⟩
  have : PlainName (d.take k) i n j := by
    induction h with
    | root h => exact .root (by rw [List.getElem?_take_of_lt (by omega)]; exact h)
    | label h1 h2 h3 h4 h5 ih =>
      have := (nameWith_end_le h5).1
      exact .label h1 h2 h3 (octets_take h4 (by omega)) (ih hk)
    | pointer _ _ h => exact h.elim
  exact C08_legal_name_decoded _ _ _ _ (plain_legal this)

theorem bytes {x : Bytes} (h : Octets d i x j) : CutAs (extractBytes x.length) d k i x j False := by
  have he := h.end_eq
  refine ⟨by omega, False.elim, fun hk => extractBytes_ok.mpr ⟨rfl, octets_take h hk⟩, fun h1 h2 =>
    ⟨False.elim, fun _ => ?_⟩⟩
  unfold Buf.extractBytes
  rw [if_pos (by simp; omega)]

theorem u16 {v : UInt16} (h : Octets d i (octets16 v) j) : CutAs extractU16 d k i v j False := by
  have he := h.end_eq
  refine ⟨by omega, False.elim, fun hk => extractU16_ok.mpr (octets_take h hk), fun h1 h2 => ⟨False.elim, fun _ => ?_⟩⟩
  have hl : (octets16 v).length = 2 := rfl
  have hb : extractBytes 2 (d.take k) i = (.err .lengthViolation, i) := by
    unfold Buf.extractBytes
    rw [if_pos (by simp; omega)]
  unfold Buf.extractU16
  rw [Parser.bind_apply, hb]

theorem u32 {v : UInt32} (h : Octets d i (octets32 v) j) : CutAs extractU32 d k i v j False := by
  have he := h.end_eq
  refine ⟨by omega, False.elim, fun hk => extractU32_ok.mpr (octets_take h hk), fun h1 h2 => ⟨False.elim, fun _ => ?_⟩⟩
  have hl : (octets32 v).length = 4 := rfl
  have hb : extractBytes 4 (d.take k) i = (.err .lengthViolation, i) := by
    unfold Buf.extractBytes
    rw [if_pos (by simp; omega)]
  unfold Buf.extractU32
  rw [Parser.bind_apply, hb]

theorem data {p : Parser α} {len : Nat} {a : α} {f : α × Nat → β} {b : β} {e : Nat} (h : p (d.take (i + len)) i = (.ok a, e))
    (hl : i + len ≤ d.length)
    (hb : f (a, e) = b) :
    CutAs (do let x ← withSubBuffer len p; advance len; return f x) d k i b (i + len) False := by
  refine ⟨by omega, False.elim, fun hk => ?_, fun h1 h2 => ⟨False.elim, fun _ => ?_⟩⟩
  · have h1 : withSubBuffer len p (d.take k) i = (.ok (a, e), i) := by
      unfold Buf.withSubBuffer
      by_cases hd : i + len ≤ d.length
      · rw [if_neg (by simp; omega), List.take_take, Nat.min_eq_left (by omega), Nat.add_comm len i, h]
      · exact absurd hl hd
    have h2 : advance len (d.take k) i = (.ok (), len + i) := by
      unfold Buf.advance
      rw [if_neg (by simp; omega)]
    rw [Parser.bind_apply, h1]
    simp only
    rw [Parser.bind_apply, h2, ← hb, Nat.add_comm]
    rfl
  · have h1 : withSubBuffer len p (d.take k) i = (.err .lengthViolation, i) := by
      unfold Buf.withSubBuffer
      rw [if_pos (by simp; omega)]
    rw [Parser.bind_apply, h1]

theorem weaken {p : Parser α} {a : α} {A B : Prop} (h : CutAs p d k i a j A) (hAB : A ↔ B) : CutAs p d k i a j B := by
  rw [← propext hAB]; exact h

theorem question {cfg : Cfg} {q : Question} (h : QuestionAt PlainName cfg d i q j) :
    CutAs (Question.parse cfg) d k i q j (CutInName i q.qName k) := by
  have hq : Question.parse cfg d i = (.ok q, j) := by
    obtain ⟨h1, v, h2, h3⟩ := h
    exact Question.parse_ok.mpr ⟨h1, v, h2, legal_decodes (items_mono (fun _ _ _ _ => plain_legal) h3)⟩
  obtain ⟨-, v, -, m1, n1, m2, n2, m3, n3, n4⟩ := h
  obtain rfl : m3 = j := n4
  unfold Question.parse at hq ⊢
  obtain ⟨n, l1, a1, hq⟩ := Parser.bind_ok.mp hq
  obtain ⟨rfl, rfl⟩ := decodes_fun a1 (C08_legal_name_decoded _ _ _ _ (plain_legal n1))
  obtain ⟨t, l2, a2, hq⟩ := Parser.bind_ok.mp hq
  obtain ⟨t', l3, a3, hq⟩ := Parser.bind_ok.mp hq
  obtain ⟨a3', rfl⟩ := Parser.lift_ok.mp a3
  obtain ⟨v', l4, a4, hq⟩ := Parser.bind_ok.mp hq
  have tail : l4 = m3 ∧ ∀ d', (if cfg.mdns = true then
      if v' &&& 0x8000 > 0 then do
        let c ← Parser.lift (QClass.ofU16 (v' &&& ~~~0x8000))
        return (⟨q.qName, t', c, true⟩ : Question)
      else do
        let c ← Parser.lift (QClass.ofU16 v')
        return ⟨q.qName, t', c, false⟩
    else do
      let c ← Parser.lift (QClass.ofU16 v')
      return ⟨q.qName, t', c, false⟩ : Parser Question) d' l4 = (.ok q, l4) := by
    split at hq
    · split at hq
      · obtain ⟨c, l5, a5, a6⟩ := Parser.bind_ok.mp hq
        obtain ⟨a5', rfl⟩ := Parser.lift_ok.mp a5
        obtain ⟨a6', rfl⟩ := Parser.pure_ok.mp a6
        refine ⟨rfl, fun d' => ?_⟩
        rw [if_pos ‹_›, if_pos ‹_›]
        exact Parser.bind_ok.mpr ⟨c, _, Parser.lift_ok.mpr ⟨a5', rfl⟩, Parser.pure_ok.mpr ⟨a6', rfl⟩⟩
      · obtain ⟨c, l5, a5, a6⟩ := Parser.bind_ok.mp hq
        obtain ⟨a5', rfl⟩ := Parser.lift_ok.mp a5
        obtain ⟨a6', rfl⟩ := Parser.pure_ok.mp a6
        refine ⟨rfl, fun d' => ?_⟩
        rw [if_pos ‹_›, if_neg ‹_›]
        exact Parser.bind_ok.mpr ⟨c, _, Parser.lift_ok.mpr ⟨a5', rfl⟩, Parser.pure_ok.mpr ⟨a6', rfl⟩⟩
    · obtain ⟨c, l5, a5, a6⟩ := Parser.bind_ok.mp hq
      obtain ⟨a5', rfl⟩ := Parser.lift_ok.mp a5
      obtain ⟨a6', rfl⟩ := Parser.pure_ok.mp a6
      refine ⟨rfl, fun d' => ?_⟩
      rw [if_neg ‹_›]
      exact Parser.bind_ok.mpr ⟨c, _, Parser.lift_ok.mpr ⟨a5', rfl⟩, Parser.pure_ok.mpr ⟨a6', rfl⟩⟩
  obtain ⟨rfl, tail⟩ := tail
  exact weaken (bind (name n1) (bind (u16 (extractU16_ok.mp a2)) (bind (lift a3') (bind (u16 (extractU16_ok.mp a4))
    (still (tail _)))))) (by simp)


theorem record {cfg : Cfg} {r : ResourceRecord}
    (h : RecordAtWith (RDataWritten PlainName cfg) PlainName cfg d i r j) (hv : Writable cfg 63 r.rdata)
    (hw : ReadWell r.rdata) : CutAs (ResourceRecord.parse cfg) d k i r j (CutInName i r.name k) := by
  have hq : ResourceRecord.parse cfg d i = (.ok r, j) := by
    obtain ⟨a1, a2, v, len, m, a3, a4, a5, a6, a7, its, a8, a9⟩ := h
    exact ResourceRecord.parse_ok.mpr ⟨a1, a2, v, len, m, a3, legal_decodes (items_mono (fun _ _ _ _ => plain_legal) a4),
      a5, a6, readWell_parsed hv hw ⟨a7, its, a8, items_mono (fun _ _ _ _ => plain_legal) a9⟩⟩
  obtain ⟨-, -, v, len, m, -, ⟨m1, n1, -⟩, -, hd, -⟩ := h
  unfold ResourceRecord.parse at hq ⊢
  obtain ⟨n, l1, a1, hq⟩ := Parser.bind_ok.mp hq
  obtain ⟨rfl, rfl⟩ := decodes_fun a1 (C08_legal_name_decoded _ _ _ _ (plain_legal n1))
  obtain ⟨t, l2, a2, hq⟩ := Parser.bind_ok.mp hq
  obtain ⟨t', l3, a3, hq⟩ := Parser.bind_ok.mp hq
  obtain ⟨a3', rfl⟩ := Parser.lift_ok.mp a3
  obtain ⟨c, l4, a4, hq⟩ := Parser.bind_ok.mp hq
  obtain ⟨ttl, l5, a5, hq⟩ := Parser.bind_ok.mp hq
  obtain ⟨len', l6, a6, hq⟩ := Parser.bind_ok.mp hq
  obtain ⟨x, l7, a7, hq⟩ := Parser.bind_ok.mp hq
  obtain ⟨u, l8, a8, hq⟩ := Parser.bind_ok.mp hq
  obtain ⟨a9, rfl⟩ := Parser.pure_ok.mp hq
  obtain ⟨x, e⟩ := x
  obtain ⟨b1, b0, b2⟩ := withSubBuffer_ok.mp a7
  subst b0
  rw [Nat.add_comm] at b2
  have b3 : l8 = l7 + len'.toNat := by
    unfold Buf.advance at a8
    split at a8
    · cases a8
    · cases a8; omega
  subst b3
  have cls : CutAs (ResourceRecord.parseClass cfg) d k l2 c l4 False := by
    unfold ResourceRecord.parseClass at a4 ⊢
    obtain ⟨w, l9, c1, c2⟩ := Parser.bind_ok.mp a4
    refine weaken (bind (u16 (extractU16_ok.mp c1)) (B := False) ?_) (by simp)
    split at c2
    · split at c2
      · obtain ⟨c2', rfl⟩ := Parser.pure_ok.mp c2
        rw [if_pos ‹_›, if_pos ‹_›]; exact c2' ▸ pure _
      · obtain ⟨c2', rfl⟩ := Parser.pure_ok.mp c2
        rw [if_pos ‹_›, if_neg ‹_›]; exact c2' ▸ pure _
    · obtain ⟨c2', rfl⟩ := Parser.pure_ok.mp c2
      rw [if_neg ‹_›]; exact c2' ▸ pure _
  exact weaken (bind (name n1) (bind (u16 (extractU16_ok.mp a2)) (bind (lift a3') (bind cls (bind (u32 (extractU32_ok.mp a5))
    (bind (u16 (extractU16_ok.mp a6)) (data b2 hd a9))))))) (by simp)

/-- Some element of the list, which start at `i`, meets the condition at its position. -/
def In (R : Nat → α → Nat → Prop) (C : Nat → α → Prop) : Nat → List α → Prop
  | _, [] => False
  | i, x :: xs => C i x ∨ ∃ j, R i x j ∧ In R C j xs

theorem in_append {R : Nat → α → Nat → Prop} {C : Nat → α → Prop} : ∀ {xs ys : List α} {i : Nat},
    In R C i (xs ++ ys) ↔ In R C i xs ∨ ∃ m, ListAt R i xs m ∧ In R C m ys := by
  intro xs
  induction xs with
  | nil => intro ys i; simp [In, ListAt]
  | cons x xs ih =>
    intro ys i
    simp only [List.cons_append, In, ih, ListAt]
    constructor
    · rintro (h | ⟨j, h1, h2 | ⟨m, h2, h3⟩⟩)
      · exact .inl (.inl h)
      · exact .inl (.inr ⟨j, h1, h2⟩)
      · exact .inr ⟨m, ⟨j, h1, h2⟩, h3⟩
    · rintro ((h | ⟨j, h1, h2⟩) | ⟨m, ⟨j, h1, h2⟩, h3⟩)
      · exact .inl h
      · exact .inr ⟨j, h1, .inl h2⟩
      · exact .inr ⟨j, h1, .inr ⟨m, h2, h3⟩⟩

theorem in_iff {R : Nat → α → Nat → Prop} {C : Nat → α → Prop} : ∀ {xs : List α} {i : Nat},
    In R C i xs ↔ ∃ ys x zs m, xs = ys ++ x :: zs ∧ ListAt R i ys m ∧ C m x := by
  intro xs
  induction xs with
  | nil => intro i; simp [In]
  | cons x xs ih =>
    intro i
    simp only [In, ih]
    constructor
    · rintro (h | ⟨j, h1, ys, y, zs, m, rfl, h2, h3⟩)
      · exact ⟨[], x, xs, i, rfl, rfl, h⟩
      · exact ⟨x :: ys, y, zs, m, rfl, ⟨j, h1, h2⟩, h3⟩
    · rintro ⟨ys, y, zs, m, h, h2, h3⟩
      cases ys with
      | nil =>
        simp only [List.nil_append, List.cons.injEq] at h
        obtain ⟨rfl, rfl⟩ := h
        obtain rfl : i = m := h2
        exact .inl h3
      | cons y' ys =>
        simp only [List.cons_append, List.cons.injEq] at h
        obtain ⟨rfl, rfl⟩ := h
        obtain ⟨j, h4, h5⟩ := h2
        exact .inr ⟨j, h4, ys, y, zs, m, rfl, h5, h3⟩

theorem times {p : Parser α} {R : Nat → α → Nat → Prop} {C : Nat → α → Prop}
    (hf : ∀ i x j k, R i x j → R i x k → j = k) : ∀ {xs : List α} {i : Nat},
    (∀ x ∈ xs, ∀ i j, R i x j → CutAs p d k i x j (C i x)) → ListAt R i xs j →
    CutAs (Parser.times xs.length p) d k i xs j (In R C i xs) := by
  intro xs
  induction xs with
  | nil => rintro i - h; obtain rfl : i = j := h; exact pure _
  | cons x xs ih =>
    rintro i h ⟨m, h1, h2⟩
    have h3 := bind (f := fun a => do let as ← Parser.times xs.length p; return a :: as) (h x List.mem_cons_self i m h1)
      (bind (f := fun as => (Pure.pure (x :: as) : Parser _)) (ih (fun y hy => h y (List.mem_cons_of_mem _ hy)) h2) (pure _))
    refine weaken h3 ?_
    simp only [or_false, In]
    constructor
    · rintro (h4 | h4)
      · exact .inl h4
      · exact .inr ⟨m, h1, h4⟩
    · rintro (h4 | ⟨j', h4, h5⟩)
      · exact .inl h4
      · rw [hf _ _ _ _ h1 h4]; exact .inr h5

theorem header {h : Header} (hh : Items.At PlainName d i (headerItems h) j) :
    CutAs Header.parse d k i h j False := by
  have hq : Header.parse d i = (.ok h, j) := (Header.parse_ok (N := PlainName)).mpr hh
  obtain ⟨m1, n1, m2, n2, m3, n3, m4, n4, m5, n5, m6, n6, m7, n7, n8⟩ := hh
  obtain rfl : m7 = j := n8
  unfold Header.parse at hq ⊢
  obtain ⟨x1, l1, a1, hq⟩ := Parser.bind_ok.mp hq
  obtain ⟨x2, l2, a2, hq⟩ := Parser.bind_ok.mp hq
  obtain ⟨x3, l3, a3, hq⟩ := Parser.bind_ok.mp hq
  obtain ⟨x4, l4, a4, hq⟩ := Parser.bind_ok.mp hq
  obtain ⟨x5, l5, a5, hq⟩ := Parser.bind_ok.mp hq
  obtain ⟨x6, l6, a6, hq⟩ := Parser.bind_ok.mp hq
  obtain ⟨a7, hj⟩ := Parser.pure_ok.mp hq
  subst a7
  subst hj
  obtain ⟨b1, b2⟩ := extractBytes_ok.mp a2
  have h2 := bytes (k := k) b2
  rw [b1] at h2
  exact weaken (bind (u16 (extractU16_ok.mp a1)) (bind h2 (bind (u16 (extractU16_ok.mp a3)) (bind (u16 (extractU16_ok.mp a4))
    (bind (u16 (extractU16_ok.mp a5)) (bind (u16 (extractU16_ok.mp a6)) (pure _))))))) (by simp)

end CutAs

/-- The name `n` of a question or of a record stands at `i` in the message without compression that says what `p`
says. -/
def Spec.NameStands (cfg : Cfg) (b : Bytes) (p : Packet) (i : Nat) (n : Fqdn) : Prop :=
  (∃ qs q qs', p.questions = qs ++ q :: qs' ∧ q.qName = n ∧ ListAt (QuestionAt PlainName cfg b) 12 qs i) ∨
  (∃ m rs r rs', records p = rs ++ r :: rs' ∧ r.name = n ∧ ListAt (QuestionAt PlainName cfg b) 12 p.questions m ∧
    ListAt (RecordAtWith (RDataWritten PlainName cfg) PlainName cfg b) m rs i)

theorem plainQuestion_fun {cfg : Cfg} {d : Bytes} (i : Nat) (q : Question) (j k : Nat)
    (h1 : QuestionAt PlainName cfg d i q j) (h2 : QuestionAt PlainName cfg d i q k) : j = k := by
  have hm : ∀ {j}, QuestionAt PlainName cfg d i q j → QuestionAt Decodes cfg d i q j := by
    rintro j ⟨a, v, b, c⟩
    exact ⟨a, v, b, legal_decodes (items_mono (fun _ _ _ _ => plain_legal) c)⟩
  exact questionAt_fun i q j k (hm h1) (hm h2)

theorem plainRecord_fun {cfg : Cfg} {d : Bytes} (i : Nat) (r : ResourceRecord) (j k : Nat)
    (h1 : RecordAtWith (RDataWritten PlainName cfg) PlainName cfg d i r j)
    (h2 : RecordAtWith (RDataWritten PlainName cfg) PlainName cfg d i r k) : j = k := by
  obtain ⟨-, -, v, l, m, -, a1, a2, -⟩ := h1
  obtain ⟨-, -, v', l', m', -, b1, b2, -⟩ := h2
  obtain ⟨rfl, rfl⟩ := recordHead_unique (legal_decodes (items_mono (fun _ _ _ _ => plain_legal) a1))
    (legal_decodes (items_mono (fun _ _ _ _ => plain_legal) b1))
  omega

/-- C109 for messages without compression, exactly: a message that is cut is refused with the error of length, except
where the cut is in the name of a question or record, before a length octet or before the last octet of a label; there
the crate panics. -/
theorem C109_plain_exact (cfg : Cfg) (b : Bytes) (p : Packet) (k : Nat) (h : SentMessage PlainName cfg b p)
    (hv : ∀ r ∈ records p, Writable cfg 63 r.rdata ∧ ReadWell r.rdata) (hk : k < b.length) :
    (Packet.parse cfg (b.take k) = .panic .index ↔ ∃ i n, NameStands cfg b p i n ∧ CutInName i n k) ∧
    (Packet.parse cfg (b.take k) = .err .lengthViolation ↔ ¬ ∃ i n, NameStands cfg b p i n ∧ CutInName i n k) := by
  obtain ⟨c1, c2, c3, c4, i1, i2, i3, i4, h0, h1, h2, h3, h4⟩ := h
  have e1 : i1 = 12 := by
    obtain ⟨m1, n1, m2, n2, m3, n3, m4, n4, m5, n5, m6, n6, m7, n7, n8⟩ := h0
    have := n1.end_eq; have := n2.end_eq; have := n3.end_eq; have := n4.end_eq; have := n5.end_eq; have := n6.end_eq
    have := n7.end_eq
    have : m7 = i1 := n8
    simp [octets16] at *
    omega
  subst e1
  have hrec : ∀ {rs i j}, (∀ r ∈ rs, r ∈ records p) →
      ListAt (RecordAtWith (RDataWritten PlainName cfg) PlainName cfg b) i rs j →
      CutAs (Parser.times rs.length (ResourceRecord.parse cfg)) b k i rs j
        (CutAs.In (RecordAtWith (RDataWritten PlainName cfg) PlainName cfg b) (fun i r => CutInName i r.name k) i rs) :=
    fun hm h => CutAs.times plainRecord_fun (fun r hr i j hr' => CutAs.record hr' (hv r (hm r hr)).1 (hv r (hm r hr)).2) h
  have key := CutAs.bind (f := fun h => do
        let qs ← Parser.times h.quesCount.toNat (Question.parse cfg)
        let an ← Parser.times h.ansCount.toNat (ResourceRecord.parse cfg)
        let au ← Parser.times h.authCount.toNat (ResourceRecord.parse cfg)
        let ad ← Parser.times h.addCount.toNat (ResourceRecord.parse cfg)
        return (⟨h, qs, an, au, ad⟩ : Packet)) (CutAs.header (k := k) h0)
    (CutAs.bind (c1 ▸ CutAs.times (C := fun i (q : Question) => CutInName i q.qName k) plainQuestion_fun
        (fun q _ i j hq => CutAs.question hq) h1)
      (CutAs.bind (c2 ▸ hrec (fun r hr => by simp [records, hr]) h2)
        (CutAs.bind (c3 ▸ hrec (fun r hr => by simp [records, hr]) h3)
          (CutAs.bind (c4 ▸ hrec (fun r hr => by simp [records, hr]) h4) (CutAs.pure _)))))
  have hiff : (∃ i n, NameStands cfg b p i n ∧ CutInName i n k) ↔
      CutAs.In (QuestionAt PlainName cfg b) (fun i q => CutInName i q.qName k) 12 p.questions ∨
      CutAs.In (RecordAtWith (RDataWritten PlainName cfg) PlainName cfg b) (fun i r => CutInName i r.name k) i2
        (records p) := by
    rw [CutAs.in_iff, CutAs.in_iff]
    constructor
    · rintro ⟨i, n, ⟨qs, q, qs', g1, rfl, g2⟩ | ⟨m, rs, r, rs', g1, rfl, g2, g3⟩, g4⟩
      · exact .inl ⟨qs, q, qs', i, g1, g2, g4⟩
      · obtain rfl := listAt_fun plainQuestion_fun _ _ _ _ h1 g2
        exact .inr ⟨rs, r, rs', i, g1, g3, g4⟩
    · rintro (⟨qs, q, qs', i, g1, g2, g4⟩ | ⟨rs, r, rs', i, g1, g3, g4⟩)
      · exact ⟨i, _, .inl ⟨qs, q, qs', g1, rfl, g2⟩, g4⟩
      · exact ⟨i, _, .inr ⟨_, rs, r, rs', g1, rfl, h1, g3⟩, g4⟩
  have hin : ∀ {xs ys : List ResourceRecord} {i j},
      ListAt (RecordAtWith (RDataWritten PlainName cfg) PlainName cfg b) i xs j →
      (CutAs.In (RecordAtWith (RDataWritten PlainName cfg) PlainName cfg b) (fun i r => CutInName i r.name k) i (xs ++ ys) ↔
        CutAs.In (RecordAtWith (RDataWritten PlainName cfg) PlainName cfg b) (fun i r => CutInName i r.name k) i xs ∨
        CutAs.In (RecordAtWith (RDataWritten PlainName cfg) PlainName cfg b) (fun i r => CutInName i r.name k) j ys) := by
    intro xs ys i j hx
    rw [CutAs.in_append]
    constructor
    · rintro (g | ⟨m, g1, g2⟩)
      · exact .inl g
      · obtain rfl := listAt_fun plainRecord_fun _ _ _ _ hx g1
        exact .inr g2
    · rintro (g | g)
      · exact .inl g
      · exact .inr ⟨_, hx, g⟩
  have key' := CutAs.weaken (B := ∃ i n, NameStands cfg b p i n ∧ CutInName i n k) key (by
    rw [hiff, records, List.append_assoc, hin h2, hin h3]; simp)
  obtain ⟨-, -, -, key'⟩ := key'
  obtain ⟨k1, k2⟩ := key' (Nat.zero_le _) hk
  have e : ∀ o, ((Packet.parseBuf cfg) (b.take k) 0).1 = o ↔ Packet.parse cfg (b.take k) = o := fun o => Iff.rfl
  by_cases hc : ∃ i n, NameStands cfg b p i n ∧ CutInName i n k
  · have k3 : Packet.parse cfg (b.take k) = .panic .index := k1 hc
    rw [k3]
    exact ⟨by simp [hc], by simp [hc]⟩
  · have k3 : Packet.parse cfg (b.take k) = .err .lengthViolation := k2 hc
    rw [k3]
    exact ⟨by simp [hc], by simp [hc]⟩

/-- C109 for what `to_bytes()` writes, exactly: cut anywhere, it is refused with the error of length, except where the cut
is in the name of a question or record, before a length octet or before the last octet of a label. -/
theorem C109_written_exact (cfg : Cfg) (p : Packet) (hp : PacketOk cfg 63 p) (hc : CountsOk p)
    (hw : ∀ r ∈ records p, WrittenWell r.rdata ∧ sizeError r.rdata = 0 ∧ r.rdata.type ≠ .SSHFP) :
    ∃ b, p.toBytes cfg = .ok b ∧ ∀ k, k < b.length →
      (Packet.parse cfg (b.take k) = .panic .index ↔ ∃ i n, NameStands cfg b p i n ∧ CutInName i n k) ∧
      (Packet.parse cfg (b.take k) = .err .lengthViolation ↔ ¬ ∃ i n, NameStands cfg b p i n ∧ CutInName i n k) := by
  obtain ⟨b, h1, h2⟩ := C97_plain_partial cfg p hp (fun r hr => ⟨(hw r hr).1, (hw r hr).2.1⟩)
  rw [C27_counts p hc] at h2
  exact ⟨b, h1, fun k => C109_plain_exact cfg b p k h2
    (fun r hr => ⟨(hp.2.1 r hr).2.2.2.2.2.2.1, written_read (hw r hr).1 (hw r hr).2.2⟩)⟩

/-- C109 for what `to_bytes_compressed()` writes (partial): cut anywhere, it is refused with the error of length or with
an index out of bounds. -/
theorem C109_compressed_partial (cfg : Cfg) (h : Hash) (p : Packet) (hp : PacketOk cfg 191 p) (hc : CountsOk p)
    (hs : ∀ r ∈ records p, r.rdata.type ≠ .SSHFP) (hh : NoCollision h (packetNames p)) (b : Bytes)
    (hb : p.toBytesCompressed cfg h = .ok b) (hl : b.length ≤ 16384) (k : Nat) (hk : k < b.length) :
    Packet.parse cfg (b.take k) = .err .lengthViolation ∨ Packet.parse cfg (b.take k) = .panic .index := by
  obtain ⟨b', h1, h2⟩ := C28_compressed_round_trip_partial cfg h p hp hc hs hh
  rw [hb] at h1
  cases h1
  obtain ⟨h3, h4⟩ := h2 hl []
  rw [List.append_nil] at h3 h4
  refine C109_packet_partial cfg b p b.length k ?_ hk
  unfold Packet.parse at h3
  rw [← h3, ← h4]

/-- A message that asks for the name `ab.`. -/
def exAsk : Bytes := [0, 1, 0, 0, 0, 1, 0, 0, 0, 0, 0, 0, 2, 97, 98, 0, 0, 1, 0, 1]

/-- C109 is false: a message with one question, cut before the length octet of a label, before the last octet of a
label, or before the zero octet at the end of the name, makes every build panic; cut elsewhere, it is refused with the
error of length. -/
theorem C109_counterexample (cfg : Cfg) : (Packet.parse cfg exAsk = .ok ⟨⟨1, ⟨0, 0⟩, 1, 0, 0, 0⟩,
      [⟨[[97, 98]], .rr .A, .IN, false⟩], [], [], []⟩) ∧
    ∀ k, k < exAsk.length → (Packet.parse cfg (exAsk.take k) = .panic .index ↔ k = 12 ∨ k = 14 ∨ k = 15) ∧
      (Packet.parse cfg (exAsk.take k) = .err .lengthViolation ↔ k ≠ 12 ∧ k ≠ 14 ∧ k ≠ 15) := by
  obtain ⟨o, m, s⟩ := cfg
  cases o <;> cases m <;> cases s <;> decide +kernel

/-- A packet meets the hypotheses of `C109_written_exact`, and some of its cuts are of each kind. -/
example : (PacketOk ⟨true, true, true⟩ 63 exPacket ∧ CountsOk exPacket ∧
      ∀ r ∈ records exPacket, WrittenWell r.rdata ∧ sizeError r.rdata = 0 ∧ r.rdata.type ≠ .SSHFP) ∧
    ∃ b, exPacket.toBytes ⟨true, true, true⟩ = .ok b ∧ Packet.parse ⟨true, true, true⟩ (b.take 12) = .panic .index ∧
      Packet.parse ⟨true, true, true⟩ (b.take 20) = .err .lengthViolation := by
  refine ⟨⟨exPacket_ok, ⟨rfl, rfl, rfl, rfl⟩, fun r hr => ⟨(exPacket_well r hr).1, (exPacket_well r hr).2, ?_⟩⟩, ?_⟩
  · have : ∀ r ∈ records exPacket, r.rdata.type ≠ .SSHFP := by decide
    exact this r hr
  · exact ⟨_, rfl, by decide +kernel, by decide +kernel⟩

/-- A packet meets the hypotheses of `C109_compressed_partial`. -/
example : PacketOk ⟨true, true, true⟩ 191 exPacket ∧ CountsOk exPacket ∧ NoCollision exHash (packetNames exPacket) ∧
    (∀ r ∈ records exPacket, r.rdata.type ≠ .SSHFP) ∧
    ∃ b, exPacket.toBytesCompressed ⟨true, true, true⟩ exHash = .ok b ∧ b.length ≤ 16384 :=
  ⟨exPacket_ok.mono (by decide), ⟨rfl, rfl, rfl, rfl⟩, exPacket_noCollision, by decide, _, rfl, by decide +kernel⟩

/-- A question, and a record, that are cut. -/
example : Question.parse ⟨true, true, true⟩ [0, 0, 1, 0, 1] 0 = (.ok ⟨[], .rr .A, .IN, false⟩, 5) ∧
    (∃ r, ResourceRecord.parse ⟨true, true, true⟩ [0, 0, 1, 0, 1, 0, 0, 0, 5, 0, 4, 1, 2, 3, 4] 0 = (.ok r, 15)) :=
  ⟨by decide +kernel, _, rfl⟩

/-- A name that is cut: before the length octet, before the last octet of the label, and before the zero octet. -/
example : PlainName [2, 97, 98, 0] 0 [[97, 98]] 4 ∧ CutInName 0 [[97, 98]] 0 ∧ ¬ CutInName 0 [[97, 98]] 1 ∧
    CutInName 0 [[97, 98]] 2 ∧ CutInName 0 [[97, 98]] 3 := by
  refine ⟨.label (by decide) (by decide) rfl ⟨[], [0], rfl, rfl, rfl⟩ (.root rfl), ?_, ?_, ?_, ?_⟩ <;>
    simp [cutInName_cons, cutInName_nil]

end Dns
