import Verif.Lemmas.NameWrite
import Verif.Lemmas.Utf8

/-! C15, C16, C55: text form, predicates and order of names. -/

namespace Dns
open Spec Buf

/-! ## C15 -/

theorem splitDots_append {x : Bytes} (hx : (0x2E : UInt8) ∉ x) (s : Bytes) :
    ∃ p ps, splitDots s = p :: ps ∧ splitDots (x ++ s) = (x ++ p) :: ps := by
  induction x with
  | nil =>
    have : splitDots s ≠ [] := by
      cases s with
      | nil => simp [splitDots]
      | cons c s => unfold splitDots; split <;> [simp; (split <;> simp)]
    obtain ⟨p, ps, h⟩ := List.exists_cons_of_ne_nil this
    exact ⟨p, ps, h, h⟩
  | cons c x ih =>
    simp only [List.mem_cons, not_or] at hx
    obtain ⟨p, ps, h1, h2⟩ := ih hx.2
    refine ⟨p, ps, h1, ?_⟩
    rw [List.cons_append, splitDots, if_neg (Ne.symm hx.1), h2]
    rfl

theorem splitDots_intercalate : ∀ (pieces : List Bytes), pieces ≠ [] → (∀ p ∈ pieces, (0x2E : UInt8) ∉ p) →
    splitDots ([0x2E].intercalate pieces) = pieces := by
  intro pieces
  induction pieces with
  | nil => intro h; exact absurd rfl h
  | cons p ps ih =>
    intro _ hp
    cases ps with
    | nil =>
      obtain ⟨q, qs, h1, h2⟩ := splitDots_append (hp p (by simp)) []
      simp [splitDots] at h1
      rw [List.intercalate_singleton]
      simpa [h1.1, h1.2] using h2
    | cons p' ps =>
      rw [List.intercalate_cons_cons, List.append_assoc]
      obtain ⟨q, qs, h1, h2⟩ := splitDots_append (hp p (by simp)) ([0x2E] ++ [0x2E].intercalate (p' :: ps))
      rw [h2]
      rw [List.singleton_append, splitDots, if_pos rfl, ih (by simp) (fun x hx => hp x (by simp [hx]))] at h1
      simp at h1
      rw [h1.1, ← h1.2]
      simp

theorem splitDots_pieces (s : Bytes) :
    splitDots s ≠ [] ∧ (∀ p ∈ splitDots s, (0x2E : UInt8) ∉ p) ∧ [0x2E].intercalate (splitDots s) = s := by
  induction s with
  | nil => simp [splitDots]
  | cons c s ih =>
    obtain ⟨h1, h2, h3⟩ := ih
    unfold splitDots
    split
    · rename_i hc
      refine ⟨by simp, by simpa using h2, ?_⟩
      obtain ⟨p, ps, hp⟩ := List.exists_cons_of_ne_nil h1
      rw [hp] at h3 ⊢
      rw [List.intercalate_cons_cons, h3, hc]; rfl
    · rename_i hc
      obtain ⟨p, ps, hp⟩ := List.exists_cons_of_ne_nil h1
      rw [hp] at h2 h3 ⊢
      refine ⟨by simp, ?_, ?_⟩
      · simp only [List.mem_cons, forall_eq_or_imp, not_or] at h2 ⊢
        exact ⟨⟨Ne.symm hc, h2.1⟩, h2.2⟩
      · rw [List.intercalate_cons_cons_left, h3]

/-- C15: every string is a sequence of pieces without dots, joined by single dots; the labels of
`FQDN::new` are the pieces that are not empty, in their order. -/
theorem C15_new_labels (pieces : List Bytes) (h : pieces ≠ [])
    (hp : ∀ p ∈ pieces, (0x2E : UInt8) ∉ p) :
    Fqdn.new ([0x2E].intercalate pieces) = pieces.filter (fun p => p ≠ []) := by
  unfold Fqdn.new
  rw [splitDots_intercalate pieces h hp]
  congr 1
  funext p
  cases p <;> simp
example : Fqdn.new [97, 0x2E, 0x2E, 98] = [[97], [98]] := C15_new_labels [[97], [], [98]] (by decide) (by decide)

/-- C15: the theorem above is about every string. -/
theorem C15_every_string (s : Bytes) :
    ∃ pieces : List Bytes, pieces ≠ [] ∧ (∀ p ∈ pieces, (0x2E : UInt8) ∉ p) ∧
      s = [0x2E].intercalate pieces :=
  ⟨splitDots s, (splitDots_pieces s).1, (splitDots_pieces s).2.1, (splitDots_pieces s).2.2.symm⟩

/-- C15: so no label made by `FQDN::new` is empty or has a dot. -/
theorem C15_new_no_dots (s : Bytes) : ∀ l ∈ Fqdn.new s, l ≠ [] ∧ (0x2E : UInt8) ∉ l := by
  intro l hl
  simp only [Fqdn.new, List.mem_filter] at hl
  refine ⟨?_, (splitDots_pieces s).2.1 l hl.1⟩
  rintro rfl; simp at hl

example : Fqdn.new [0x2E, 97, 98, 0x2E, 0x2E, 99, 0x2E] = [[97, 98], [99]] := by decide

/-- C15: `to_string()` joins the labels with single dots. -/
theorem C15_display (n : Fqdn) : n.display = [0x2E].intercalate n := by
  induction n with
  | nil => rfl
  | cons l n ih =>
    cases n with
    | nil => simp [Fqdn.display]
    | cons l' n => rw [Fqdn.display, List.intercalate_cons_cons, ih]; simp; simp

/-- C15: reading the text form gives the name back, if no label is empty or has a dot. -/
theorem C15_new_display (n : Fqdn) (h : ∀ l ∈ n, l ≠ [] ∧ (0x2E : UInt8) ∉ l) :
    Fqdn.new n.display = n := by
  rw [C15_display]
  by_cases hn : n = []
  · subst hn; decide
  · rw [C15_new_labels n hn (fun l hl => (h l hl).2), List.filter_eq_self]
    intro l hl
    simpa using (h l hl).1
example : Fqdn.new (Fqdn.display [[97], [98, 99]]) = [[97], [98, 99]] := C15_new_display _ (by decide)

/-- C15: so the text form of a name made from text is a normal form. -/
theorem C15_new_idempotent (s : Bytes) : Fqdn.new (Fqdn.new s).display = Fqdn.new s :=
  C15_new_display _ (C15_new_no_dots s)

example : ∀ l ∈ ([[97, 98], [99]] : Fqdn), l ≠ [] ∧ (0x2E : UInt8) ∉ l := by decide

/-- C15: names without empty labels and dots have different text forms. -/
theorem C15_display_injective (n m : Fqdn) (hn : ∀ l ∈ n, l ≠ [] ∧ (0x2E : UInt8) ∉ l)
    (hm : ∀ l ∈ m, l ≠ [] ∧ (0x2E : UInt8) ∉ l) (h : n.display = m.display) : n = m := by
  rw [← C15_new_display n hn, ← C15_new_display m hm, h]
example (m : Fqdn) (hm : ∀ l ∈ m, l ≠ [] ∧ (0x2E : UInt8) ∉ l) (h : Fqdn.display [[97], [98]] = m.display) : [[97], [98]] = m :=
  C15_display_injective _ m (by decide) hm h

theorem dot_encode (c : Char) : String.utf8EncodeChar c = [0x2E] ∨ (0x2E : UInt8) ∉ String.utf8EncodeChar c := by
  have l : ∀ n, n < 256 → (UInt8.ofNat n).toNat = n := by intro n hn; simp; omega
  have ne : ∀ n, n < 256 → n ≠ 46 → (0x2E : UInt8) ≠ UInt8.ofNat n := by
    intro n hn h e
    have := congrArg UInt8.toNat e
    rw [l n hn] at this
    simp at this; omega
  have hv := char_val c
  unfold String.utf8EncodeChar
  generalize c.val.toNat = v at hv
  dsimp only
  split
  · by_cases h : v = 46
    · left; subst h; rfl
    · right; simp only [List.mem_singleton]; exact ne v (by omega) h
  · right
    split
    · simp only [List.mem_cons, List.not_mem_nil, or_false, not_or]
      exact ⟨ne _ (by omega) (by omega), ne _ (by omega) (by omega)⟩
    · split
      · simp only [List.mem_cons, List.not_mem_nil, or_false, not_or]
        exact ⟨ne _ (by omega) (by omega), ne _ (by omega) (by omega), ne _ (by omega) (by omega)⟩
      · simp only [List.mem_cons, List.not_mem_nil, or_false, not_or]
        exact ⟨ne _ (by omega) (by omega), ne _ (by omega) (by omega), ne _ (by omega) (by omega),
          ne _ (by omega) (by omega)⟩

theorem splitDots_utf8 (cs : List Char) :
    ∀ p ∈ splitDots (cs.flatMap String.utf8EncodeChar), IsUtf8 p := by
  induction cs with
  | nil => intro p hp; simp [splitDots] at hp; subst hp; exact isUtf8_nil
  | cons c cs ih =>
    intro p hp
    rw [List.flatMap_cons] at hp
    rcases dot_encode c with h | h
    · rw [h, List.singleton_append, splitDots, if_pos rfl] at hp
      rcases List.mem_cons.mp hp with rfl | hp
      · exact isUtf8_nil
      · exact ih p hp
    · obtain ⟨q, qs, h1, h2⟩ := splitDots_append h (cs.flatMap String.utf8EncodeChar)
      rw [h2] at hp
      rw [h1] at ih
      rcases List.mem_cons.mp hp with rfl | hp
      · exact isUtf8_append (isUtf8_char c) (ih q (by simp))
      · exact ih p (by simp [hp])

/-- C15: the labels of a name made from a (UTF-8) string are UTF-8. -/
theorem C15_new_utf8 (s : Bytes) (hs : IsUtf8 s) : ∀ l ∈ Fqdn.new s, IsUtf8 l := by
  obtain ⟨cs, rfl⟩ := hs
  intro l hl
  exact splitDots_utf8 cs l (List.mem_filter.mp hl).1
example : ∀ l ∈ Fqdn.new [97, 0x2E, 0xC3, 0xA4], IsUtf8 l :=
  C15_new_utf8 _ (by rw [← utf8Valid_iff]; decide +kernel)

theorem intercalate_utf8 : ∀ n : List Bytes, (∀ l ∈ n, IsUtf8 l) → IsUtf8 ([0x2E].intercalate n) := by
  intro n
  induction n with
  | nil => intro _; exact isUtf8_nil
  | cons l n ih =>
    intro h
    cases n with
    | nil => rw [List.intercalate_singleton]; exact h l (by simp)
    | cons l' n =>
      rw [List.intercalate_cons_cons]
      exact isUtf8_append (isUtf8_append (h l (by simp)) (isUtf8_char '.'))
        (ih (fun x hx => h x (by simp [hx])))

/-- C15: the text form of a name whose labels are UTF-8 is UTF-8; in particular of every name made
from a string.  Missing in C15: names with other labels, see below. -/
theorem C15_display_utf8_partial (n : Fqdn) (h : ∀ l ∈ n, IsUtf8 l) : IsUtf8 n.display := by
  rw [C15_display]; exact intercalate_utf8 n h

example : ∀ l ∈ ([[0xC3, 0xA4], [99]] : Fqdn), IsUtf8 l := by
  simp only [← utf8Valid_iff]; decide +kernel

/-- C15 is false for names read from messages: `to_string()` of a decoded name need not be UTF-8 (the
code builds the `str` unchecked). -/
theorem C15_display_utf8_counterexample :
    ∃ (d : Bytes) (n : Fqdn), extractFqdn d 0 = (.ok n, d.length) ∧ ¬ IsUtf8 n.display := by
  refine ⟨[1, 0xFF, 0], [[0xFF]], by decide +kernel, ?_⟩
  rw [← utf8Valid_iff]; decide +kernel

theorem isUtf8_split (cs : List Char) : ∀ {a b : Bytes}, cs.flatMap String.utf8EncodeChar = a ++ 0x2E :: b →
    IsUtf8 a ∧ IsUtf8 b := by
  induction cs with
  | nil => intro a b h; simp at h
  | cons c cs ih =>
    intro a b h
    rw [List.flatMap_cons] at h
    rcases List.append_eq_append_iff.mp h with ⟨x, rfl, hx⟩ | ⟨x, hx, hb⟩
    · obtain ⟨h1, h2⟩ := ih hx
      exact ⟨isUtf8_append (isUtf8_char c) h1, h2⟩
    · cases x with
      | nil =>
        obtain ⟨h1, h2⟩ := ih (a := []) (b := b) (by simpa using hb.symm)
        exact ⟨by rw [List.append_nil] at hx; rw [← hx]; exact isUtf8_char c, h2⟩
      | cons y ys =>
        obtain ⟨rfl, hb⟩ := List.cons.inj hb
        rcases dot_encode c with hc | hc
        · rw [hc] at hx
          have ha : a = [] ∧ ys = [] := by
            have := congrArg List.length hx
            simp at this
            exact ⟨List.length_eq_zero_iff.mp (by omega), List.length_eq_zero_iff.mp (by omega)⟩
          obtain ⟨rfl, rfl⟩ := ha
          exact ⟨⟨[], rfl⟩, ⟨cs, by simpa using hb⟩⟩
        · exact absurd (by rw [hx]; simp) hc

/-- C15, exactly: the text form of a name is UTF-8 if and only if all its labels are. -/
theorem C15_display_utf8_exact (n : Fqdn) : IsUtf8 n.display ↔ ∀ l ∈ n, IsUtf8 l := by
  refine ⟨fun h => ?_, C15_display_utf8_partial n⟩
  rw [C15_display] at h
  induction n with
  | nil => simp
  | cons l n ih =>
    cases n with
    | nil => simpa using h
    | cons m n =>
      obtain ⟨cs, hcs⟩ := h
      rw [List.intercalate_cons_cons] at hcs
      obtain ⟨h1, h2⟩ := isUtf8_split cs (a := l) (b := [0x2E].intercalate (m :: n)) (by rw [← hcs]; simp)
      intro x hx
      rcases List.mem_cons.mp hx with rfl | hx
      · exact h1
      · exact ih h2 x hx

/-- C15: a name with a label that is not UTF-8. -/
example : ¬ ∀ l ∈ ([[97], [0xC3]] : Fqdn), IsUtf8 l := by
  simp only [← utf8Valid_iff]; decide +kernel

/-! ## C16 -/

theorem labelBytes_eq_nil (n : Fqdn) : n.labelBytes = [] ↔ n.all (fun l => l.isEmpty) = true := by
  induction n with
  | nil => simp [Fqdn.labelBytes]
  | cons l n ih =>
    cases l with
    | nil => simpa [Fqdn.labelBytes] using ih
    | cons a l => simp [Fqdn.labelBytes]

/-- C16: `is_root()` says whether the name is written as the single zero octet. -/
theorem C16_is_root (n : Fqdn) : n.isRoot = true ↔ n.toBytes = [0] := by
  have h1 : n.isEmpty = false := by
    unfold Fqdn.isEmpty
    rw [n.byteSize_eq]
    simp [Fqdn.toBytes]
  have h2 : n.toBytes = [0] ↔ n.labelBytes = [] := by
    unfold Fqdn.toBytes
    constructor
    · intro h
      have := congrArg List.length h
      simp at this
      exact this
    · intro h; rw [h]; rfl
  rw [h2, labelBytes_eq_nil]
  unfold Fqdn.isRoot
  rw [h1]; simp

/-- C16: `is_link_local()` says whether the last label is `local`. -/
theorem C16_is_link_local (n : Fqdn) :
    n.isLinkLocal = true ↔ ∃ ls, n = ls ++ [['l', 'o', 'c', 'a', 'l'].map Char.toUInt8] := by
  have hl : ['l', 'o', 'c', 'a', 'l'].map Char.toUInt8 = ([0x6C, 0x6F, 0x63, 0x61, 0x6C] : Bytes) := by
    decide
  rw [hl]
  unfold Fqdn.isLinkLocal
  constructor
  · intro h
    split at h
    · rename_i l hl
      obtain ⟨ls, rfl⟩ := List.getLast?_eq_some_iff.mp hl
      simp only [Bool.and_eq_true, beq_iff_eq] at h
      exact ⟨ls, by rw [h.2]⟩
    · cases h
  · rintro ⟨ls, rfl⟩
    rw [List.getLast?_concat]
    decide +kernel

example : Fqdn.isLinkLocal [[97], [0x6C, 0x6F, 0x63, 0x61, 0x6C]] = true ∧
    Fqdn.isRoot [[], []] = true ∧ Fqdn.isRoot [[97]] = false := by decide +kernel

/-- C16: `label_count()` is the number of labels, of names with less than 256 labels (a legal name has
at most 127).  Missing in C16: longer names. -/
theorem C16_label_count_partial (n : Fqdn) (h : n.length < 256) : n.labelCount.toNat = n.length := by
  unfold Fqdn.labelCount lenU8
  simp; omega

example : ([[97], [98, 99]] : Fqdn).length < 256 := by decide

/-- C16, exactly: the count is right if and only if there are less than 256 labels. -/
theorem C16_label_count_exact (n : Fqdn) : n.labelCount.toNat = n.length ↔ n.length < 256 := by
  refine ⟨fun h => h ▸ n.labelCount.toNat_lt, C16_label_count_partial n⟩

/-- C16 is false for 256 labels: they are counted as 0. -/
theorem C16_label_count_counterexample :
    ∃ n : Fqdn, (∀ l ∈ n, l.length = 1) ∧ n.length = 256 ∧ n.labelCount = 0 :=
  ⟨List.replicate 256 [97], fun l hl => by rw [List.eq_of_mem_replicate hl]; rfl,
    List.length_replicate, by unfold Fqdn.labelCount; rw [List.length_replicate]; decide⟩

/-- C16 is false for `is_empty()`: it is never true, not even for the name without labels. -/
theorem C16_is_empty_counterexample (n : Fqdn) : n.isEmpty = false := by
  unfold Fqdn.isEmpty
  rw [n.byteSize_eq]
  simp [Fqdn.toBytes]

/-! ## C55 -/

theorem cmpBytes_lt (a b : Bytes) : Fqdn.cmpBytes a b = .lt ↔ List.Lex (· < ·) a b := by
  induction a generalizing b with
  | nil => cases b <;> simp [Fqdn.cmpBytes]
  | cons x a ih =>
    cases b with
    | nil => simp [Fqdn.cmpBytes]
    | cons y b =>
      rw [Fqdn.cmpBytes, List.cons_lex_cons_iff]
      split
      · simp_all
      · rename_i h1
        split
        · rename_i h2
          simp only [reduceCtorEq, false_iff, not_or, not_and]
          refine ⟨h1, ?_⟩
          rintro rfl; exact absurd h2 h1
        · rename_i h2
          have : x = y := UInt8.toNat_inj.mp (by
            rw [UInt8.lt_iff_toNat_lt] at h1 h2; omega)
          simp [ih, this]

theorem cmpBytes_eq (a b : Bytes) : Fqdn.cmpBytes a b = .eq ↔ a = b := by
  induction a generalizing b with
  | nil => cases b <;> simp [Fqdn.cmpBytes]
  | cons x a ih =>
    cases b with
    | nil => simp [Fqdn.cmpBytes]
    | cons y b =>
      rw [Fqdn.cmpBytes]
      split
      · rename_i h1
        simp only [reduceCtorEq, List.cons.injEq, false_iff, not_and]
        rintro rfl; simp at h1
      · rename_i h1
        split
        · rename_i h2
          simp only [reduceCtorEq, List.cons.injEq, false_iff, not_and]
          rintro rfl; exact absurd h2 h1
        · rename_i h2
          have : x = y := UInt8.toNat_inj.mp (by
            rw [UInt8.lt_iff_toNat_lt] at h1 h2; omega)
          simp [ih, this]

theorem cmpBytes_swap (a b : Bytes) : Fqdn.cmpBytes b a = (Fqdn.cmpBytes a b).swap := by
  induction a generalizing b with
  | nil => cases b <;> simp [Fqdn.cmpBytes]
  | cons x a ih =>
    cases b with
    | nil => simp [Fqdn.cmpBytes]
    | cons y b =>
      rw [Fqdn.cmpBytes, Fqdn.cmpBytes]
      by_cases h1 : x < y
      · have h2 : ¬ y < x := by rw [UInt8.lt_iff_toNat_lt] at h1 ⊢; omega
        simp [h1, h2]
      · by_cases h2 : y < x
        · simp [h1, h2]
        · simp [h1, h2, ih]

/-- C55: names are compared label by label, labels octet by octet. -/
theorem C55_lexicographic (a b : Fqdn) : a.cmp b = .lt ↔ List.Lex (List.Lex (· < ·)) a b := by
  induction a generalizing b with
  | nil => cases b <;> simp [Fqdn.cmp]
  | cons x a ih =>
    cases b with
    | nil => simp [Fqdn.cmp]
    | cons y b =>
      rw [Fqdn.cmp, List.cons_lex_cons_iff, ← cmpBytes_lt, ← cmpBytes_eq]
      cases h : Fqdn.cmpBytes x y <;> simp [ih]

/-- C55: two names compare equal exactly when they are equal. -/
theorem C55_eq (a b : Fqdn) : a.cmp b = .eq ↔ a = b := by
  induction a generalizing b with
  | nil => cases b <;> simp [Fqdn.cmp]
  | cons x a ih =>
    cases b with
    | nil => simp [Fqdn.cmp]
    | cons y b =>
      rw [Fqdn.cmp, List.cons.injEq, ← cmpBytes_eq, ← ih]
      cases h : Fqdn.cmpBytes x y <;> simp

/-- C55: comparing the other way round gives the opposite answer. -/
theorem C55_swap (a b : Fqdn) : b.cmp a = (a.cmp b).swap := by
  induction a generalizing b with
  | nil => cases b <;> simp [Fqdn.cmp]
  | cons x a ih =>
    cases b with
    | nil => simp [Fqdn.cmp]
    | cons y b =>
      rw [Fqdn.cmp, Fqdn.cmp, cmpBytes_swap x y]
      cases h : Fqdn.cmpBytes x y <;> simp [ih]

/-- C55: the order is transitive. -/
theorem C55_trans (a b c : Fqdn) (h1 : a.cmp b = .lt) (h2 : b.cmp c = .lt) : a.cmp c = .lt := by
  rw [C55_lexicographic] at *
  have tr : ∀ {α : Type} (r : α → α → Prop), (∀ x y z, r x y → r y z → r x z) →
      ∀ x y z : List α, List.Lex r x y → List.Lex r y z → List.Lex r x z := by
    intro α r hr x y z hxy
    induction hxy generalizing z with
    | nil => intro h; cases h <;> exact .nil
    | cons _ ih =>
      intro h
      cases h with
      | cons h => exact .cons (ih _ h)
      | rel h => exact .rel h
    | rel hab =>
      intro h
      cases h with
      | cons h => exact .rel hab
      | rel h => exact .rel (hr _ _ _ hab h)
  exact tr _ (tr (fun x y : UInt8 => x < y) (fun _ _ _ => UInt8.lt_trans)) a b c h1 h2

example : Fqdn.cmp [[97]] [[97], [98]] = .lt ∧ Fqdn.cmp [[97], [98]] [[97, 97]] = .lt := by decide

end Dns
