import Verif.Lemmas.NameRead
import Verif.Lemmas.Bounded

/-! C07–C12, C57, C58: reading names from messages. -/

namespace Dns
open Spec Buf

/-! ## C07 -/

/-- C07: the labels returned by `extract_fqdn` are the ones the message encodes at the position:
labels in order, following pointers to their target positions, until the zero octet.  (Length
octets 64–191, which the RFC reserves, are read as lengths: see C58.) -/
theorem C07_decoded_name_sound (d : Bytes) (i j : Nat) (n : Fqdn)
    (h : extractFqdn d i = (.ok n, j)) : NameWith 191 (fun _ _ => True) d i n j :=
  codeName_nameWith (extractFqdn_ok.mp h)
example : NameWith 191 (fun _ _ => True) [1, 97, 0, 1, 98, 192, 0] 3 [[98], [97]] 7 :=
  C07_decoded_name_sound _ _ _ _ (by decide +kernel)

/-- C07: if the labels returned have at most 63 octets, the name is an RFC 1035 name. -/
theorem C07_decoded_name_rfc1035 (d : Bytes) (i j : Nat) (n : Fqdn)
    (h : extractFqdn d i = (.ok n, j)) (hl : ∀ l ∈ n, l.length ≤ 63) : NameAt d i n j :=
  nameWith_short (codeName_nameWith (extractFqdn_ok.mp h)) hl

/-- C07: a name with a pointer. -/
example : extractFqdn ([1, 97, 0, 1, 98, 0xC0, 0] : Bytes) 3 = (.ok [[98], [97]], 7) := by decide +kernel

/-- C07: the encoding denotes only one name, so no other name can be meant. -/
theorem C07_name_unique (d : Bytes) (i j j' : Nat) (n n' : Fqdn)
    (h : extractFqdn d i = (.ok n, j)) (h' : NameAt d i n' j') : n = n' ∧ j = j' :=
  nameWith_unique (by omega) (by omega) (codeName_nameWith (extractFqdn_ok.mp h)) h'

example : extractFqdn [1, 97, 0, 2, 98, 99, 0xC0, 0] 3 = (.ok [[98, 99], [97]], 8) := by decide +kernel

/-! ## C08 -/

/-- C08: every legal RFC 1035 name is decoded. -/
theorem C08_legal_name_decoded (d : Bytes) (i j : Nat) (n : Fqdn) (h : LegalName d i n j) :
    extractFqdn d i = (.ok n, j) :=
  extractFqdn_ok.mpr (legalName_codeName h)

example : LegalName [1, 97, 0, 2, 98, 99, 0xC0, 0] 3 [[98, 99], [97]] 8 :=
  .label (len := 2) (by decide) (by decide) rfl ⟨[1, 97, 0], [0xC0, 0], rfl, rfl, rfl⟩
    (.pointer (hi := 0xC0) (lo := 0) (k := 3) (by decide) ⟨[1, 97, 0, 2, 98, 99], [], rfl, rfl, rfl⟩
      (by decide) (.label (len := 1) (by decide) (by decide) rfl ⟨[], _, rfl, rfl, rfl⟩
        (.root rfl)))

/-! ## C09 -/

/-- C09: `extract_fqdn` runs for ever exactly when the labels and pointers at the position form a
cycle.  Missing in C09: the cycles. -/
theorem C09_terminates_partial (d : Bytes) (i : Nat) :
    (extractFqdn d i).1 ≠ .hang ↔ ¬ Cycle d i :=
  not_congr extractFqdn_hang

/-- C09: in particular it ends when the message has no octet that could start a pointer. -/
theorem C09_terminates_without_pointers_partial (d : Bytes) (i : Nat)
    (h : ∀ b ∈ d, b.toNat < 192) : (extractFqdn d i).1 ≠ .hang := by
  rw [C09_terminates_partial]
  rintro ⟨f, -, hf⟩
  have hm : ∀ n, (f n).1 < d.length ∧ (f n).1 < (f (n + 1)).1 := by
    intro n
    have := hf n
    rcases h1 : f n with ⟨p, o⟩
    rcases h2 : f (n + 1) with ⟨q, o'⟩
    rw [h1, h2] at this
    cases this with
    | label a b c e => exact ⟨getElem?_lt a, by dsimp only; omega⟩
    | pointer a b c =>
      have h3 := octets_cons_getElem? a
      have := h _ (List.mem_of_getElem? h3)
      omega
  have hn : ∀ n, n ≤ (f n).1 := by
    intro n
    induction n with
    | zero => omega
    | succ n ih => have := (hm n).2; omega
  have h1 := hn d.length
  have h2 := (hm d.length).1
  omega
example (i : Nat) : (extractFqdn [1, 97, 0, 191, 7] i).1 ≠ .hang :=
  C09_terminates_without_pointers_partial _ i (by decide)

/-- The model's outcome `hang` is not an artefact of its bound: the loop of `extract_fqdn` has not
ended after any number of iterations. -/
theorem C09_hang_is_endless (d : Bytes) (i : Nat) :
    (extractFqdn d i).1 = .hang ↔ ∀ k, fqdnLoop d k ⟨i, [], none⟩ = none := by
  rw [extractFqdn_hang]
  constructor
  · rintro ⟨f, h0, hf⟩ k
    have := loop_none_of_cycle hf k 0 []
    rwa [h0] at this
  · exact cycle_of_loop_none

/-- C09 is false: a pointer to itself, and a label followed by a pointer to it, are never read to
the end. -/
theorem C09_counterexample :
    Cycle [0xC0, 0] 0 ∧ (extractFqdn [0xC0, 0] 0).1 = .hang ∧
    Cycle [1, 97, 0xC0, 0] 0 ∧ (extractFqdn [1, 97, 0xC0, 0] 0).1 = .hang := by
  have h1 : (extractFqdn [0xC0, 0] 0).1 = .hang := by decide +kernel
  have h2 : (extractFqdn [1, 97, 0xC0, 0] 0).1 = .hang := by decide +kernel
  exact ⟨extractFqdn_hang.mp h1, h1, extractFqdn_hang.mp h2, h2⟩

/-! ## C10 -/

/-- C10: `extract_fqdn` panics exactly when the reader gets to the end of the data, or to a label
that is one octet too long for the data.  Missing in C10: these messages. -/
theorem C10_no_panic_partial (d : Bytes) (i : Nat) :
    (extractFqdn d i).1.isPanic = false ↔ ¬ ∃ p o, Visits d i (p, o) ∧ Stuck d p := by
  rw [← extractFqdn_panic]
  simp

/-- C10 is false: an empty message, and a name cut inside a label. -/
theorem C10_counterexample :
    (extractFqdn [] 0).1 = .panic .index ∧ (extractFqdn [1, 97] 0).1 = .panic .index ∧
    (extractFqdn [3, 97, 98] 0).1 = .panic .index := by decide +kernel

/-- Names cut elsewhere are refused. -/
example : (extractFqdn [3, 97] 0).1 = .err .lengthViolation ∧
    (extractFqdn [0xC0] 0).1 = .err .lengthViolation := by decide +kernel

/-! ## C11 -/

/-- C11: after `Ok` the buffer stands directly behind the zero octet or behind the first pointer; it
has moved forward and is inside the data. -/
theorem C11_consumes_in_place (d : Bytes) (i j : Nat) (n : Fqdn)
    (h : extractFqdn d i = (.ok n, j)) :
    i < j ∧ j ≤ d.length ∧
    ((∃ p, LabelsAt d i n p ∧ d[p]? = some 0 ∧ j = p + 1) ∨
     (∃ ls rest p hi lo, n = ls ++ rest ∧ LabelsAt d i ls p ∧ 192 ≤ UInt8.toNat hi ∧
        Octets d p [hi, lo] (p + 2) ∧ j = p + 2)) := by
  have hc := extractFqdn_ok.mp h
  rcases codeName_shape hc with ⟨h1, h2, h3⟩ | ⟨ls, rest, p, hi, lo, k, h1, h2, h3, h4, h5, h6, h7⟩
  · have := getElem?_lt h2
    exact ⟨h3, by omega, .inl ⟨j - 1, h1, h2, by omega⟩⟩
  · have := h2.2.end_eq
    have := h4.le
    exact ⟨by omega, by omega, .inr ⟨ls, rest, p, hi, lo, h1, h2, h5, h4, h3⟩⟩

example : extractFqdn [1, 97, 0, 2, 98, 99, 0xC0, 0, 5] 3 = (.ok [[98, 99], [97]], 8) := by
  decide +kernel

/-! ## C12 -/

/-- C12: if the first pointer of a name points at or behind its own second octet, the name is
refused. -/
theorem C12_forward_pointer_refused (d : Bytes) (i p : Nat) (ls : Fqdn) (hi lo : UInt8)
    (h1 : LabelsAt d i ls p) (h2 : Octets d p [hi, lo] (p + 2)) (h3 : 192 ≤ hi.toNat)
    (h4 : p + 1 ≤ (hi.toNat - 192) * 256 + lo.toNat) :
    (extractFqdn d i).1 = .err .unresolveableCompressionPointer := by
  have hs : fqdnStep d ⟨p, [] ++ ls, none⟩ = .inr (.err .unresolveableCompressionPointer, p + 1) := by
    have hle := h2.le
    have hg := octets_cons_getElem? h2
    have h5 := (octets_iff.mp h2).2.2
    simp only [List.length_cons, List.length_nil] at h5
    unfold fqdnStep
    simp only [hg]
    rw [if_pos (by rw [and_c0_iff]; omega), if_neg (by omega), h5, pointer_target hi lo h3]
    rw [if_pos (by simpa using h4)]
    rfl
  have h5 : fqdnLoop d (ls.length + 1) ⟨i, [], none⟩
      = some (.err .unresolveableCompressionPointer, p + 1) := by
    rw [labelsAt_loop ls i 1 [] h1, fqdnLoop_succ, hs]
  unfold extractFqdn
  rw [fqdnLoop_fuel h5]

example : (extractFqdn ([1, 97, 0xC0, 4, 0] : Bytes) 0).1 = .err .unresolveableCompressionPointer ∧
    (extractFqdn ([1, 97, 0xC0, 3, 0] : Bytes) 0).1 = .err .unresolveableCompressionPointer := by
  constructor <;> decide +kernel

/-- C12: an accepted name that uses a pointer only ever jumped to offsets before the second octet of
its first pointer. -/
theorem C12_accepted_jumps_back (d : Bytes) (i j : Nat) (n : Fqdn)
    (h : extractFqdn d i = (.ok n, j)) :
    (∃ p, LabelsAt d i n p ∧ d[p]? = some 0) ∨
    (∃ ls rest p hi lo k, n = ls ++ rest ∧ LabelsAt d i ls p ∧ 192 ≤ UInt8.toNat hi ∧
      Octets d p [hi, lo] (p + 2) ∧ (hi.toNat - 192) * 256 + lo.toNat < p + 1 ∧
      NameWith 191 (fun _ target => target < p + 1) d ((hi.toNat - 192) * 256 + lo.toNat) rest k) := by
  rcases codeName_shape (extractFqdn_ok.mp h) with ⟨h1, h2, -⟩ | ⟨ls, rest, p, hi, lo, k, h1, h2, -, h4, h5, h6⟩
  · exact .inl ⟨_, h1, h2⟩
  · exact .inr ⟨ls, rest, p, hi, lo, k, h1, h2, h5, h4, h6⟩

example : LabelsAt [1, 97, 0xC0, 4, 0] 0 [[97]] 2 ∧ Octets [1, 97, 0xC0, 4, 0] 2 [0xC0, 4] (2 + 2) ∧
    2 + 1 ≤ ((0xC0 : UInt8).toNat - 192) * 256 + (4 : UInt8).toNat :=
  ⟨⟨by decide, [], [0xC0, 4, 0], rfl, rfl, rfl⟩, ⟨[1, 97], [0], rfl, rfl, rfl⟩, by decide⟩

/-! ## C57 -/

/-- C57: a name has at most as many labels as the message has octets. -/
theorem C57_name_bounded (d : Bytes) (i j : Nat) (n : Fqdn)
    (h : extractFqdn d i = (.ok n, j)) : n.length ≤ d.length :=
  codeName_labels (extractFqdn_ok.mp h)

example : extractFqdn ([1, 97, 1, 98, 0, 0xC0, 0] : Bytes) 5 = (.ok [[97], [98]], 7) := by decide +kernel

/-- C57: and each label is a piece of the message of at most 191 octets. -/
theorem C57_label_bounded (d : Bytes) (i j : Nat) (n : Fqdn)
    (h : extractFqdn d i = (.ok n, j)) (l : Bytes) (hl : l ∈ n) :
    1 ≤ l.length ∧ l.length ≤ 191 ∧ l <:+: d := by
  replace h := C07_decoded_name_sound d i j n h
  induction h with
  | root => cases hl
  | @label _ _ _ len _ a b c e _ ih =>
    rcases List.mem_cons.mp hl with rfl | hl
    · obtain ⟨pre, post, h, -⟩ := e
      exact ⟨by omega, by omega, pre ++ [len], post, by rw [h]; simp⟩
    · exact ih hl
  | pointer _ _ _ _ ih => exact ih hl

example : extractFqdn [1, 97, 0, 1, 98, 0xC0, 0] 3 = (.ok [[98], [97]], 7) := by decide +kernel

/-! ## C58 -/

/-- C58 is false: a label of 64 octets (length octet `01000000`) and a name of 256 octets are
accepted. -/
theorem C58_counterexample :
    (∃ (d : Bytes) (j : Nat) (l : Bytes), extractFqdn d 0 = (.ok [l], j) ∧ l.length = 64) ∧
    (∃ (d : Bytes) (j : Nat) (n : Fqdn), extractFqdn d 0 = (.ok n, j) ∧ j = 256) := by
  constructor
  · exact ⟨64 :: (List.replicate 64 97 ++ [0]), 66, List.replicate 64 97, by decide +kernel, by decide⟩
  · refine ⟨((List.replicate 15 (16 :: List.replicate 16 97)).flatten) ++ [0], 256,
      List.replicate 15 (List.replicate 16 97), by decide +kernel, by decide⟩

/-- C58: what does hold: a length octet from 192 on is never taken as a label length. -/
theorem C58_no_label_from_pointer_partial (d : Bytes) (i j : Nat) (n : Fqdn)
    (h : extractFqdn d i = (.ok n, j)) (b : UInt8) (hb : d[i]? = some b) (h192 : 192 ≤ b.toNat) :
    ∃ lo k, Octets d i [b, lo] (i + 2) ∧ j = i + 2 ∧
      NameWith 191 (fun _ _ => True) d ((b.toNat - 192) * 256 + lo.toNat) n k := by
  have h := C07_decoded_name_sound d i j n h
  cases h with
  | root h0 => rw [hb] at h0; cases h0; simp at h192
  | label a b' c e =>
    have := octets_cons_getElem? e
    rw [hb] at this
    cases this
    omega
  | @pointer _ k _ hi lo a o c e =>
    have := octets_cons_getElem? o
    rw [hb] at this
    cases this
    exact ⟨lo, k, o, rfl, e⟩

example : extractFqdn [1, 97, 0, 0xC0, 0] 3 = (.ok [[97]], 5) := by decide +kernel

end Dns
