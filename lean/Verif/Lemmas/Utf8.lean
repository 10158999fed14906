import Mathlib.Tactic.IntervalCases
import Verif.Spec.Utf8
import Verif.Model.Utf8

/-! The UTF-8 scanner accepts exactly the encodings of character sequences. -/

namespace Dns
open Spec

theorem isCont_iff (b : UInt8) : isCont b = true ↔ 128 ≤ b.toNat ∧ b.toNat ≤ 191 := by
  have h : ∀ n : Fin 256, isCont (UInt8.ofNat n.val) = true ↔
      128 ≤ (UInt8.ofNat n.val).toNat ∧ (UInt8.ofNat n.val).toNat ≤ 191 := by decide +kernel
  have := h ⟨b.toNat, b.toNat_lt⟩
  simpa using this

theorem ok3_iff (b c : UInt8) : ok3 b c = true ↔
    (b.toNat = 0xE0 ∧ 0xA0 ≤ c.toNat ∧ c.toNat ≤ 0xBF) ∨
    (0xE1 ≤ b.toNat ∧ b.toNat ≤ 0xEC ∧ 0x80 ≤ c.toNat ∧ c.toNat ≤ 0xBF) ∨
    (b.toNat = 0xED ∧ 0x80 ≤ c.toNat ∧ c.toNat ≤ 0x9F) ∨
    (0xEE ≤ b.toNat ∧ b.toNat ≤ 0xEF ∧ 0x80 ≤ c.toNat ∧ c.toNat ≤ 0xBF) := by
  simp [ok3, UInt8.le_iff_toNat_le, ← UInt8.toNat_inj, and_assoc, or_assoc]

theorem ok4_iff (b c : UInt8) : ok4 b c = true ↔
    (b.toNat = 0xF0 ∧ 0x90 ≤ c.toNat ∧ c.toNat ≤ 0xBF) ∨
    (0xF1 ≤ b.toNat ∧ b.toNat ≤ 0xF3 ∧ 0x80 ≤ c.toNat ∧ c.toNat ≤ 0xBF) ∨
    (b.toNat = 0xF4 ∧ 0x80 ≤ c.toNat ∧ c.toNat ≤ 0x8F) := by
  simp [ok4, UInt8.le_iff_toNat_le, ← UInt8.toNat_inj, and_assoc, or_assoc]

/-- A scalar value as a character. -/
def mkChar (v : Nat) (h : v.isValidChar) : Char := Char.ofNatAux v h

theorem mkChar_val (v : Nat) (h : v.isValidChar) : (mkChar v h).val.toNat = v := by
  simp [mkChar, Char.ofNatAux]

theorem encode_mkChar (v : Nat) (h : v.isValidChar) (b : Bytes)
    (hb : b = if v ≤ 0x7f then [UInt8.ofNat v]
      else if v ≤ 0x7ff then [UInt8.ofNat (v / 64 % 0x20 + 0xc0), UInt8.ofNat (v % 0x40 + 0x80)]
      else if v ≤ 0xffff then [UInt8.ofNat (v / 4096 % 0x10 + 0xe0),
        UInt8.ofNat (v / 64 % 0x40 + 0x80), UInt8.ofNat (v % 0x40 + 0x80)]
      else [UInt8.ofNat (v / 262144 % 0x08 + 0xf0), UInt8.ofNat (v / 4096 % 0x40 + 0x80),
        UInt8.ofNat (v / 64 % 0x40 + 0x80), UInt8.ofNat (v % 0x40 + 0x80)]) :
    b = String.utf8EncodeChar (mkChar v h) := by
  rw [hb, String.utf8EncodeChar, mkChar_val]

theorem ofNat_eq {b : UInt8} {n : Nat} (h : n = b.toNat) : b = UInt8.ofNat n := by
  rw [h]; simp

/-- A step that succeeds has read the encoding of a character. -/
theorem utf8Step_char {b : UInt8} {bs : Bytes} {k : Nat} (h : utf8Step b bs = (true, k)) :
    k ≤ bs.length ∧ ∃ c : Char, b :: bs.take k = String.utf8EncodeChar c := by
  have hb := b.toNat_lt
  unfold utf8Step at h
  simp only [Bool.and_eq_true, decide_eq_true_eq, UInt8.le_iff_toNat_le, UInt8.lt_iff_toNat_lt,
    UInt8.reduceToNat, isCont_iff, ok3_iff, ok4_iff] at h
  split at h
  · cases h
    refine ⟨by simp, mkChar b.toNat (.inl (by omega)), encode_mkChar _ _ _ ?_⟩
    rw [if_pos (by omega)]
    simp
  · split at h
    · split at h
      · cases h
        rcases bs with _ | ⟨c, bs⟩
        · simp at *
        · simp only [List.getElem?_cons_zero, Option.getD_some] at *
          refine ⟨by simp, mkChar ((b.toNat - 192) * 64 + (c.toNat - 128)) (.inl (by omega)),
            encode_mkChar _ _ _ ?_⟩
          rw [if_neg (by omega), if_pos (by omega)]
          simp only [List.take_succ_cons, List.take_zero]
          rw [← ofNat_eq (b := b) (by omega), ← ofNat_eq (b := c) (by omega)]
      · simp at h
    · split at h
      · split at h
        · split at h
          · cases h
            rcases bs with _ | ⟨c, bs⟩
            · simp at *
            · rcases bs with _ | ⟨e, bs⟩
              · simp at *
              · simp only [List.getElem?_cons_zero, Option.getD_some,
                  List.getElem?_cons_succ] at *
                refine ⟨by simp, mkChar ((b.toNat - 224) * 4096 + (c.toNat - 128) * 64 + (e.toNat - 128))
                  (by unfold Nat.isValidChar; omega), encode_mkChar _ _ _ ?_⟩
                rw [if_neg (by omega), if_neg (by omega), if_pos (by omega)]
                simp only [List.take_succ_cons, List.take_zero]
                rw [← ofNat_eq (b := b) (by omega), ← ofNat_eq (b := c) (by omega),
                  ← ofNat_eq (b := e) (by omega)]
          · simp at h
        · simp at h
      · split at h
        · split at h
          · split at h
            · split at h
              · cases h
                rcases bs with _ | ⟨c, bs⟩
                · simp at *
                · rcases bs with _ | ⟨e, bs⟩
                  · simp at *
                  · rcases bs with _ | ⟨f, bs⟩
                    · simp at *
                    · simp only [List.getElem?_cons_zero, Option.getD_some,
                        List.getElem?_cons_succ] at *
                      refine ⟨by simp, mkChar ((b.toNat - 240) * 262144 + (c.toNat - 128) * 4096
                        + (e.toNat - 128) * 64 + (f.toNat - 128))
                        (by unfold Nat.isValidChar; omega), encode_mkChar _ _ _ ?_⟩
                      rw [if_neg (by omega), if_neg (by omega), if_neg (by omega)]
                      simp only [List.take_succ_cons, List.take_zero]
                      rw [← ofNat_eq (b := b) (by omega), ← ofNat_eq (b := c) (by omega),
                        ← ofNat_eq (b := e) (by omega), ← ofNat_eq (b := f) (by omega)]
              · simp at h
            · simp at h
          · simp at h
        · simp at h

theorem char_val (c : Char) : c.val.toNat < 0xd800 ∨ (0xdfff < c.val.toNat ∧ c.val.toNat < 0x110000) :=
  c.valid

/-- The encoding of a character is read in one step, whatever follows. -/
theorem utf8Step_encode (c : Char) (rest : Bytes) : ∃ b t, String.utf8EncodeChar c = b :: t ∧
    utf8Step b (t ++ rest) = (true, t.length) := by
  have hv := char_val c
  unfold String.utf8EncodeChar
  generalize c.val.toNat = v at hv
  dsimp only
  have l : ∀ n, n < 256 → (UInt8.ofNat n).toNat = n := by
    intro n hn; simp; omega
  split
  · refine ⟨_, _, rfl, ?_⟩
    unfold utf8Step
    rw [if_pos (by rw [UInt8.lt_iff_toNat_lt, l _ (by omega)]; simp; omega)]
    rfl
  · split
    · refine ⟨_, _, rfl, ?_⟩
      unfold utf8Step
      simp only [Bool.and_eq_true, decide_eq_true_eq, UInt8.le_iff_toNat_le, UInt8.lt_iff_toNat_lt,
        UInt8.reduceToNat, isCont_iff, List.cons_append, List.nil_append, List.getElem?_cons_zero,
        Option.getD_some]
      rw [l _ (by omega), l _ (by omega), if_neg (by omega), if_pos (by omega), if_pos (by omega)]
      rfl
    · split
      · refine ⟨_, _, rfl, ?_⟩
        unfold utf8Step
        simp only [Bool.and_eq_true, decide_eq_true_eq, UInt8.le_iff_toNat_le, UInt8.lt_iff_toNat_lt,
          UInt8.reduceToNat, isCont_iff, ok3_iff, List.cons_append, List.nil_append,
          List.getElem?_cons_zero, List.getElem?_cons_succ, Option.getD_some]
        rw [l _ (by omega), l _ (by omega), l _ (by omega), if_neg (by omega), if_neg (by omega),
          if_pos (by omega), if_pos (by omega), if_pos (by omega)]
        rfl
      · refine ⟨_, _, rfl, ?_⟩
        unfold utf8Step
        simp only [Bool.and_eq_true, decide_eq_true_eq, UInt8.le_iff_toNat_le, UInt8.lt_iff_toNat_lt,
          UInt8.reduceToNat, isCont_iff, ok4_iff, List.cons_append, List.nil_append,
          List.getElem?_cons_zero, List.getElem?_cons_succ, Option.getD_some]
        rw [l _ (by omega), l _ (by omega), l _ (by omega), l _ (by omega), if_neg (by omega),
          if_neg (by omega), if_neg (by omega), if_pos (by omega), if_pos (by omega),
          if_pos (by omega), if_pos (by omega)]
        rfl

theorem isUtf8_nil : IsUtf8 [] := ⟨[], rfl⟩

theorem isUtf8_append {a b : Bytes} (ha : IsUtf8 a) (hb : IsUtf8 b) : IsUtf8 (a ++ b) := by
  obtain ⟨x, rfl⟩ := ha
  obtain ⟨y, rfl⟩ := hb
  exact ⟨x ++ y, by simp⟩

theorem isUtf8_char (c : Char) : IsUtf8 (String.utf8EncodeChar c) := ⟨[c], by simp⟩

theorem utf8Valid_iff (b : Bytes) : utf8Valid b = true ↔ IsUtf8 b := by
  constructor
  · fun_induction utf8Valid b with
    | case1 => intro _; exact isUtf8_nil
    | case2 b bs k h ih =>
      intro hv
      obtain ⟨h1, c, hc⟩ := utf8Step_char h
      have := isUtf8_append (isUtf8_char c) (ih hv)
      rw [← hc] at this
      simpa using this
    | case3 => intro h; cases h
  · rintro ⟨cs, rfl⟩
    induction cs with
    | nil => simp [utf8Valid]
    | cons c cs ih =>
      obtain ⟨b, t, h1, h2⟩ := utf8Step_encode c (cs.flatMap String.utf8EncodeChar)
      rw [List.flatMap_cons, h1, List.cons_append, utf8Valid, h2]
      simpa using ih

theorem utf8Lossy_isUtf8 (b : Bytes) : IsUtf8 (utf8Lossy b) := by
  fun_induction utf8Lossy b with
  | case1 => exact isUtf8_nil
  | case2 b bs k h ih =>
    obtain ⟨h1, c, hc⟩ := utf8Step_char h
    have := isUtf8_append (isUtf8_char c) ih
    rw [← hc] at this
    simpa using this
  | case3 b bs k h ih =>
    have : IsUtf8 [0xEF, 0xBF, 0xBD] := ⟨['�'], by decide⟩
    exact isUtf8_append this ih

theorem utf8Lossy_of_valid {b : Bytes} (h : utf8Valid b = true) : utf8Lossy b = b := by
  revert h
  fun_induction utf8Valid b with
  | case1 => intro _; simp [utf8Lossy]
  | case2 b bs k h ih =>
    intro hv
    rw [utf8Lossy, h]
    simp [ih hv]
  | case3 => intro h; cases h

end Dns
