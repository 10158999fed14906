import Verif.Model.Address
import Verif.Spec.Address
import Verif.Lemmas.Items

/-
C96: addresses given as text.
-/

namespace Dns
open Spec
namespace AddrText

theorem toDigit_ten : toDigit 10 = decDigit := by
  funext c
  have := c.toNat_lt
  simp only [toDigit, decDigit, UInt8.le_iff_toNat_le, UInt8.reduceToNat]
  split_ifs <;> first | rfl | (exfalso; omega)

theorem toDigit_sixteen : toDigit 16 = Spec.hexDigit := by
  funext c
  have := c.toNat_lt
  simp only [toDigit, Spec.hexDigit, UInt8.le_iff_toNat_le, UInt8.reduceToNat]
  split_ifs <;> first | rfl | (exfalso; omega) | (congr 1; omega)

/-- Where a number ends: at the end of the text or before something that is no digit. -/
def Stop (radix : Nat) (s : Bytes) : Prop := ∀ c ∈ s.head?, toDigit radix c = none

theorem readDigits_iff {radix max : Nat} {s rest : Bytes} {count value n v : Nat}
    (hc : count ≤ max) :
    readDigits radix max count value s = some (n, v, rest) ↔
      ∃ t, s = t ++ rest ∧ n = count + t.length ∧ n ≤ max ∧
        numeral (toDigit radix) radix value t = some v ∧ Stop radix rest := by
  induction s generalizing count value with
  | nil =>
    simp only [readDigits, Option.some.injEq, Prod.mk.injEq]
    constructor
    · rintro ⟨rfl, rfl, rfl⟩
      exact ⟨[], rfl, rfl, hc, rfl, by simp [Stop]⟩
    · rintro ⟨t, h1, h2, -, h3, -⟩
      obtain ⟨rfl, rfl⟩ := List.append_eq_nil_iff.mp h1.symm
      simp only [numeral, Option.some.injEq] at h3
      exact ⟨by simp [h2], h3, rfl⟩
  | cons c s ih =>
    simp only [readDigits]
    cases hd : toDigit radix c with
    | none =>
      simp only [Option.some.injEq, Prod.mk.injEq]
      constructor
      · rintro ⟨rfl, rfl, rfl⟩
        exact ⟨[], rfl, rfl, hc, rfl, by simp [Stop, hd]⟩
      · rintro ⟨t, h1, h2, -, h3, -⟩
        cases t with
        | nil =>
          simp only [numeral, Option.some.injEq] at h3
          exact ⟨by simp [h2], h3, h1⟩
        | cons c' t =>
          rw [List.cons_append] at h1
          obtain ⟨rfl, -⟩ := List.cons.inj h1
          simp [numeral, hd] at h3
    | some d =>
      simp only
      split
      · rename_i hgt
        simp only [reduceCtorEq, false_iff]
        rintro ⟨t, h1, h2, h2', h3, h4⟩
        cases t with
        | nil =>
          rw [List.nil_append] at h1
          subst h1
          have := h4 c rfl
          rw [hd] at this
          cases this
        | cons c' t =>
          simp only [List.length_cons] at h2
          omega
      · rename_i hle
        rw [ih (by omega)]
        constructor
        · rintro ⟨t, rfl, h2, h2', h3, h4⟩
          exact ⟨c :: t, rfl, by simp only [List.length_cons]; omega, h2', by simp [numeral, hd, h3], h4⟩
        · rintro ⟨t, h1, h2, h2', h3, h4⟩
          cases t with
          | nil =>
            rw [List.nil_append] at h1
            subst h1
            have := h4 c rfl
            rw [hd] at this
            cases this
          | cons c' t =>
            rw [List.cons_append] at h1
            obtain ⟨rfl, rfl⟩ := List.cons.inj h1
            refine ⟨t, rfl, ?_, h2', ?_, h4⟩
            · simp only [List.length_cons] at h2
              omega
            · simpa [numeral, hd] using h3

theorem readNumber_iff {radix max limit : Nat} {z : Bool} {s rest : Bytes} {v : Nat} :
    readNumber radix max z limit s = some (v, rest) ↔
      ∃ t, s = t ++ rest ∧ t ≠ [] ∧ t.length ≤ max ∧ numeral (toDigit radix) radix 0 t = some v ∧
        v < limit ∧ (z = false → t.head? = some 48 → t.length = 1) ∧ Stop radix rest := by
  unfold readNumber
  have key := @readDigits_iff radix max s
  constructor
  · intro h
    split at h
    · cases h
    · rename_i count value rest' hd
      obtain ⟨t, rfl, h2, h2', h3, h4⟩ := (key (Nat.zero_le _)).mp hd
      rw [Nat.zero_add] at h2
      subst h2
      split at h
      · cases h
      rename_i hne
      split at h
      · cases h
      rename_i hz
      split at h
      · rename_i hlt
        simp only [Option.some.injEq, Prod.mk.injEq] at h
        obtain ⟨rfl, rfl⟩ := h
        have htne : t ≠ [] := by rintro rfl; exact hne rfl
        refine ⟨t, rfl, htne, h2', h3, hlt, ?_, h4⟩
        intro hz0 hh
        subst hz0
        have hh' : (t ++ rest').head? = some 48 := by
          cases t with
          | nil => exact absurd rfl htne
          | cons a t => simpa using hh
        rw [hh'] at hz
        have : ¬ t.length > 1 := by simpa using hz
        have : t.length ≠ 0 := by simpa using htne
        omega
      · cases h
  · rintro ⟨t, rfl, hne, hmax, hn, hlt, hz, hs⟩
    have hd := (key (Nat.zero_le _)).mpr ⟨t, rfl, rfl, by simpa using hmax, hn, hs⟩
    rw [hd]
    have hl : t.length ≠ 0 := by simpa using hne
    simp only [Nat.zero_add]
    rw [if_neg hl, if_neg, if_pos hlt]
    intro h
    simp only [Bool.and_eq_true, Bool.not_eq_true', beq_iff_eq, decide_eq_true_eq] at h
    have hh : t.head? = some 48 := by
      cases t with
      | nil => exact absurd rfl hne
      | cons a t => simpa using h.1.2
    have := hz h.1.1 hh
    omega

theorem readSeparator_succ {α : Type} {sep : UInt8} {i : Nat} {inner : Reader α} {s : Bytes} {x : α × Bytes} :
    readSeparator sep (i + 1) inner s = some x ↔ ∃ s', s = sep :: s' ∧ inner s' = some x := by
  simp only [readSeparator, Nat.zero_lt_succ, gt_iff_lt, if_true]
  cases s with
  | nil => simp
  | cons c s =>
    simp only
    split
    · rename_i h
      subst h
      simp
    · rename_i h
      simp only [reduceCtorEq, false_iff]
      rintro ⟨s', h', -⟩
      exact h (List.cons.inj h').1

theorem readSeparator_zero {α : Type} {sep : UInt8} {inner : Reader α} {s : Bytes} :
    readSeparator sep 0 inner s = inner s := by
  simp [readSeparator]

theorem numeral_ge {digit : UInt8 → Option Nat} {base n v : Nat} {t : Bytes}
    (h : numeral digit base n t = some v) : n * base ^ t.length ≤ v := by
  induction t generalizing n with
  | nil =>
    simp only [numeral, Option.some.injEq] at h
    simp [h]
  | cons c t ih =>
    simp only [numeral, Option.bind_eq_some_iff] at h
    obtain ⟨d, -, h⟩ := h
    have := ih h
    calc n * base ^ (c :: t).length = n * base * base ^ t.length := by
          rw [List.length_cons, Nat.pow_succ, Nat.mul_assoc, Nat.mul_comm base]
      _ ≤ (n * base + d) * base ^ t.length := Nat.mul_le_mul_right _ (by omega)
      _ ≤ v := this

theorem decOctet_length {t : Bytes} {o : UInt8} (h : DecOctet t o) : t.length ≤ 3 := by
  obtain ⟨hne, hn, hz⟩ := h
  cases t with
  | nil => exact absurd rfl hne
  | cons c t =>
    by_cases hc : c = 48
    · have := hz (by simp [hc])
      rw [this]
      decide
    · simp only [numeral, Option.bind_eq_some_iff] at hn
      obtain ⟨d, hd, hn⟩ := hn
      have hd0 : 1 ≤ d := by
        unfold decDigit at hd
        split at hd
        · rename_i hr
          simp only [Option.some.injEq] at hd
          have h1 := UInt8.le_iff_toNat_le.mp hr.1
          simp only [UInt8.reduceToNat] at h1
          have : c.toNat ≠ 48 := fun h => hc (UInt8.toNat_inj.mp h)
          omega
        · cases hd
      have h1 := numeral_ge hn
      have h2 := o.toNat_lt
      by_contra hlen
      simp only [List.length_cons] at hlen
      have h3 : 10 ^ 3 ≤ 10 ^ t.length := Nat.pow_le_pow_right (by decide) (by omega)
      have h4 : 10 ^ t.length ≤ (0 * 10 + d) * 10 ^ t.length := Nat.le_mul_of_pos_left _ (by omega)
      have : (10:Nat) ^ 3 = 1000 := by decide
      omega

theorem readOctet_iff {s rest : Bytes} {v : Nat} :
    readNumber 10 3 false 256 s = some (v, rest) ↔
      ∃ t o, s = t ++ rest ∧ DecOctet t o ∧ v = o.toNat ∧ Stop 10 rest := by
  rw [readNumber_iff, toDigit_ten]
  constructor
  · rintro ⟨t, rfl, hne, -, hn, hlt, hz, hs⟩
    have hv : (UInt8.ofNat v).toNat = v := UInt8.toNat_ofNat_of_lt' hlt
    refine ⟨t, UInt8.ofNat v, rfl, ⟨hne, by rw [hv]; exact hn, ?_⟩, hv.symm, hs⟩
    intro hh
    have := hz rfl hh
    obtain ⟨a, rfl⟩ := List.length_eq_one_iff.mp this
    simp only [List.head?_cons, Option.some.injEq] at hh
    rw [hh]
  · rintro ⟨t, o, rfl, hd, rfl, hs⟩
    refine ⟨t, rfl, hd.1, decOctet_length hd, hd.2.1, o.toNat_lt, ?_, hs⟩
    intro _ hh
    rw [hd.2.2 hh]
    rfl

theorem stop_dot (s : Bytes) : Stop 10 (46 :: s) := by
  intro c hc
  simp only [List.head?_cons, Option.mem_some_iff] at hc
  subst hc
  decide

theorem readOctets_zero {i : Nat} {s rest o : Bytes} :
    readOctets 0 i s = some (o, rest) ↔ o = [] ∧ rest = s := by
  simp only [readOctets, Option.some.injEq, Prod.mk.injEq]
  exact ⟨fun h => ⟨h.1.symm, h.2.symm⟩, fun h => ⟨h.1.symm, h.2.symm⟩⟩

theorem readOctets_succ {n i : Nat} {s rest o : Bytes} :
    readOctets (n + 1) i s = some (o, rest) ↔
      ∃ v s' o', readSeparator 46 i (readNumber 10 3 false 256) s = some (v, s') ∧
        readOctets n (i + 1) s' = some (o', rest) ∧ o = UInt8.ofNat v :: o' := by
  simp only [readOctets]
  constructor
  · intro h
    split at h
    · cases h
    · rename_i v s' h1
      split at h
      · cases h
      · rename_i o' s'' h2
        simp only [Option.some.injEq, Prod.mk.injEq] at h
        obtain ⟨rfl, rfl⟩ := h
        exact ⟨v, s', o', h1, h2, rfl⟩
  · rintro ⟨v, s', o', h1, h2, rfl⟩
    rw [h1]
    simp only
    rw [h2]

theorem readIpV4_iff {s rest o : Bytes} :
    readIpV4 s = some (o, rest) ↔ ∃ t, s = t ++ rest ∧ DottedQuad t o ∧ Stop 10 rest := by
  unfold readIpV4
  simp only [readOctets_succ, readOctets_zero, readSeparator_zero, readSeparator_succ, readOctet_iff]
  constructor
  · rintro ⟨_, _, _, ⟨ta, a, rfl, ha, rfl, -⟩, ⟨_, _, _, ⟨_, rfl, tb, b, rfl, hb, rfl, -⟩,
      ⟨_, _, _, ⟨_, rfl, tc, c, rfl, hc, rfl, -⟩, ⟨_, _, _, ⟨_, rfl, td, d, rfl, hd, rfl, hs⟩, ⟨rfl, rfl⟩, rfl⟩, rfl⟩,
      rfl⟩, rfl⟩
    exact ⟨ta ++ 46 :: (tb ++ 46 :: (tc ++ 46 :: td)), by simp,
      ⟨a, b, c, d, ta, tb, tc, td, ha, hb, hc, hd, rfl, by simp⟩, hs⟩
  · rintro ⟨t, rfl, ⟨a, b, c, d, ta, tb, tc, td, ha, hb, hc, hd, rfl, rfl⟩, hs⟩
    exact ⟨_, _, _, ⟨ta, a, by simp, ha, rfl, stop_dot _⟩, ⟨_, _, _, ⟨_, rfl, tb, b, rfl, hb, rfl, stop_dot _⟩,
      ⟨_, _, _, ⟨_, rfl, tc, c, rfl, hc, rfl, stop_dot _⟩, ⟨_, _, _, ⟨_, rfl, td, d, rfl, hd, rfl, hs⟩, ⟨rfl, rfl⟩, rfl⟩,
      rfl⟩, rfl⟩, by simp⟩

theorem numeral_digits {digit : UInt8 → Option Nat} {base n v : Nat} {t : Bytes}
    (h : numeral digit base n t = some v) : ∀ c ∈ t, (digit c).isSome := by
  induction t generalizing n with
  | nil => simp
  | cons c t ih =>
    simp only [numeral, Option.bind_eq_some_iff] at h
    obtain ⟨d, hd, h⟩ := h
    intro c' hc'
    rcases List.mem_cons.mp hc' with rfl | hc'
    · simp [hd]
    · exact ih h c' hc'

theorem octets_of_u16 {v : Nat} (hv : v < 65536) :
    ∃ a b : UInt8, u16be (UInt16.ofNat v) = [a, b] ∧ v = a.toNat * 256 + b.toNat := by
  refine ⟨UInt8.ofNat (v / 256), UInt8.ofNat v, ?_, ?_⟩
  · rw [u16be, UInt16.toNat_ofNat_of_lt' (by simpa using hv), toBE_two]
  · rw [UInt8.toNat_ofNat_of_lt' (show _ < 256 by omega), UInt8.toNat_ofNat']
    omega

theorem hexGroup_iff {t o : Bytes} :
    HexGroup t o ↔ t ≠ [] ∧ t.length ≤ 4 ∧
      ∃ v, v < 65536 ∧ numeral Spec.hexDigit 16 0 t = some v ∧ o = u16be (UInt16.ofNat v) := by
  constructor
  · rintro ⟨h1, h2, a, b, rfl, h3⟩
    have ha := a.toNat_lt
    have hb := b.toNat_lt
    refine ⟨by rintro rfl; simp at h1, h2, _, (show a.toNat * 256 + b.toNat < 65536 by omega), h3, ?_⟩
    obtain ⟨a', b', h4, h5⟩ := octets_of_u16 (show a.toNat * 256 + b.toNat < 65536 by omega)
    have ha' := a'.toNat_lt
    have hb' := b'.toNat_lt
    rw [h4, UInt8.toNat_inj.mp (show a.toNat = a'.toNat by omega), UInt8.toNat_inj.mp (show b.toNat = b'.toNat by omega)]
  · rintro ⟨h1, h2, v, hv, h3, rfl⟩
    obtain ⟨a, b, h4, h5⟩ := octets_of_u16 hv
    exact ⟨List.length_pos_iff.mpr h1, h2, a, b, h4, h5 ▸ h3⟩

theorem readHex_sound {s rest : Bytes} {v : Nat} (h : readNumber 16 4 true 65536 s = some (v, rest)) :
    ∃ t, s = t ++ rest ∧ HexGroup t (u16be (UInt16.ofNat v)) := by
  rw [readNumber_iff, toDigit_sixteen] at h
  obtain ⟨t, rfl, hne, hl, hn, hlt, -, -⟩ := h
  exact ⟨t, rfl, hexGroup_iff.mpr ⟨hne, hl, v, hlt, hn, rfl⟩⟩

/-- What may follow a group: nothing, or a colon. -/
def Ends (s : Bytes) : Prop := ∀ c ∈ s.head?, c = 58

theorem Ends.stop {s : Bytes} (h : Ends s) : Stop 16 s := by
  intro c hc
  rw [h c hc]
  decide

theorem readHex_complete {t o rest : Bytes} (h : HexGroup t o) (hr : Ends rest) :
    ∃ v, readNumber 16 4 true 65536 (t ++ rest) = some (v, rest) ∧ o = u16be (UInt16.ofNat v) := by
  obtain ⟨hne, hl, v, hv, hn, rfl⟩ := hexGroup_iff.mp h
  refine ⟨v, ?_, rfl⟩
  rw [readNumber_iff, toDigit_sixteen]
  exact ⟨t, rfl, hne, hl, hn, hv, by simp, hr.stop⟩

theorem dropWhile_digits {p : UInt8 → Bool} {t rest : Bytes} (ht : ∀ c ∈ t, p c = true)
    (hr : ∀ c ∈ rest.head?, p c = false) : (t ++ rest).dropWhile p = rest := by
  induction t with
  | nil =>
    cases rest with
    | nil => rfl
    | cons c r => simp [hr c rfl]
  | cons c t ih =>
    rw [List.cons_append, List.dropWhile_cons_of_pos (ht c List.mem_cons_self)]
    exact ih fun c hc => ht c (List.mem_cons_of_mem _ hc)

theorem decDigit_hex {c : UInt8} (h : (decDigit c).isSome) : (Spec.hexDigit c).isSome := by
  unfold decDigit at h
  unfold Spec.hexDigit
  split at h
  · rename_i hc
    rw [if_pos hc]
    rfl
  · simp at h

/-- A text without dots behind the first digits is not read as an IPv4 address. -/
theorem readIpV4_none {t rest : Bytes} (ht : ∀ c ∈ t, (Spec.hexDigit c).isSome) (hr : Ends rest) :
    readIpV4 (t ++ rest) = none := by
  cases hx : readIpV4 (t ++ rest) with
  | none => rfl
  | some x =>
    exfalso
    obtain ⟨o, rest'⟩ := x
    obtain ⟨t', h1, ⟨a, b, c, d, ta, tb, tc, td, ha, hb, hc, hd, rfl, rfl⟩, hs⟩ := readIpV4_iff.mp hx
    have h2 := dropWhile_digits (p := fun c => (Spec.hexDigit c).isSome) ht (fun c hc => by rw [hr c hc]; decide)
    have h3 := dropWhile_digits (p := fun c => (Spec.hexDigit c).isSome) (t := ta)
      (rest := 46 :: (tb ++ 46 :: (tc ++ 46 :: td)) ++ rest')
      (fun c hc => decDigit_hex (numeral_digits ha.2.1 c hc))
      (fun c hc => by
        simp only [List.cons_append, List.head?_cons, Option.mem_some_iff] at hc
        subst hc
        decide)
    rw [h1, List.append_assoc, h3] at h2
    have := hr 46 (by rw [← h2]; simp)
    cases this

theorem readHex_none {s : Bytes} (hs : Ends s) : readNumber 16 4 true 65536 s = none := by
  cases hx : readNumber 16 4 true 65536 s with
  | none => rfl
  | some x =>
    exfalso
    obtain ⟨v, rest⟩ := x
    rw [readNumber_iff, toDigit_sixteen] at hx
    obtain ⟨t, rfl, hne, -, hn, -⟩ := hx
    cases t with
    | nil => exact hne rfl
    | cons c t =>
      have h1 := numeral_digits hn c List.mem_cons_self
      have h2 := hs c (by simp)
      subst h2
      revert h1
      decide

/-- The text from group number `index` on, with the colon before it. -/
def sepText (index : Nat) (t : Bytes) : Bytes := if index > 0 then 58 :: t else t

theorem readSeparator_sepText {α : Type} {i : Nat} {inner : Reader α} {t rest : Bytes} :
    readSeparator 58 i inner (sepText i t ++ rest) = inner (t ++ rest) := by
  cases i with
  | zero => simp [sepText, readSeparator]
  | succ i => simp [sepText, readSeparator]

theorem readSeparator_some {α : Type} {i : Nat} {inner : Reader α} {s : Bytes} {x : α × Bytes}
    (h : readSeparator 58 i inner s = some x) : ∃ t, s = sepText i t ∧ inner t = some x := by
  cases i with
  | zero =>
    rw [readSeparator_zero] at h
    exact ⟨s, rfl, h⟩
  | succ i =>
    obtain ⟨s', rfl, h⟩ := readSeparator_succ.mp h
    exact ⟨s', rfl, h⟩

theorem groupsOrQuad_of_groups {t o : Bytes} (h : Groups t o) : GroupsOrQuad t o := by
  induction h with
  | one h => exact .one h
  | more h _ ih => exact .more h ih

theorem quad_length {t o : Bytes} (h : DottedQuad t o) : o.length = 4 := by
  obtain ⟨_, _, _, _, _, _, _, _, _, _, _, _, _, rfl⟩ := h
  rfl

theorem hex_length {t o : Bytes} (h : HexGroup t o) : o.length = 2 := by
  obtain ⟨_, _, _, _, rfl, _⟩ := h
  rfl

theorem groupsOrQuad_length {t o : Bytes} (h : GroupsOrQuad t o) : o.length % 2 = 0 ∧ 2 ≤ o.length := by
  induction h with
  | one h => rw [hex_length h]; decide
  | quad h => rw [quad_length h]; decide
  | more h _ ih => rw [List.length_append, hex_length h]; omega

/-- What `read_groups` has read. -/
theorem readGroups_sound {left index : Nat} {s o rest : Bytes} {q : Bool}
    (h : readGroups left index s = (o, q, rest)) :
    o.length ≤ 2 * left ∧
      ((o = [] ∧ q = false ∧ s = rest) ∨
        ∃ t, s = sepText index t ++ rest ∧ (if q then GroupsOrQuad t o else Groups t o)) := by
  induction left generalizing index s o q with
  | zero =>
    simp only [readGroups, Prod.mk.injEq] at h
    obtain ⟨rfl, rfl, rfl⟩ := h
    exact ⟨by simp, .inl ⟨rfl, rfl, rfl⟩⟩
  | succ left ih =>
    simp only [readGroups] at h
    split at h
    · rename_i o' s' h4
      simp only [Prod.mk.injEq] at h
      obtain ⟨rfl, rfl, rfl⟩ := h
      split at h4
      · rename_i hl
        obtain ⟨t, rfl, h5⟩ := readSeparator_some h4
        obtain ⟨t', rfl, h6, -⟩ := readIpV4_iff.mp h5
        refine ⟨by rw [quad_length h6]; omega, .inr ⟨t', ?_, ?_⟩⟩
        · unfold sepText
          split <;> simp
        · simpa using GroupsOrQuad.quad h6
      · cases h4
    · split at h
      · simp only [Prod.mk.injEq] at h
        obtain ⟨rfl, rfl, rfl⟩ := h
        exact ⟨by simp, .inl ⟨rfl, rfl, rfl⟩⟩
      · rename_i v s' h4
        simp only [Prod.mk.injEq] at h
        obtain ⟨rfl, rfl, rfl⟩ := h
        obtain ⟨t, rfl, h5⟩ := readSeparator_some h4
        obtain ⟨t', rfl, h6⟩ := readHex_sound h5
        obtain ⟨hl, h7⟩ := ih (index := index + 1) (s := s') rfl
        refine ⟨by rw [List.length_append, hex_length h6]; omega, .inr ?_⟩
        rcases h7 with ⟨h8, h9, h10⟩ | ⟨t'', h8, h9⟩
        · refine ⟨t', ?_, ?_⟩
          · rw [← h10]
            unfold sepText
            split <;> simp
          · rw [h8, h9, List.append_nil]
            simpa using Groups.one h6
        · refine ⟨t' ++ 58 :: t'', ?_, ?_⟩
          · have : sepText (index + 1) t'' = 58 :: t'' := by simp [sepText]
            rw [this] at h8
            generalize (readGroups left (index + 1) s').2.2 = r at h8
            subst h8
            unfold sepText
            split <;> simp
          · split at h9
            · rename_i hq
              rw [if_pos hq]
              exact .more h6 h9
            · rename_i hq
              rw [if_neg hq]
              exact .more h6 h9

/-- Nothing is read where no group begins. -/
theorem readGroups_nothing {left index : Nat} {s : Bytes}
    (h : ∀ t, s = sepText index t → Ends t) : readGroups left index s = ([], false, s) := by
  cases left with
  | zero => rfl
  | succ left =>
    have h4 : readSeparator 58 index readIpV4 s = none := by
      cases hx : readSeparator 58 index readIpV4 s with
      | none => rfl
      | some x =>
        obtain ⟨t, ht, h5⟩ := readSeparator_some hx
        have := readIpV4_none (t := []) (by simp) (h t ht)
        rw [List.nil_append, h5] at this
        cases this
    have h5 : readSeparator 58 index (readNumber 16 4 true 65536) s = none := by
      cases hx : readSeparator 58 index (readNumber 16 4 true 65536) s with
      | none => rfl
      | some x =>
        obtain ⟨t, ht, h5⟩ := readSeparator_some hx
        rw [readHex_none (h t ht)] at h5
        cases h5
    simp only [readGroups, h4, h5, ite_self]

/-- One group is read as such. -/
theorem readGroups_hex {left index : Nat} {t o rest : Bytes} (h : HexGroup t o) (hr : Ends rest) :
    readGroups (left + 1) index (sepText index t ++ rest) =
      (o ++ (readGroups left (index + 1) rest).1, (readGroups left (index + 1) rest).2) := by
  have hd : ∀ c ∈ t, (Spec.hexDigit c).isSome := by
    obtain ⟨-, -, v, -, hn, -⟩ := hexGroup_iff.mp h
    exact numeral_digits hn
  obtain ⟨v, hv, rfl⟩ := readHex_complete h hr
  simp only [readGroups, readSeparator_sepText, readIpV4_none hd hr, ite_self, hv]

theorem readGroups_groups {left index : Nat} {t o rest : Bytes} (h : Groups t o) (hl : o.length ≤ 2 * left)
    (hr : rest = [] ∨ ∃ r, rest = 58 :: 58 :: r) :
    readGroups left index (sepText index t ++ rest) = (o, false, rest) := by
  have hends : Ends rest := by
    rcases hr with rfl | ⟨r, rfl⟩ <;> intro c hc <;> simp_all
  induction h generalizing left index with
  | one h =>
    rw [hex_length h] at hl
    obtain ⟨left, rfl⟩ : ∃ k, left = k + 1 := ⟨left - 1, by omega⟩
    rw [readGroups_hex h hends, readGroups_nothing, List.append_nil]
    intro t' ht'
    simp only [sepText, Nat.zero_lt_succ, gt_iff_lt, if_true] at ht'
    rcases hr with rfl | ⟨r, rfl⟩
    · cases ht'
    · obtain rfl := (List.cons.inj ht').2
      intro c hc
      simp_all
  | @more t o t' o' h _ ih =>
    rw [List.length_append, hex_length h] at hl
    obtain ⟨left, rfl⟩ : ∃ k, left = k + 1 := ⟨left - 1, by omega⟩
    have e : sepText index (t ++ 58 :: t') ++ rest = sepText index t ++ (58 :: t' ++ rest) := by
      unfold sepText
      split <;> simp
    rw [e, readGroups_hex h (by intro c hc; simp_all)]
    have := ih (left := left) (index := index + 1) (by omega)
    simp only [sepText, Nat.zero_lt_succ, gt_iff_lt, if_true] at this
    rw [this]

theorem readGroups_all {left index : Nat} {t o : Bytes} (h : GroupsOrQuad t o) (hl : o.length ≤ 2 * left) :
    ∃ q, readGroups left index (sepText index t) = (o, q, []) := by
  induction h generalizing left index with
  | @one t o h =>
    refine ⟨false, ?_⟩
    simpa using readGroups_groups (index := index) (Groups.one h) hl (.inl rfl)
  | @quad t o h =>
    rw [quad_length h] at hl
    obtain ⟨left, rfl⟩ : ∃ k, left = k + 1 := ⟨left - 1, by omega⟩
    have h4 : readIpV4 t = some (o, []) := readIpV4_iff.mpr ⟨t, by simp, h, by simp [Stop]⟩
    have h5 : readSeparator 58 index readIpV4 (sepText index t) = some (o, []) := by
      have := readSeparator_sepText (i := index) (inner := readIpV4) (t := t) (rest := [])
      simpa [h4] using this
    refine ⟨true, ?_⟩
    simp only [readGroups, h5]
    rw [if_pos (by omega)]
  | @more t o t' o' h _ ih =>
    rw [List.length_append, hex_length h] at hl
    obtain ⟨left, rfl⟩ : ∃ k, left = k + 1 := ⟨left - 1, by omega⟩
    have e : sepText index (t ++ 58 :: t') = sepText index t ++ (58 :: t') := by
      unfold sepText
      split <;> simp
    rw [e, readGroups_hex h (by intro c hc; simp_all)]
    obtain ⟨q, hq⟩ := ih (left := left) (index := index + 1) (by omega)
    simp only [sepText, Nat.zero_lt_succ, gt_iff_lt, if_true] at hq
    exact ⟨q, by rw [hq]⟩

theorem parseWith_iff {r : Reader Bytes} {s o : Bytes} : parseWith r s = some o ↔ r s = some (o, []) := by
  unfold parseWith
  split
  · rename_i o' h
    rw [h]
    simp
  · rename_i h
    constructor
    · intro h'
      cases h'
    · intro h'
      exact absurd h' (h o)

theorem parseIpV6_iff {s o : Bytes} : parseIpV6 s = some o ↔ IpV6Text s o := by
  rw [parseIpV6, parseWith_iff]
  constructor
  · intro h
    simp only [readIpV6] at h
    generalize hh : readGroups 8 0 s = head at h
    obtain ⟨lo, q, rest⟩ := head
    obtain ⟨hl, hs⟩ := readGroups_sound hh
    simp only [sepText, gt_iff_lt, Nat.lt_irrefl, if_false] at hs h
    split at h
    · rename_i h16
      simp only [Option.some.injEq, Prod.mk.injEq] at h
      obtain ⟨rfl, rfl⟩ := h
      refine ⟨h16, .inl ?_⟩
      rcases hs with ⟨rfl, -⟩ | ⟨t, rfl, ht⟩
      · cases h16
      · rw [List.append_nil]
        split at ht
        · exact ht
        · exact groupsOrQuad_of_groups ht
    · rename_i h16
      split at h
      · cases h
      · rename_i hq
        split at h
        · rename_i s'
          generalize ht : readGroups (8 - (lo.length / 2 + 1)) 0 s' = tail at h
          obtain ⟨ro, q', rest'⟩ := tail
          obtain ⟨hrl, hrs⟩ := readGroups_sound ht
          simp only [sepText, gt_iff_lt, Nat.lt_irrefl, if_false, Option.some.injEq, Prod.mk.injEq] at hrs h
          obtain ⟨rfl, rfl⟩ := h
          have hlo : lo.length ≤ 14 ∧ lo.length % 2 = 0 := by
            rcases hs with ⟨rfl, -⟩ | ⟨t, -, hg⟩
            · simp
            · rw [if_neg hq] at hg
              have := groupsOrQuad_length (groupsOrQuad_of_groups hg)
              omega
          refine ⟨by simp; omega, .inr ?_⟩
          have hlt : ∃ l, (l = [] ∧ lo = [] ∨ Groups l lo) ∧ s = l ++ 58 :: 58 :: s' := by
            rcases hs with ⟨rfl, -, h3⟩ | ⟨t, h3, hg⟩
            · exact ⟨[], .inl ⟨rfl, rfl⟩, h3⟩
            · rw [if_neg hq] at hg
              exact ⟨t, .inr hg, h3⟩
          obtain ⟨l, hl1, hl2⟩ := hlt
          refine ⟨l, s', lo, ro, _, hl1, ?_, ?_, hl2, rfl⟩
          · rcases hrs with ⟨rfl, -, rfl⟩ | ⟨t, rfl, hg⟩
            · exact .inl ⟨rfl, rfl⟩
            · rw [List.append_nil]
              split at hg
              · exact .inr hg
              · exact .inr (groupsOrQuad_of_groups hg)
          · omega
        · cases h
  · rintro ⟨h16, h | ⟨l, r, lo, ro, zeros, hl, hr, hz, rfl, rfl⟩⟩
    · obtain ⟨q, hq⟩ := readGroups_all (left := 8) (index := 0) h (by omega)
      simp only [sepText, gt_iff_lt, Nat.lt_irrefl, if_false] at hq
      simp only [readIpV6, hq, h16, if_true]
    · simp only [List.length_append, List.length_replicate] at h16
      have h1 : readGroups 8 0 (l ++ 58 :: 58 :: r) = (lo, false, 58 :: 58 :: r) := by
        rcases hl with ⟨rfl, rfl⟩ | hl
        · refine readGroups_nothing ?_
          intro t ht
          simp only [sepText, gt_iff_lt, Nat.lt_irrefl, if_false, List.nil_append] at ht
          subst ht
          intro c hc
          simp_all
        · have := readGroups_groups (left := 8) (index := 0) hl (by omega) (rest := 58 :: 58 :: r) (.inr ⟨r, rfl⟩)
          simpa [sepText] using this
      have hlo : lo.length % 2 = 0 := by
        rcases hl with ⟨rfl, rfl⟩ | hl
        · rfl
        · exact (groupsOrQuad_length (groupsOrQuad_of_groups hl)).1
      have hro : ro.length % 2 = 0 := by
        rcases hr with ⟨rfl, rfl⟩ | hr
        · rfl
        · exact (groupsOrQuad_length hr).1
      have h2 : ∃ q, readGroups (8 - (lo.length / 2 + 1)) 0 r = (ro, q, []) := by
        rcases hr with ⟨rfl, rfl⟩ | hr
        · refine ⟨false, readGroups_nothing ?_⟩
          intro t ht
          simp only [sepText, gt_iff_lt, Nat.lt_irrefl, if_false] at ht
          subst ht
          intro c hc
          simp at hc
        · have := readGroups_all (left := 8 - (lo.length / 2 + 1)) (index := 0) hr (by omega)
          simpa [sepText] using this
      obtain ⟨q, h2⟩ := h2
      have hne : lo.length ≠ 16 := by omega
      have hzz : 16 - lo.length - ro.length = zeros := by omega
      simp only [readIpV6, h1, hne, if_false, h2, hzz, Bool.false_eq_true]

theorem parseIpV4_iff {s o : Bytes} : parseIpV4 s = some o ↔ DottedQuad s o := by
  have key : parseWith readIpV4 s = some o ↔ DottedQuad s o := by
    rw [parseWith_iff, readIpV4_iff]
    constructor
    · rintro ⟨t, rfl, h, -⟩
      simpa using h
    · intro h
      exact ⟨s, by simp, h, by simp [Stop]⟩
  unfold parseIpV4
  split
  · rename_i hl
    constructor
    · intro h
      cases h
    · rintro ⟨a, b, c, d, ta, tb, tc, td, ha, hb, hc, hd, rfl, rfl⟩
      have h1 := decOctet_length ha
      have h2 := decOctet_length hb
      have h3 := decOctet_length hc
      have h4 := decOctet_length hd
      simp only [List.length_append, List.length_cons] at hl
      omega
  · exact key

end AddrText

/-! ### C96 -/

/-- A record of an IPv4 address can be made of a text exactly if the text is four decimal numbers from 0 to 255 without
leading zeros, separated by dots; the data of the record are these four octets. -/
theorem C96_a {t o : Bytes} : (∃ r, A.ofText t = some r ∧ r.toBytes = o) ↔ DottedQuad t o := by
  rw [← AddrText.parseIpV4_iff]
  constructor
  · rintro ⟨r, h, rfl⟩
    rw [A.ofText, Option.map_eq_some_iff] at h
    obtain ⟨o, ho, rfl⟩ := h
    have h4 := AddrText.quad_length (AddrText.parseIpV4_iff.mp ho)
    have hlt := ofBE_lt o
    rw [h4] at hlt
    rw [ho, A.toBytes, u32be, UInt32.toNat_ofNat_of_lt' (by simpa using hlt), ← h4, toBE_ofBE]
  · intro h
    have h4 := AddrText.quad_length (AddrText.parseIpV4_iff.mp h)
    have hlt := ofBE_lt o
    rw [h4] at hlt
    refine ⟨_, by rw [A.ofText, h]; rfl, ?_⟩
    rw [A.toBytes, u32be, UInt32.toNat_ofNat_of_lt' (by simpa using hlt), ← h4, toBE_ofBE]

/-- A record of an IPv6 address can be made of a text exactly if it has one of the forms of RFC 4291, section 2.2; the
data of the record are the sixteen octets that the text denotes. -/
theorem C96_aaaa {t o : Bytes} : (∃ r, Aaaa.ofText t = some r ∧ r.toBytes = o) ↔ IpV6Text t o := by
  rw [← AddrText.parseIpV6_iff]
  constructor
  · rintro ⟨r, h, rfl⟩
    rw [Aaaa.ofText, Option.map_eq_some_iff] at h
    obtain ⟨o, ho, rfl⟩ := h
    have h4 := (AddrText.parseIpV6_iff.mp ho).1
    have hlt := ofBE_lt o
    rw [h4] at hlt
    rw [ho, Aaaa.toBytes, BitVec.toNat_ofNat, Nat.mod_eq_of_lt (by simpa using hlt), ← h4, toBE_ofBE]
  · intro h
    have h4 := (AddrText.parseIpV6_iff.mp h).1
    have hlt := ofBE_lt o
    rw [h4] at hlt
    refine ⟨_, by rw [Aaaa.ofText, h]; rfl, ?_⟩
    rw [Aaaa.toBytes, BitVec.toNat_ofNat, Nat.mod_eq_of_lt (by simpa using hlt), ← h4, toBE_ofBE]

/-- A text denotes one address only. -/
theorem C96_one {t o o' : Bytes} : (DottedQuad t o → DottedQuad t o' → o = o') ∧ (IpV6Text t o → IpV6Text t o' → o = o') := by
  simp only [← C96_a, ← C96_aaaa]
  constructor
  · rintro ⟨r, h, rfl⟩ ⟨r', h', rfl⟩
    rw [Option.some.inj (h.symm.trans h')]
  · rintro ⟨r, h, rfl⟩ ⟨r', h', rfl⟩
    rw [Option.some.inj (h.symm.trans h')]

theorem AddrText.decOctet_exists (a : UInt8) : ∃ t, DecOctet t a := by
  have key : ∀ n : Fin 256, ∀ t, t = (if n.val < 10 then [UInt8.ofNat (48 + n)]
      else if n.val < 100 then [UInt8.ofNat (48 + n / 10), UInt8.ofNat (48 + n % 10)]
      else [UInt8.ofNat (48 + n / 100), UInt8.ofNat (48 + n / 10 % 10), UInt8.ofNat (48 + n % 10)]) →
      t ≠ [] ∧ numeral decDigit 10 0 t = some n.val ∧ (t.head? = some 48 → t = [48]) := by
    simp only [forall_eq]
    decide +kernel
  exact ⟨_, key ⟨a.toNat, a.toNat_lt⟩ _ rfl⟩

theorem AddrText.hexGroup_exists (a b : UInt8) : ∃ t, HexGroup t [a, b] := by
  have key : ∀ n : Fin 16, ∃ c, Spec.hexDigit c = some n.val := by
    intro n
    refine ⟨if n.val < 10 then UInt8.ofNat (48 + n) else UInt8.ofNat (87 + n), ?_⟩
    revert n
    decide
  have ha := a.toNat_lt
  have hb := b.toNat_lt
  obtain ⟨c1, h1⟩ := key ⟨a.toNat / 16, by omega⟩
  obtain ⟨c2, h2⟩ := key ⟨a.toNat % 16, by omega⟩
  obtain ⟨c3, h3⟩ := key ⟨b.toNat / 16, by omega⟩
  obtain ⟨c4, h4⟩ := key ⟨b.toNat % 16, by omega⟩
  refine ⟨[c1, c2, c3, c4], by simp, by simp, a, b, rfl, ?_⟩
  simp only [numeral, h1, h2, h3, h4, Option.bind_some, Option.some.injEq]
  omega

/-- Every address can be given as text. -/
theorem C96_every {o : Bytes} :
    (o.length = 4 → ∃ t r, A.ofText t = some r ∧ r.toBytes = o) ∧
      (o.length = 16 → ∃ t r, Aaaa.ofText t = some r ∧ r.toBytes = o) := by
  constructor
  · intro h
    match o, h with
    | [a, b, c, d], _ =>
      obtain ⟨ta, ha⟩ := AddrText.decOctet_exists a
      obtain ⟨tb, hb⟩ := AddrText.decOctet_exists b
      obtain ⟨tc, hc⟩ := AddrText.decOctet_exists c
      obtain ⟨td, hd⟩ := AddrText.decOctet_exists d
      exact ⟨_, C96_a.mpr ⟨a, b, c, d, ta, tb, tc, td, ha, hb, hc, hd, rfl, rfl⟩⟩
  · intro h
    have key : ∀ n (o : Bytes), o.length = 2 * (n + 1) → ∃ t, GroupsOrQuad t o := by
      intro n
      induction n with
      | zero =>
        intro o ho
        match o, ho with
        | [a, b], _ =>
          obtain ⟨t, ht⟩ := AddrText.hexGroup_exists a b
          exact ⟨t, .one ht⟩
      | succ n ih =>
        intro o ho
        match o, ho with
        | a :: b :: o, ho =>
          obtain ⟨t, ht⟩ := AddrText.hexGroup_exists a b
          obtain ⟨t', ht'⟩ := ih o (by simp at ho; omega)
          exact ⟨_, .more ht ht'⟩
    obtain ⟨t, ht⟩ := key 7 o h
    exact ⟨t, C96_aaaa.mpr ⟨h, .inl ht⟩⟩

/-- `192.0.2.1` -/
example : DottedQuad [49, 57, 50, 46, 48, 46, 50, 46, 49] [192, 0, 2, 1] :=
  C96_a.mp ⟨⟨0xC0000201⟩, by decide +kernel, by decide +kernel⟩

/-- `192.0.02.1` is refused, and so are `192.0.2`, `192.0.2.256` and `192.0.2.1 `. -/
example : A.ofText [49, 57, 50, 46, 48, 46, 48, 50, 46, 49] = none ∧ A.ofText [49, 57, 50, 46, 48, 46, 50] = none ∧
    A.ofText [49, 57, 50, 46, 48, 46, 50, 46, 50, 53, 54] = none ∧
    A.ofText [49, 57, 50, 46, 48, 46, 50, 46, 49, 32] = none := by decide +kernel

/-- `2001:db8::1` -/
example : IpV6Text [50, 48, 48, 49, 58, 100, 98, 56, 58, 58, 49] [0x20, 1, 0xd, 0xb8, 0, 0, 0, 0, 0, 0, 0, 0, 0, 0, 0, 1] :=
  C96_aaaa.mp ⟨⟨0x20010db8000000000000000000000001⟩, by decide +kernel, by decide +kernel⟩

/-- `::ffff:192.0.2.1` -/
example : IpV6Text [58, 58, 102, 102, 102, 102, 58, 49, 57, 50, 46, 48, 46, 50, 46, 49]
    [0, 0, 0, 0, 0, 0, 0, 0, 0, 0, 0xff, 0xff, 192, 0, 2, 1] :=
  C96_aaaa.mp ⟨⟨0xffffc0000201⟩, by decide +kernel, by decide +kernel⟩

/-- `1:2:3:4:5:6:7::` denotes one group of zeros, `1:2:3:4:5:6:7:8::` and `1::2::3` denote nothing. -/
example : (Aaaa.ofText [49, 58, 50, 58, 51, 58, 52, 58, 53, 58, 54, 58, 55, 58, 58]).map Aaaa.toBytes =
      some [0, 1, 0, 2, 0, 3, 0, 4, 0, 5, 0, 6, 0, 7, 0, 0] ∧
    Aaaa.ofText [49, 58, 50, 58, 51, 58, 52, 58, 53, 58, 54, 58, 55, 58, 56, 58, 58] = none ∧
    Aaaa.ofText [49, 58, 58, 50, 58, 58, 51] = none := by decide +kernel

end Dns
