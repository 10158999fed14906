import Verif.Lemmas.Monad
import Verif.Spec.Wire

/-! The primitive readers against the wire format items. -/

namespace Dns
open Spec Buf

theorem octets_iff {d : Bytes} {i j : Nat} {b : Bytes} :
    Octets d i b j ↔ j = i + b.length ∧ j ≤ d.length ∧ (d.drop i).take b.length = b := by
  constructor
  · rintro ⟨pre, post, rfl, rfl, rfl⟩
    refine ⟨rfl, by simp, ?_⟩
    rw [List.append_assoc, List.drop_left, List.take_left]
  · rintro ⟨rfl, h, hb⟩
    refine ⟨d.take i, d.drop (i + b.length), ?_, by simp; omega, rfl⟩
    conv_lhs => rw [← List.take_append_drop i d, ← List.take_append_drop b.length (d.drop i), hb]
    simp [List.append_assoc, List.drop_drop]

theorem Spec.Octets.end_eq {d : Bytes} {i j : Nat} {b : Bytes} (h : Octets d i b j) : j = i + b.length :=
  (octets_iff.mp h).1

theorem Spec.Octets.le {d : Bytes} {i j : Nat} {b : Bytes} (h : Octets d i b j) : j ≤ d.length :=
  (octets_iff.mp h).2.1

theorem octets_append {d : Bytes} {i j : Nat} {b c : Bytes} :
    Octets d i (b ++ c) j ↔ ∃ k, Octets d i b k ∧ Octets d k c j := by
  constructor
  · rintro ⟨pre, post, rfl, rfl, rfl⟩
    exact ⟨pre.length + b.length, ⟨pre, c ++ post, by simp, rfl, rfl⟩,
      ⟨pre ++ b, post, by simp, by simp, by simp; omega⟩⟩
  · rintro ⟨k, ⟨pre, post, rfl, rfl, rfl⟩, h2⟩
    obtain ⟨rfl, hle, h3⟩ := octets_iff.mp h2
    refine ⟨pre, post.drop c.length, ?_, rfl, by simp; omega⟩
    rw [show pre.length + b.length = (pre ++ b).length by simp, List.drop_left] at h3
    conv_lhs => rw [← List.take_append_drop c.length post, h3]
    simp

theorem octets_mid (pre b post : Bytes) :
    Octets (pre ++ b ++ post) pre.length b (pre.length + b.length) := ⟨pre, post, rfl, rfl, rfl⟩

theorem Spec.Octets.inj {d : Bytes} {i j k : Nat} {b c : Bytes} (h1 : Octets d i b j)
    (h2 : Octets d i c k) (hl : b.length = c.length) : b = c := by
  have a := (octets_iff.mp h1).2.2
  have b' := (octets_iff.mp h2).2.2
  rw [← a, ← b', hl]

theorem Spec.Octets.extend {d : Bytes} {i j : Nat} {b : Bytes} (h : Octets d i b j) (e : Bytes) :
    Octets (d ++ e) i b j := by
  obtain ⟨pre, post, rfl, hi, hj⟩ := h
  exact ⟨pre, post ++ e, by simp, hi, hj⟩

/-! ## Octets of numbers -/

theorem toBE_two (x : Nat) : toBE 2 x = [UInt8.ofNat (x / 256), UInt8.ofNat x] := by
  simp [toBE]

theorem u16be_eq (v : UInt16) : u16be v = octets16 v := by
  have h := v.toNat_lt
  simp only [u16be, toBE_two, octets16]
  congr 1
  · apply UInt8.toNat_inj.mp
    simp [Nat.shiftRight_eq_div_pow]

theorem u32be_eq (v : UInt32) : u32be v = octets32 v := by
  have h := v.toNat_lt
  simp only [u32be, toBE, octets32]
  congr 1
  · apply UInt8.toNat_inj.mp
    simp [Nat.shiftRight_eq_div_pow]
  congr 1
  · apply UInt8.toNat_inj.mp
    simp [Nat.shiftRight_eq_div_pow]
  congr 1
  · apply UInt8.toNat_inj.mp
    simp [Nat.shiftRight_eq_div_pow]
  · congr 1
    apply UInt8.toNat_inj.mp
    simp

theorem valueOf_eq (b : Bytes) : valueOf b = ofBE b := by
  induction b with
  | nil => simp [valueOf, ofBE]
  | cons x xs ih =>
    rw [ofBE_cons, ← ih]
    simp [valueOf, Nat.ofDigits_append]
    ring

theorem toBE_eq_map (k v : Nat) :
    toBE k v = (List.range k).map (fun m => UInt8.ofNat (v / 256 ^ (k - 1 - m) % 256)) := by
  induction k with
  | zero => rfl
  | succ k ih =>
    rw [toBE, ih, List.range_succ_eq_map, List.map_cons, List.map_map]
    congr 1
    · apply UInt8.toNat_inj.mp
      simp
    · apply List.map_congr_left
      intro m _
      simp only [Function.comp, Nat.succ_eq_add_one]
      rw [show k + 1 - 1 - (m + 1) = k - 1 - m by omega]

/-! ## Readers -/

theorem extractBytes_ok {n : Nat} {d : Bytes} {i j : Nat} {b : Bytes} :
    extractBytes n d i = (.ok b, j) ↔ b.length = n ∧ Octets d i b j := by
  unfold extractBytes
  rw [octets_iff]
  split
  · simp; intro h1 h2; omega
  · rename_i h
    simp only [Prod.mk.injEq, Res.ok.injEq]
    constructor
    · rintro ⟨rfl, rfl⟩
      have : (List.take n (List.drop i d)).length = n := by simp; omega
      exact ⟨this, by omega, by omega, by rw [this]⟩
    · rintro ⟨rfl, rfl, _, h3⟩
      exact ⟨h3, rfl⟩

theorem extractU8_ok {d : Bytes} {i j : Nat} {v : UInt8} :
    extractU8 d i = (.ok v, j) ↔ Octets d i [v] j := by
  unfold extractU8
  simp only [Parser.bind_ok, Parser.pure_ok, extractBytes_ok]
  constructor
  · rintro ⟨b, k, ⟨hl, ho⟩, rfl, rfl⟩
    obtain ⟨x, rfl⟩ := List.length_eq_one_iff.mp hl
    simpa [ofBE] using ho
  · intro h
    exact ⟨[v], j, ⟨rfl, h⟩, by simp [ofBE], rfl⟩

theorem extractU16_ok {d : Bytes} {i j : Nat} {v : UInt16} :
    extractU16 d i = (.ok v, j) ↔ Octets d i (octets16 v) j := by
  unfold extractU16
  simp only [Parser.bind_ok, Parser.pure_ok, extractBytes_ok]
  rw [← u16be_eq, u16be]
  constructor
  · rintro ⟨b, k, ⟨hl, ho⟩, rfl, rfl⟩
    have hb : ofBE b < 2 ^ 16 := by have := ofBE_lt b; rw [hl] at this; simpa using this
    rw [UInt16.toNat_ofNat_of_lt' hb, ← hl, toBE_ofBE]
    exact ho
  · intro h
    refine ⟨_, j, ⟨by simp, h⟩, ?_, rfl⟩
    rw [ofBE_toBE]
    apply UInt16.toNat_inj.mp
    simp

theorem extractU32_ok {d : Bytes} {i j : Nat} {v : UInt32} :
    extractU32 d i = (.ok v, j) ↔ Octets d i (octets32 v) j := by
  unfold extractU32
  simp only [Parser.bind_ok, Parser.pure_ok, extractBytes_ok]
  rw [← u32be_eq, u32be]
  constructor
  · rintro ⟨b, k, ⟨hl, ho⟩, rfl, rfl⟩
    have hb : ofBE b < 2 ^ 32 := by have := ofBE_lt b; rw [hl] at this; simpa using this
    rw [UInt32.toNat_ofNat_of_lt' hb, ← hl, toBE_ofBE]
    exact ho
  · intro h
    refine ⟨_, j, ⟨by simp, h⟩, ?_, rfl⟩
    rw [ofBE_toBE]
    apply UInt32.toNat_inj.mp
    simp

theorem extractNum_ok {k w : Nat} (hk : 256 ^ k = 2 ^ w) {d : Bytes} {i j : Nat} {v : BitVec w}
    {N : NameRel} :
    (∃ b m, extractBytes k d i = (.ok b, m) ∧ BitVec.ofNat w (ofBE b) = v ∧ m = j) ↔
      Item.At N d i (.num k v.toNat) j := by
  simp only [extractBytes_ok, Item.At, valueOf_eq]
  constructor
  · rintro ⟨b, m, ⟨hl, ho⟩, rfl, rfl⟩
    refine ⟨b, ho, hl, ?_⟩
    have := ofBE_lt b
    rw [hl, hk] at this
    rw [BitVec.toNat_ofNat, Nat.mod_eq_of_lt this]
  · rintro ⟨b, ho, hl, hv⟩
    refine ⟨b, j, ⟨hl, ho⟩, ?_, rfl⟩
    rw [hv]; simp

theorem extractU128_ok {d : Bytes} {i j : Nat} {v : BitVec 128} {N : NameRel} :
    extractU128 d i = (.ok v, j) ↔ Item.At N d i (.num 16 v.toNat) j := by
  rw [← extractNum_ok (by norm_num)]
  unfold extractU128
  simp only [Parser.bind_ok, Parser.pure_ok]

theorem remaining_ok {d : Bytes} {i j n : Nat} :
    remaining d i = (.ok n, j) ↔ i ≤ d.length ∧ n = d.length - i ∧ j = i := by
  unfold remaining
  split <;> simp_all
  constructor
  · rintro ⟨rfl, rfl⟩; simp
  · rintro ⟨rfl, rfl⟩; simp

theorem extractRest_ok {d : Bytes} {i j : Nat} {b : Bytes} :
    extractRest d i = (.ok b, j) ↔ Octets d i b j ∧ j = d.length := by
  unfold extractRest
  simp only [Parser.bind_ok, remaining_ok, extractBytes_ok]
  constructor
  · rintro ⟨n, k, ⟨h1, rfl, rfl⟩, h2, h3⟩
    exact ⟨h3, by have := h3.end_eq; omega⟩
  · rintro ⟨h, rfl⟩
    have := h.end_eq
    exact ⟨d.length - i, i, ⟨by omega, rfl, rfl⟩, by omega, h⟩

theorem extractCharacterString_ok {d : Bytes} {i j : Nat} {b : Bytes} :
    extractCharacterString d i = (.ok b, j) ↔
      b.length < 256 ∧ Octets d i (UInt8.ofNat b.length :: b) j := by
  unfold extractCharacterString
  simp only [Parser.bind_ok, extractU8_ok, extractBytes_ok]
  constructor
  · rintro ⟨v, k, h1, h2, h3⟩
    refine ⟨by have := v.toNat_lt; omega, ?_⟩
    rw [show UInt8.ofNat b.length :: b = [v] ++ b by rw [h2]; simp]
    exact octets_append.mpr ⟨k, h1, h3⟩
  · rintro ⟨h1, h2⟩
    rw [show UInt8.ofNat b.length :: b = [UInt8.ofNat b.length] ++ b by rfl] at h2
    obtain ⟨k, h3, h4⟩ := octets_append.mp h2
    exact ⟨_, k, h3, (UInt8.toNat_ofNat_of_lt' (by simpa using h1)).symm, h4⟩

theorem extractString_ok {d : Bytes} {i j : Nat} {b : Bytes} :
    extractString d i = (.ok b, j) ↔
      (b.length < 256 ∧ Octets d i (UInt8.ofNat b.length :: b) j) ∧ utf8Valid b = true := by
  unfold extractString
  simp only [Parser.bind_ok, extractCharacterString_ok]
  constructor
  · rintro ⟨a, k, h, h2⟩
    split at h2
    · rw [Parser.pure_ok] at h2
      obtain ⟨rfl, rfl⟩ := h2
      exact ⟨h, by assumption⟩
    · rw [Parser.fail_ok] at h2; exact h2.elim
  · rintro ⟨h, h2⟩
    exact ⟨b, j, h, by rw [if_pos h2, Parser.pure_ok]; simp⟩

/-- A 16-bit length followed by that many octets. -/
theorem extractStr16_ok {d : Bytes} {i j : Nat} {b : Bytes} :
    (∃ n k, extractU16 d i = (.ok n, k) ∧ extractBytes n.toNat d k = (.ok b, j)) ↔
      b.length < 65536 ∧ Octets d i (octets16 (UInt16.ofNat b.length) ++ b) j := by
  simp only [extractU16_ok, extractBytes_ok]
  constructor
  · rintro ⟨v, k, h1, h2, h3⟩
    refine ⟨by have := v.toNat_lt; omega, octets_append.mpr ⟨k, ?_, h3⟩⟩
    rwa [h2, UInt16.ofNat_toNat]
  · rintro ⟨h1, h2⟩
    obtain ⟨k, h3, h4⟩ := octets_append.mp h2
    exact ⟨_, k, h3, (UInt16.toNat_ofNat_of_lt' (by simpa using h1)).symm, h4⟩

/-! ## Lists of items -/

theorem itemsAt_append {N : NameRel} {d : Bytes} {i j : Nat} {a b : List Item} :
    Items.At N d i (a ++ b) j ↔ ∃ k, Items.At N d i a k ∧ Items.At N d k b j := by
  induction a generalizing i with
  | nil => simp [Items.At]
  | cons x xs ih =>
    simp only [List.cons_append, Items.At, ih]
    constructor
    · rintro ⟨k, h1, m, h2, h3⟩; exact ⟨m, ⟨k, h1, h2⟩, h3⟩
    · rintro ⟨m, ⟨k, h1, h2⟩, h3⟩; exact ⟨k, h1, m, h2, h3⟩

theorem Spec.Item.At.mono {N M : NameRel} {d : Bytes} (h : ∀ i n j, N d i n j → M d i n j)
    {i j : Nat} {it : Item} : it.At N d i j → it.At M d i j := by
  cases it <;> simp only [Item.At] <;> first | exact id | exact h _ _ _

theorem Spec.Items.At.mono {N M : NameRel} {d : Bytes} (h : ∀ i n j, N d i n j → M d i n j)
    {i j : Nat} {its : List Item} : Items.At N d i its j → Items.At M d i its j := by
  induction its generalizing i with
  | nil => exact id
  | cons x xs ih =>
    rintro ⟨k, h1, h2⟩
    exact ⟨k, h1.mono h, ih h2⟩

end Dns
