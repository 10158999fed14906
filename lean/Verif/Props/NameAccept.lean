import Verif.Props.NameDecode
import Verif.Lemmas.NameWrite
import Verif.Spec.Writable

/-! C58: which label lengths and which names are accepted, exactly. -/

namespace Dns
open Spec Buf

/-- C58 (partial), what happens instead of the refusal: an octet from 1 to 191 (so also one with the reserved
prefix 01 or 10) is the length of a label, and the name is accepted exactly when so many octets and a name
follow. -/
theorem C58_length_octets_partial (d : Bytes) (i j : Nat) (b : UInt8) (n : Fqdn) (hb : d[i]? = some b)
    (h1 : 1 ≤ b.toNat) (h2 : b.toNat < 192) :
    extractFqdn d i = (.ok n, j) ↔
      ∃ l m, n = l :: m ∧ l.length = b.toNat ∧ Octets d i (b :: l) (i + 1 + b.toNat) ∧
        extractFqdn d (i + 1 + b.toNat) = (.ok m, j) := by
  constructor
  · intro h
    cases extractFqdn_ok.mp h with
    | root h0 => rw [hb] at h0; cases h0; simp at h1
    | label a b' c e f =>
      have := octets_cons_getElem? e
      rw [hb] at this
      cases this
      rw [c] at e f
      exact ⟨_, _, rfl, c, e, extractFqdn_ok.mpr f⟩
    | pointer a o =>
      have := octets_cons_getElem? o
      rw [hb] at this
      cases this
      omega
  · rintro ⟨l, m, rfl, hl, e, f⟩
    refine extractFqdn_ok.mpr (.label h1 (by omega) hl (by rw [hl]; exact e) ?_)
    rw [hl]
    exact extractFqdn_ok.mp f

/-- C58: a label of 128 octets (length octet `10000000`). -/
example : (∀ b ∈ (128 :: (List.replicate 128 97 ++ [0]) : Bytes)[0]?, 1 ≤ b.toNat ∧ b.toNat < 192) ∧
    extractFqdn (128 :: (List.replicate 128 97 ++ [0])) 0 = (.ok [List.replicate 128 97], 130) := by
  decide +kernel

/-- C58 (partial): a name written out in any message is accepted, whatever its total length, exactly when
every label has 1 to 191 octets. -/
theorem C58_accepted_partial (pre post : Bytes) (n : Fqdn) :
    (∃ j, extractFqdn (pre ++ nameOctets n ++ post) pre.length = (.ok n, j)) ↔
      ∀ l ∈ n, 1 ≤ l.length ∧ l.length ≤ 191 := by
  constructor
  · rintro ⟨j, h⟩ l hl
    have := C57_label_bounded _ _ _ _ h l hl
    exact ⟨this.1, this.2.1⟩
  · intro h
    exact ⟨_, extractFqdn_ok.mpr (codeName_plain pre post n h)⟩

/-- C58: a name of 1001 octets. -/
example : ∀ l ∈ (List.replicate 100 (List.replicate 9 97) : Fqdn), 1 ≤ l.length ∧ l.length ≤ 191 := by
  intro l hl
  rw [List.eq_of_mem_replicate hl]
  simp

/-- C58 (partial): so a limit of the total length is not just missing by accident for some names: for every
bound there is a name that exceeds it and is accepted. -/
theorem C58_no_bound (k : Nat) : ∃ (d : Bytes) (n : Fqdn) (j : Nat), extractFqdn d 0 = (.ok n, j) ∧ k ≤ j ∧
    ∀ l ∈ n, l.length = 1 := by
  have h : ∀ l ∈ (List.replicate k [97] : Fqdn), 1 ≤ l.length ∧ l.length ≤ 191 := by
    intro l hl
    rw [List.eq_of_mem_replicate hl]
    simp
  refine ⟨_, _, _, extractFqdn_ok.mpr (codeName_plain [] [] (List.replicate k [97]) h), ?_, ?_⟩
  · simp [nameOctets]
    omega
  · intro l hl
    rw [List.eq_of_mem_replicate hl]
    rfl

end Dns
