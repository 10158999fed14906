import Verif.Lemmas.RDataParse2

/-! Reading type bitmaps. -/

namespace Dns
open Spec Buf

/-! ## Sorted sets of types -/

theorem typeNumber_lt (t : RecordType) : typeNumber t < 65536 := by cases t <;> decide

theorem ord_eq (t : RecordType) : t.ord = typeNumber t := by cases t <;> rfl

theorem typeNumber_inj {a b : RecordType} (h : typeNumber a = typeNumber b) : a = b := by
  cases a <;> cases b <;> first | rfl | (simp [typeNumber] at h)

theorem mem_btInsert {α : Type} {key : α → Nat} (hk : ∀ a b, key a = key b → a = b) (x y : α)
    (l : List α) : y ∈ btInsert key x l ↔ y = x ∨ y ∈ l := by
  induction l with
  | nil => simp [btInsert]
  | cons a as ih =>
    simp only [btInsert]
    split
    · simp
    · split
      · simp [ih]; tauto
      · have : x = a := hk _ _ (by omega)
        subst this
        simp

theorem mem_btInsert_sub {α : Type} {key : α → Nat} {x y : α}
    {l : List α} (h : y ∈ btInsert key x l) : y = x ∨ y ∈ l := by
  induction l with
  | nil => simpa [btInsert] using h
  | cons a as ih =>
    simp only [btInsert] at h
    split at h
    · simpa using h
    · split at h
      · rcases List.mem_cons.mp h with h | h
        · simp [h]
        · rcases ih h with h | h <;> simp [h]
      · simp only [List.mem_cons] at h ⊢; tauto

theorem sorted_btInsert {α : Type} {key : α → Nat} (x : α) {l : List α}
    (h : l.Pairwise (fun a b => key a < key b)) :
    (btInsert key x l).Pairwise (fun a b => key a < key b) := by
  induction l with
  | nil => simp [btInsert]
  | cons a as ih =>
    rw [List.pairwise_cons] at h
    simp only [btInsert]
    split
    · rename_i hlt
      rw [List.pairwise_cons]
      refine ⟨?_, List.pairwise_cons.mpr h⟩
      intro b hb
      rcases List.mem_cons.mp hb with rfl | hb
      · exact hlt
      · exact lt_trans hlt (h.1 b hb)
    · split
      · rw [List.pairwise_cons]
        refine ⟨?_, ih h.2⟩
        intro b hb
        rcases mem_btInsert_sub hb with rfl | hb
        · assumption
        · exact h.1 b hb
      · exact List.pairwise_cons.mpr h

theorem sorted_ext {α : Type} {key : α → Nat} {l m : List α}
    (hl : l.Pairwise (fun a b => key a < key b)) (hm : m.Pairwise (fun a b => key a < key b))
    (h : ∀ x, x ∈ l ↔ x ∈ m) : l = m := by
  induction l generalizing m with
  | nil =>
    cases m with
    | nil => rfl
    | cons b bs => have := (h b).mpr (by simp); simp at this
  | cons a as ih =>
    cases m with
    | nil => have := (h a).mp (by simp); simp at this
    | cons b bs =>
      rw [List.pairwise_cons] at hl hm
      have hab : a = b := by
        have h1 := (h a).mp (by simp)
        have h2 := (h b).mpr (by simp)
        rcases List.mem_cons.mp h1 with h1 | h1
        · exact h1
        · rcases List.mem_cons.mp h2 with h2 | h2
          · exact h2.symm
          · have := hl.1 _ h2; have := hm.1 _ h1; omega
      subst hab
      congr 1
      refine ih hl.2 hm.2 ?_
      intro x
      have hx := h x
      simp only [List.mem_cons] at hx
      constructor
      · intro h1
        rcases hx.mp (.inr h1) with rfl | h2
        · have := hl.1 _ h1; omega
        · exact h2
      · intro h1
        rcases hx.mpr (.inr h1) with rfl | h2
        · have := hm.1 _ h1; omega
        · exact h2

/-! ## The bits that are read -/

theorem foldRes_append {σ τ : Type} (g : σ → τ → Res σ) (s : σ) (xs ys : List τ) :
    foldRes g s (xs ++ ys) = foldRes g s xs >>= fun s' => foldRes g s' ys := by
  induction xs generalizing s with
  | nil => rfl
  | cons x xs ih =>
    simp only [List.cons_append, foldRes, ih, bind_assoc]

/-- Insert the type at a bit position. -/
def insertBit (cfg : Cfg) (acc : List RecordType) (p : Nat) : Res (List RecordType) :=
  if p < 65536 ∨ cfg.overflowChecks = false then do
    let t ← RecordType.ofU16 cfg (UInt16.ofNat (p % 65536))
    return btInsert RecordType.ord t acc
  else .panic .overflow

/-- Positions of the bits of an octet. -/
def octetBits (window index : Nat) (octet : UInt8) (is : List Nat) : List Nat :=
  (is.filter (fun i => octet.toNat.testBit (7 - i))).map (fun i => 256 * window + 8 * index + i)

/-- Positions of the bits of the octets of a window. -/
def windowBits (window : Nat) : Nat → Bytes → List Nat
  | _, [] => []
  | index, o :: os => octetBits window index o [0, 1, 2, 3, 4, 5, 6, 7] ++ windowBits window (index + 1) os

theorem shift_bit (octet : UInt8) (i : Nat) (hi : i < 8) :
    ((octet <<< UInt8.ofNat i) &&& 0x80 > 0) ↔ octet.toNat.testBit (7 - i) = true := by
  revert octet
  apply forall_u8
  revert i
  decide +kernel

theorem readBit_eq (cfg : Cfg) (window index : Nat) (octet : UInt8) (i : Nat) (hi : i < 8)
    (hw : window < 256) (acc : List RecordType) :
    Bitmap.readBit cfg window index octet i acc =
      foldRes (insertBit cfg) acc (octetBits window index octet [i]) := by
  unfold Bitmap.readBit octetBits
  by_cases h : octet.toNat.testBit (7 - i) = true
  · rw [if_pos ((shift_bit octet i hi).mpr h)]
    simp only [List.filter_cons, h, if_true, List.filter_nil, List.map_cons, List.map_nil, foldRes,
      insertBit, addU16]
    by_cases h1 : 256 * window + 8 * index < 65536
    · rw [if_pos h1]
      simp only [Res.ok_bind]
      by_cases h2 : 256 * window + 8 * index + i < 65536
      · rw [if_pos h2, if_pos (.inl h2), Nat.mod_eq_of_lt h2]
        simp
      · rw [if_neg h2]
        cases hc : cfg.overflowChecks
        · simp
        · simp [h2]
    · rw [if_neg h1]
      have h2 : ¬ 256 * window + 8 * index + i < 65536 := by omega
      cases hc : cfg.overflowChecks
      · simp only [Bool.false_eq_true, if_false, Res.ok_bind, or_true, if_true]
        by_cases h3 : (256 * window + 8 * index) % 65536 + i < 65536
        · rw [if_pos h3]
          rw [show (256 * window + 8 * index) % 65536 + i = (256 * window + 8 * index + i) % 65536 by omega]
          simp
        · rw [if_neg h3]
          rw [show ((256 * window + 8 * index) % 65536 + i) % 65536 = (256 * window + 8 * index + i) % 65536 by omega]
          simp
      · simp [h2]
  · rw [if_neg (mt (shift_bit octet i hi).mp h)]
    simp [List.filter_cons, h, foldRes]

theorem readOctet_eq (cfg : Cfg) (window index : Nat) (octet : UInt8) (hw : window < 256)
    (is : List Nat) (his : ∀ i ∈ is, i < 8) (acc : List RecordType) :
    Bitmap.readOctet cfg window index octet is acc =
      foldRes (insertBit cfg) acc (octetBits window index octet is) := by
  induction is generalizing acc with
  | nil => rfl
  | cons i is ih =>
    rw [Bitmap.readOctet, readBit_eq cfg window index octet i (his i (by simp)) hw,
      show octetBits window index octet (i :: is) =
        octetBits window index octet [i] ++ octetBits window index octet is by
        simp only [octetBits, ← List.map_append, ← List.filter_append, List.singleton_append],
      foldRes_append]
    congr 1
    funext a
    exact ih (fun j hj => his j (by simp [hj])) a

theorem readWindow_eq (cfg : Cfg) (window : Nat) (hw : window < 256) (index : Nat) (os : Bytes)
    (acc : List RecordType) :
    Bitmap.readWindow cfg window index os acc =
      foldRes (insertBit cfg) acc (windowBits window index os) := by
  induction os generalizing index acc with
  | nil => rfl
  | cons o os ih =>
    rw [Bitmap.readWindow, windowBits, foldRes_append, readOctet_eq cfg window index o hw _ (by decide)]
    congr 1
    funext a
    exact ih _ a

/-- All positions of a list of windows. -/
def allBits (ws : List (UInt8 × Bytes)) : List Nat := ws.flatMap (fun w => windowBits w.1.toNat 0 w.2)

theorem foldRes_windows (cfg : Cfg) (ws : List (UInt8 × Bytes)) (acc : List RecordType) :
    foldRes (fun acc w => Bitmap.readWindow cfg w.1.toNat 0 w.2 acc) acc ws =
      foldRes (insertBit cfg) acc (allBits ws) := by
  induction ws generalizing acc with
  | nil => rfl
  | cons w ws ih =>
    rw [foldRes, allBits, List.flatMap_cons, foldRes_append, readWindow_eq _ _ w.1.toNat_lt]
    congr 1
    funext a
    exact ih a

theorem mem_windowBits {window index : Nat} {os : Bytes} {p : Nat} :
    p ∈ windowBits window index os ↔ ∃ k b octet, os[k]? = some octet ∧ b < 8 ∧
      octet.toNat.testBit (7 - b) = true ∧ p = 256 * window + 8 * (index + k) + b := by
  induction os generalizing index with
  | nil => simp [windowBits]
  | cons o os ih =>
    rw [windowBits, List.mem_append, ih]
    constructor
    · rintro (h | ⟨k, b, octet, h1, h2, h3, h4⟩)
      · simp only [octetBits, List.mem_map, List.mem_filter] at h
        obtain ⟨b, ⟨h1, h2⟩, rfl⟩ := h
        refine ⟨0, b, o, rfl, ?_, h2, rfl⟩
        simp at h1; omega
      · exact ⟨k + 1, b, octet, by simpa using h1, h2, h3, by omega⟩
    · rintro ⟨k, b, octet, h1, h2, h3, h4⟩
      cases k with
      | zero =>
        left
        simp only [List.getElem?_cons_zero, Option.some.injEq] at h1
        subst h1
        simp only [octetBits, List.mem_map, List.mem_filter]
        refine ⟨b, ⟨?_, h3⟩, by omega⟩
        interval_cases b <;> simp
      | succ k => right; exact ⟨k, b, octet, by simpa using h1, h2, h3, by omega⟩

theorem mem_allBits {ws : List (UInt8 × Bytes)} {p : Nat} :
    p ∈ allBits ws ↔ ∃ w ∈ ws, BitSet w p := by
  simp only [allBits, List.mem_flatMap, mem_windowBits, BitSet]
  simp

/-- What inserting the types at all positions gives. -/
theorem foldRes_insertBit_ok {cfg : Cfg} {ps : List Nat} {acc res : List RecordType}
    (hs : acc.Pairwise (fun a b => typeNumber a < typeNumber b))
    (h : foldRes (insertBit cfg) acc ps = .ok res) :
    res.Pairwise (fun a b => typeNumber a < typeNumber b) ∧
    (∀ t, t ∈ res ↔ t ∈ acc ∨ ∃ p ∈ ps, typeNumber t = p % 65536) ∧
    (∀ p ∈ ps, ∃ t, Readable cfg t ∧ typeNumber t = p % 65536) ∧
    (∀ p ∈ ps, cfg.overflowChecks = true → p < 65536) := by
  induction ps generalizing acc with
  | nil =>
    simp only [foldRes, Res.ok.injEq] at h
    subst h
    simp [hs]
  | cons p ps ih =>
    simp only [foldRes, insertBit] at h
    split at h
    · rename_i hp
      simp only [bind_assoc, Res.bind_eq_ok, RecordType.ofU16_ok, pure_bind] at h
      obtain ⟨t, ⟨ht1, ht2⟩, h⟩ := h
      have hk : RecordType.ord = typeNumber := funext ord_eq
      rw [hk] at h
      have ht3 : typeNumber t = p % 65536 := by
        have h1 := congrArg UInt16.toNat ht2
        rw [UInt16.toNat_ofNat_of_lt' (by simp only [UInt16.size]; omega),
          UInt16.toNat_ofNat_of_lt' (typeNumber_lt t)] at h1
        exact h1.symm
      obtain ⟨h1, h2, h3, h4⟩ := ih (sorted_btInsert t hs) h
      refine ⟨h1, ?_, ?_, ?_⟩
      · intro x
        rw [h2, mem_btInsert (fun a b => typeNumber_inj)]
        simp only [List.mem_cons, exists_eq_or_imp]
        constructor
        · rintro ((rfl | h) | h)
          · exact .inr (.inl ht3)
          · exact .inl h
          · exact .inr (.inr h)
        · rintro (h | h | h)
          · exact .inl (.inr h)
          · exact .inl (.inl (typeNumber_inj (h.trans ht3.symm)))
          · exact .inr h
      · intro q hq
        rcases List.mem_cons.mp hq with rfl | hq
        · exact ⟨t, ht1, ht3⟩
        · exact h3 q hq
      · intro q hq hc
        rcases List.mem_cons.mp hq with rfl | hq
        · rcases hp with hp | hp
          · exact hp
          · rw [hp] at hc; cases hc
        · exact h4 q hq hc
    · cases h

theorem foldRes_insertBit_progress {cfg : Cfg} {ps : List Nat} {acc : List RecordType}
    (h1 : ∀ p ∈ ps, ∃ t, Readable cfg t ∧ typeNumber t = p % 65536)
    (h2 : ∀ p ∈ ps, cfg.overflowChecks = true → p < 65536) :
    ∃ res, foldRes (insertBit cfg) acc ps = .ok res := by
  induction ps generalizing acc with
  | nil => exact ⟨acc, rfl⟩
  | cons p ps ih =>
    obtain ⟨t, ht1, ht2⟩ := h1 p (by simp)
    have hp : p < 65536 ∨ cfg.overflowChecks = false := by
      cases hc : cfg.overflowChecks
      · exact .inr rfl
      · exact .inl (h2 p (by simp) hc)
    simp only [foldRes, insertBit, if_pos hp]
    rw [(RecordType.ofU16_ok (x := t)).mpr ⟨ht1, by rw [ht2]⟩]
    simp only [Res.ok_bind, pure_bind]
    exact ih (fun q hq => h1 q (by simp [hq])) (fun q hq => h2 q (by simp [hq]))

theorem foldRes_typesOf {cfg : Cfg} {ws : List (UInt8 × Bytes)} {types : List RecordType} :
    foldRes (insertBit cfg) [] (allBits ws) = .ok types ↔ TypesOf cfg ws types := by
  constructor
  · intro h
    obtain ⟨h1, h2, h3, h4⟩ := foldRes_insertBit_ok (by simp) h
    refine ⟨h1, ?_, ?_, ?_⟩
    · intro t ht
      rcases (h2 t).mp ht with h | ⟨p, hp, hp2⟩
      · simp at h
      · obtain ⟨t', ht', ht''⟩ := h3 p hp
        rwa [typeNumber_inj (hp2.trans ht''.symm)]
    · intro n
      constructor
      · rintro ⟨w, hw, m, hm, rfl⟩
        have hp := mem_allBits.mpr ⟨w, hw, hm⟩
        obtain ⟨t, ht, ht2⟩ := h3 m hp
        exact ⟨t, (h2 t).mpr (.inr ⟨m, hp, ht2⟩), ht2⟩
      · rintro ⟨t, ht, rfl⟩
        rcases (h2 t).mp ht with h | ⟨p, hp, hp2⟩
        · simp at h
        · obtain ⟨w, hw, hm⟩ := mem_allBits.mp hp
          exact ⟨w, hw, p, hm, hp2⟩
    · intro hc w hw m hm
      exact h4 m (mem_allBits.mpr ⟨w, hw, hm⟩) hc
  · rintro ⟨h1, h2, h3, h4⟩
    have ha : ∀ p ∈ allBits ws, ∃ t ∈ types, typeNumber t = p % 65536 := by
      intro p hp
      obtain ⟨w, hw, hm⟩ := mem_allBits.mp hp
      exact (h3 (p % 65536)).mp ⟨w, hw, p, hm, rfl⟩
    obtain ⟨res, hr⟩ := foldRes_insertBit_progress (cfg := cfg) (ps := allBits ws) (acc := [])
      (fun p hp => by obtain ⟨t, ht, ht2⟩ := ha p hp; exact ⟨t, h2 t ht, ht2⟩)
      (fun p hp hc => by obtain ⟨w, hw, hm⟩ := mem_allBits.mp hp; exact h4 hc w hw p hm)
    rw [hr]
    congr 1
    obtain ⟨g1, g2, -, -⟩ := foldRes_insertBit_ok (by simp) hr
    refine sorted_ext g1 h1 ?_
    intro t
    rw [g2]
    constructor
    · rintro (h | ⟨p, hp, hp2⟩)
      · simp at h
      · obtain ⟨t', ht', ht2⟩ := ha p hp
        rwa [typeNumber_inj (hp2.trans ht2.symm)]
    · intro ht
      obtain ⟨w, hw, m, hm, hm2⟩ := (h3 (typeNumber t)).mpr ⟨t, ht, rfl⟩
      exact .inr ⟨m, mem_allBits.mpr ⟨w, hw, hm⟩, hm2⟩

/-! ## The parsers -/

/-- One window. -/
def extractWindow : Parser (UInt8 × Bytes) := do
  let w ← extractU8
  let b ← extractCharacterString
  return (w, b)

theorem extractWindow_ok {N : NameRel} {d : Bytes} {i j : Nat} {w : UInt8 × Bytes} :
    extractWindow d i = (.ok w, j) ↔ Items.At N d i [.u8 w.1, .str w.2] j := by
  obtain ⟨a, b⟩ := w
  simp [extractWindow, Parser.bind_ok, Parser.map_ok, extractU8_ok,
    extractCharacterString_ok, Items.At, Item.At]

theorem Bitmap.parse_ok {cfg : Cfg} {d : Bytes} {i j : Nat} {types : List RecordType} :
    Bitmap.parse cfg d i = (.ok types, j) ↔ ∃ ws, TypesOf cfg ws types ∧
      Items.At Decodes d i (windowItems ws ++ [.eof]) j := by
  have hb : ∀ acc, Bitmap.readStep cfg acc =
      extractWindow >>= fun w => Parser.lift ((fun acc w => Bitmap.readWindow cfg w.1.toNat 0 w.2 acc) acc w) := by
    intro acc
    simp only [Bitmap.readStep, extractWindow, extractCharacterString, bind_assoc, pure_bind]
  have hadv : ∀ i w k, extractWindow d i = (.ok w, k) → i < k ∧ k ≤ d.length := by
    intro i w k h
    obtain ⟨m, h1, n, ⟨_, h2⟩, rfl⟩ := (extractWindow_ok (N := Decodes)).mp h
    have := h1.end_eq
    have h3 := h2.end_eq
    have h4 := h2.le
    simp at this h3
    omega
  simp only [Bitmap.parse, whileRemaining_seq hb hadv, eof_append,
    seq_items (fun i x k => extractWindow_ok (N := Decodes)), foldRes_windows, foldRes_typesOf,
    ← windowItems.eq_def]
  constructor
  · rintro ⟨xs, h1, h2, h3⟩; exact ⟨xs, h3, h1, h2⟩
  · rintro ⟨xs, h3, h1, h2⟩; exact ⟨xs, h1, h2, h3⟩

theorem Csync.parse_ok {cfg : Cfg} {d : Bytes} {i j : Nat} {r : Csync} :
    Csync.parse cfg d i = (.ok r, j) ↔ ∃ ws, r.flags.bits.toNat < 4 ∧ TypesOf cfg ws r.types ∧
      Items.At Decodes d i ([.u32 r.soaSerial, .u16 r.flags.bits] ++ windowItems ws ++ [.eof]) j := by
  obtain ⟨s, f, t⟩ := r
  simp only [Csync.parse, Parser.bind_ok, Parser.pure_ok, Parser.lift_ok, extractU32_ok, extractU16_ok,
    Bitmap.parse_ok, CsyncFlags.ofU16_ok, List.cons_append, List.nil_append, Items.At, Item.At,
    Csync.mk.injEq]
  constructor
  · rintro ⟨_, k1, h1, _, k2, h2, _, _, ⟨⟨h3, rfl⟩, rfl⟩, _, k4, ⟨ws, h4, h5⟩, ⟨rfl, rfl, rfl⟩, rfl⟩
    exact ⟨ws, h3, h4, k1, h1, k2, h2, h5⟩
  · rintro ⟨ws, h3, h4, k1, h1, k2, h2, h5⟩
    exact ⟨_, k1, h1, _, k2, h2, _, _, ⟨⟨h3, rfl⟩, rfl⟩, _, j, ⟨ws, h4, h5⟩, ⟨rfl, rfl, rfl⟩, rfl⟩

theorem Nsec.parse_ok {cfg : Cfg} {d : Bytes} {i j : Nat} {r : Nsec} :
    Nsec.parse cfg d i = (.ok r, j) ↔ ∃ ws, TypesOf cfg ws r.types ∧
      Items.At Decodes d i (.name r.nextDomainName :: windowItems ws ++ [.eof]) j := by
  obtain ⟨n, t⟩ := r
  simp only [Nsec.parse, Parser.bind_ok, Parser.pure_ok, Bitmap.parse_ok, List.cons_append, Items.At,
    Item.At, Nsec.mk.injEq, Decodes]
  constructor
  · rintro ⟨_, k1, h1, _, k4, ⟨ws, h4, h5⟩, ⟨rfl, rfl⟩, rfl⟩
    exact ⟨ws, h4, k1, h1, h5⟩
  · rintro ⟨ws, h4, k1, h1, h5⟩
    exact ⟨_, k1, h1, _, j, ⟨ws, h4, h5⟩, ⟨rfl, rfl⟩, rfl⟩

end Dns
