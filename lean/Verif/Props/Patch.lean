import Verif.Lemmas.Steady
import Verif.Props.Stream
import Verif.Props.Append
import Verif.Props.Exactly

/-
C112: the identification and the flags of a message can be changed in place.
-/

namespace Dns
open Spec Buf

/-! ## All octets -/

theorem patch_length {id : UInt16} {fl : Flags} {d : Bytes} (h : 4 ≤ d.length) : (patch id fl d).length = d.length := by
  simp [patch, octets16]
  omega

theorem patch_alike {id : UInt16} {fl : Flags} {d : Bytes} (h : 4 ≤ d.length) : Alike 4 d (patch id fl d) := by
  refine ⟨(patch_length h).symm, fun k hk => ?_⟩
  unfold patch
  rw [List.getElem?_append_right (by simpa [octets16] using hk), List.getElem?_drop]
  congr 1
  simp [octets16]
  omega

/-- The octets of the header behind the flags. -/
def Header.parseCounts : Parser (UInt16 × UInt16 × UInt16 × UInt16) := do
  let q ← extractU16
  let an ← extractU16
  let au ← extractU16
  let ad ← extractU16
  return (q, an, au, ad)

theorem Header.steady_counts {lo : Nat} : Steady lo Header.parseCounts := by
  unfold Header.parseCounts; steady

/-- What follows the first four octets, for any identification and flags. -/
def Packet.parseTail (cfg : Cfg) (id : UInt16) (fl : Flags) : Parser Packet := do
  let c ← Header.parseCounts
  Packet.parseRest cfg ⟨id, fl, c.1, c.2.1, c.2.2.1, c.2.2.2⟩

theorem Packet.steady_tail {lo : Nat} (cfg : Cfg) (id : UInt16) (fl : Flags) : Steady lo (Packet.parseTail cfg id fl) :=
  .bind Header.steady_counts fun _ => Packet.steady_rest cfg _

theorem Packet.parse_tail (cfg : Cfg) (id : UInt16) (fl : Flags) (d : Bytes) :
    Packet.parseBuf cfg (patch id fl d) 0 = Packet.parseTail cfg id fl (patch id fl d) 4 := by
  have h1 : extractU16 (patch id fl d) 0 = (.ok id, 2) :=
    extractU16_ok.mpr ⟨[], [fl.hi, fl.lo] ++ d.drop 4, by simp [patch], rfl, rfl⟩
  have h2 : extractBytes 2 (patch id fl d) 2 = (.ok [fl.hi, fl.lo], 4) :=
    extractBytes_ok.mpr ⟨rfl, octets16 id, d.drop 4, by simp [patch], rfl, rfl⟩
  have h3 : Packet.parseBuf cfg = (do
      let id ← extractU16
      let f ← extractBytes 2
      Packet.parseTail cfg id ⟨f.getD 0 0, f.getD 1 0⟩) := by
    rw [Packet.parseBuf_rest]
    unfold Header.parse Packet.parseTail Header.parseCounts
    simp only [bind_assoc, pure_bind]
  rw [h3, Parser.bind_apply, h1]
  simp only [Parser.bind_apply, h2]
  rfl

theorem patch_self {d : Bytes} (h : 4 ≤ d.length) : ∃ id fl, d = patch id fl d := by
  match d, h with
  | a :: b :: c :: e :: d, _ =>
    refine ⟨UInt16.ofNat (a.toNat * 256 + b.toNat), ⟨c, e⟩, ?_⟩
    have h1 := a.toNat_lt
    have h2 := b.toNat_lt
    have h3 : octets16 (UInt16.ofNat (a.toNat * 256 + b.toNat)) = [a, b] := by
      unfold octets16
      simp only [List.cons.injEq, and_true]
      constructor
      · apply UInt8.toNat_inj.mp
        simp [Nat.shiftRight_eq_div_pow]
        omega
      · apply UInt8.toNat_inj.mp
        simp
    unfold patch
    rw [h3]
    rfl

theorem Packet.tail_repatch (cfg : Cfg) (id id' : UInt16) (fl fl' : Flags) :
    Packet.parseTail cfg id' fl' = (do
      let p ← Packet.parseTail cfg id fl
      return repatch id' fl' p) := by
  unfold Packet.parseTail Packet.parseRest
  simp only [bind_assoc, pure_bind, repatch]

/-- C112 for all octets: a message in which no two octets behind the flags look like a pointer to the identification or
the flags is treated the same whatever its identification and flags are: with others written over them, the same error
is reported, or a packet is read that differs in nothing but the identification and the flags. -/
theorem C112_any (cfg : Cfg) (d : Bytes) (id : UInt16) (fl : Flags) (hd : 4 ≤ d.length) (hn : NoPointerBelow 4 d) :
    Packet.parse cfg (patch id fl d) = (do
      let p ← Packet.parse cfg d
      return repatch id fl p) := by
  obtain ⟨id0, fl0, h0⟩ := patch_self hd
  have h1 : Packet.parseBuf cfg d 0 = Packet.parseTail cfg id0 fl0 d 4 := by
    have := Packet.parse_tail cfg id0 fl0 d
    rwa [← h0] at this
  unfold Packet.parse
  rw [Packet.parse_tail, (Packet.steady_tail cfg id fl d _ (patch_alike hd) hn 4 (Nat.le_refl 4)).1, h1,
    Packet.tail_repatch cfg id0 id fl0 fl, Parser.bind_apply]
  rcases Packet.parseTail cfg id0 fl0 d 4 with ⟨r, j⟩
  cases r <;> rfl


/-! ## What is written -/

theorem header_patch (id : UInt16) (fl : Flags) (h : Header) (b : Bytes) :
    { h with id := id, flags := fl }.toBytes ++ b = patch id fl (h.toBytes ++ b) := by
  simp [patch, Header.toBytes, u16be_eq, octets16]

/-- C112 for what is written, without and with compression and for every packet: with another identification and other
flags the crate writes the same octets, except for the first four, or fails in the same way. -/
theorem C112_written (cfg : Cfg) (h : Hash) (p : Packet) (id : UInt16) (fl : Flags) :
    (repatch id fl p).toBytes cfg = (do
      let b ← p.toBytes cfg
      return patch id fl b) ∧
    (repatch id fl p).toBytesCompressed cfg h = (do
      let b ← p.toBytesCompressed cfg h
      return patch id fl b) := by
  constructor
  · rw [toBytes_parts, toBytes_parts]
    have hb : ∀ b, (repatch id fl p).headerBytes ++ b = patch id fl (p.headerBytes ++ b) := by
      intro b
      simp [patch, repatch, Packet.headerBytes, Header.toBytes, octets16, u16be_eq]
    simp only [bind_assoc, pure_bind, hb]
    rfl
  · rw [toBytesCompressed_parts, toBytesCompressed_parts]
    simp only [bind_assoc, pure_bind, ← header_patch]
    rfl

/-! ## Names, items and records that stay the same -/

theorem nameWith_and {m1 m2 : Nat} {a1 a2 : Nat → Nat → Prop} (hm1 : m1 ≤ 191) (hm2 : m2 ≤ 191) {d : Bytes} {i j : Nat}
    {n : Fqdn} (h1 : NameWith m1 a1 d i n j) : ∀ {n' : Fqdn} {k : Nat}, NameWith m2 a2 d i n' k →
      NameWith m1 (fun p t => a1 p t ∧ a2 p t) d i n j := by
  induction h1 with
  | root h => exact fun _ => .root h
  | label a b c e _ ih =>
    intro n' k h2
    refine .label a b c e ?_
    have hx := octets_cons_getElem? e
    cases h2 with
    | root h => rw [h] at hx; cases hx; simp at a
    | label a' b' c' e' f' =>
      have hx' := octets_cons_getElem? e'
      rw [hx] at hx'
      cases hx'
      have hl := e.inj e' (by simp [c, c'])
      cases hl
      exact ih f'
    | pointer a' b' =>
      have hx' := octets_cons_getElem? b'
      rw [hx] at hx'
      cases hx'
      omega
  | pointer a b c _ ih =>
    intro n' k h2
    have hx := octets_cons_getElem? b
    cases h2 with
    | root h => rw [h] at hx; cases hx; simp at a
    | label a' b' c' e' f' =>
      have hx' := octets_cons_getElem? e'
      rw [hx] at hx'
      cases hx'
      omega
    | pointer a' b' c' f' =>
      have hl := b.inj b' rfl
      cases hl
      exact .pointer a b ⟨c, c'⟩ (ih f')

theorem nameWith_alike {lo max : Nat} {a : Nat → Nat → Prop} {d d' : Bytes} (hl : Alike lo d d') {i k : Nat} {n : Fqdn}
    (hi : lo ≤ i) (h : NameWith max (fun p t => a p t ∧ lo ≤ t) d i n k) :
    NameWith max (fun p t => a p t ∧ lo ≤ t) d' i n k := by
  induction h with
  | root h => exact .root (by rw [← hl.2 _ hi]; exact h)
  | label a b c e _ ih => exact .label a b c (hl.octets hi e) (ih (by omega))
  | pointer a b c _ ih => exact .pointer a (hl.octets hi b) c (ih c.2)

theorem nameFrom_alike {lo : Nat} {d d' : Bytes} (hl : Alike lo d d') {i k : Nat} {n : Fqdn} (hi : lo ≤ i)
    (h : NameFrom lo d i n k) : NameFrom lo d' i n k := by
  obtain ⟨h1, h2⟩ := h
  have mono : ∀ {i n k}, NameWith 63 (fun _ t => True ∧ lo ≤ t) d' i n k → NameWith 63 (fun _ t => lo ≤ t) d' i n k :=
    fun h => nameWith_mono (Nat.le_refl 63) (fun _ _ h => h.2) h
  have h2' : NameWith 63 (fun _ t => lo ≤ t) d' i n k :=
    mono (nameWith_alike hl hi (nameWith_mono (Nat.le_refl 63) (fun _ _ h => ⟨trivial, h⟩) h2))
  refine ⟨?_, h2'⟩
  clear h2' mono
  induction h1 with
  | root h => exact .root (by rw [← hl.2 _ hi]; exact h)
  | label a b c e _ ih =>
    refine .label a b c (hl.octets hi e) (ih (by omega) ?_)
    have hx := octets_cons_getElem? e
    cases h2 with
    | label a' b' c' e' f' =>
      exact f'
    | pointer a' b' =>
      have hx' := octets_cons_getElem? b'
      rw [hx] at hx'
      cases hx'
      omega
  | @pointer i k ls u v a b c f =>
    have hx := octets_cons_getElem? b
    refine .pointer (k := k) a (hl.octets hi b) c ?_
    generalize hy : _ + 2 = y at h2
    cases h2 with
    | root h => rw [h] at hx; cases hx; simp at a
    | label a' b' c' e' f' =>
      have hx' := octets_cons_getElem? e'
      rw [hx] at hx'
      cases hx'
      omega
    | pointer a' b' c' f' =>
      have h5 := b.inj b' rfl
      cases h5
      exact nameWith_mono (Nat.le_refl 63) (fun _ _ h => h.1)
        (nameWith_alike hl c' (nameWith_and (by omega) (by omega) f f'))

/-- Names read in the same way whatever stands before `lo` have no pointer to a place before `lo`. -/
theorem nameWith_from {lo : Nat} {a : Nat → Nat → Prop} {d : Bytes} {i k : Nat} {n : Fqdn} (hi : lo ≤ i)
    (h : NameWith 63 a d i n k) (hp : ∀ d', Alike lo d d' → ∃ a' k', NameWith 191 a' d' i n k') :
    NameWith 63 (fun _ t => lo ≤ t) d i n k := by
  induction h with
  | root h => exact .root h
  | @label i j ls len l h1 h2 h3 h4 _ ih =>
    refine .label h1 h2 h3 h4 (ih (by omega) fun d' hl => ?_)
    obtain ⟨a', k', hd⟩ := hp d' hl
    have h5 := octets_cons_getElem? (hl.octets hi h4)
    cases hd with
    | label _ _ _ _ f => exact ⟨_, _, f⟩
    | pointer g1 g2 =>
      rw [octets_cons_getElem? g2] at h5
      cases h5
      omega
  | @pointer i k ls u v h1 h2 h3 h4 ih =>
    have step : ∀ d', Alike lo d d' → ∃ a' k', NameWith 191 a' d' ((u.toNat - 192) * 256 + v.toNat) ls k' := by
      intro d' hl
      obtain ⟨a', k', hd⟩ := hp d' hl
      have h5 := hl.octets hi h2
      have h6 := octets_cons_getElem? h5
      cases hd with
      | root g => rw [g] at h6; cases h6; simp at h1
      | label g1 g2 g3 g4 _ => rw [octets_cons_getElem? g4] at h6; cases h6; omega
      | pointer g1 g2 g3 g4 =>
        have e := h5.inj g2 rfl
        cases e
        exact ⟨_, _, g4⟩
    by_cases ht : lo ≤ (u.toNat - 192) * 256 + v.toNat
    · exact .pointer h1 h2 ht (ih ht step)
    · exfalso
      have hlen : lo ≤ d.length := by
        obtain ⟨x, y, rfl, rfl, -⟩ := h2
        simp
        omega
      have key : ∀ c : UInt8, Alike lo d (List.replicate lo c ++ d.drop lo) := by
        intro c
        refine ⟨by simp; omega, fun k hk => ?_⟩
        rw [List.getElem?_append_right (by simpa using hk), List.getElem?_drop]
        congr 1
        simp
        omega
      have at' : ∀ c : UInt8, (List.replicate lo c ++ d.drop lo)[(u.toNat - 192) * 256 + v.toNat]? = some c := by
        intro c
        rw [List.getElem?_append_left (by simp; omega), List.getElem?_replicate, if_pos (by omega)]
      obtain ⟨a0, k0, g0⟩ := step _ (key 0)
      obtain ⟨a1, k1, g1⟩ := step _ (key 1)
      exact (nameWith_first g1).2 (at' 1) ((nameWith_first g0).1 (at' 0))

theorem legal_nameAt {d : Bytes} {i j : Nat} {n : Fqdn} (h : LegalName d i n j) :
    NameWith 63 (fun _ _ => True) d i n j := by
  induction h with
  | root h => exact .root h
  | label a b c e _ ih => exact .label a b c e ih
  | pointer a b _ h => exact .pointer a b trivial (nameWith_mono (Nat.le_refl 63) (fun _ _ _ => trivial) h)

theorem name_end_alike {lo : Nat} {d d' : Bytes} (hl : Alike lo d d') {i j : Nat} {n : Fqdn} (h : LegalName d i n j)
    (hi : lo ≤ i) : ∀ {m : Fqdn} {k : Nat}, Decodes d' i m k → k = j := by
  intro m k hd
  replace hd := extractFqdn_ok.mp hd
  induction h generalizing m k with
  | @root i h =>
    have h1 : d'[i]? = some 0 := by rw [← hl.2 _ hi]; exact h
    cases hd with
    | root g => rfl
    | label g1 g2 g3 g4 _ => rw [octets_cons_getElem? g4] at h1; cases h1; simp at g1
    | pointer g1 g2 => rw [octets_cons_getElem? g2] at h1; cases h1; simp at g1
  | @label i j ls len l h1 h2 h3 h4 _ ih =>
    have a3 := octets_cons_getElem? (hl.octets hi h4)
    cases hd with
    | root g => rw [g] at a3; cases a3; simp at h1
    | @label _ _ _ len' l' g1 g2 g3 g4 g5 =>
      have h6 := octets_cons_getElem? g4
      rw [a3] at h6
      cases h6
      have e2 : l.length = l'.length := by omega
      rw [← e2] at g5
      exact ih (by omega) g5
    | pointer g1 g2 =>
      rw [octets_cons_getElem? g2] at a3
      cases a3
      omega
  | @pointer i k' ls hi lo h1 h2 h3 h4 =>
    have a3 := octets_cons_getElem? (hl.octets ‹_› h2)
    cases hd with
    | root g => rw [g] at a3; cases a3; simp at h1
    | label g1 g2 g3 g4 _ => rw [octets_cons_getElem? g4] at a3; cases a3; omega
    | pointer g1 g2 g3 g4 => rfl

/-- C112 for names, exactly: a name of RFC 1035 that starts at `lo` or behind is read as the same name whatever the octets
before `lo` are if and only if none of its pointers leads to them. -/
theorem C112_name_exact (lo : Nat) (d : Bytes) (i j : Nat) (n : Fqdn) (hi : lo ≤ i) (h : LegalName d i n j) :
    (∀ x : Bytes, x.length = lo → extractFqdn (x ++ d.drop lo) i = (.ok n, j)) ↔
      NameWith 63 (fun _ t => lo ≤ t) d i n j := by
  have hlen : lo ≤ d.length := by
    cases h with
    | root h => have := getElem?_lt h; omega
    | label _ _ _ h _ => obtain ⟨x, y, rfl, rfl, -⟩ := h; simp; omega
    | pointer _ h _ _ => obtain ⟨x, y, rfl, rfl, -⟩ := h; simp; omega
  have key : ∀ x : Bytes, x.length = lo → Alike lo d (x ++ d.drop lo) := by
    intro x hx
    refine ⟨by simp [hx]; omega, fun k hk => ?_⟩
    rw [List.getElem?_append_right (by omega), List.getElem?_drop]
    congr 1
    omega
  constructor
  · intro hp
    refine nameWith_from hi (legal_nameAt h) fun d' hl => ?_
    have := hp (d'.take lo) (by have := hl.1; simp; omega)
    rw [hl.drop (Nat.le_refl lo), List.take_append_drop] at this
    exact ⟨_, _, codeName_nameWith (extractFqdn_ok.mp this)⟩
  · intro hw x hx
    exact C08_legal_name_decoded _ _ _ _ (nameFrom_alike (key x hx) hi ⟨h, hw⟩).1


theorem legal_lt {d : Bytes} {i j : Nat} {n : Fqdn} (h : LegalName d i n j) : i < j := by
  induction h <;> omega

theorem item_end_alike {lo : Nat} {d d' : Bytes} (hl : Alike lo d d') {it : Item} {i j : Nat} (h : it.At LegalName d i j)
    (hi : lo ≤ i) {k : Nat} (hd : it.At Decodes d' i k) : k = j := by
  cases it with
  | u8 v => have := h.end_eq; have := hd.end_eq; omega
  | u16 v => have := h.end_eq; have := hd.end_eq; omega
  | u32 v => have := h.end_eq; have := hd.end_eq; omega
  | num n v =>
    obtain ⟨x, h1, h2, -⟩ := h
    obtain ⟨y, h3, h4, -⟩ := hd
    have := h1.end_eq; have := h3.end_eq; omega
  | name n => exact name_end_alike hl h hi hd
  | raw x => have := h.end_eq; have := hd.end_eq; omega
  | str x => have := h.2.end_eq; have := hd.2.end_eq; omega
  | str16 x => have := h.2.end_eq; have := hd.2.end_eq; omega
  | rest x => have := h.1.end_eq; have := hd.1.end_eq; omega
  | eof => have := h.2; have := hd.2; omega

theorem item_forth {N : NameRel} (hN : ∀ {d i n j}, N d i n j → i ≤ j) {d : Bytes} {it : Item} {i j : Nat}
    (h : it.At N d i j) : i ≤ j := by
  cases it with
  | u8 v => have := h.end_eq; omega
  | u16 v => have := h.end_eq; omega
  | u32 v => have := h.end_eq; omega
  | num n v => obtain ⟨x, h1, -⟩ := h; have := h1.end_eq; omega
  | name n => exact hN h
  | raw x => have := h.end_eq; omega
  | str x => have := h.2.end_eq; omega
  | str16 x => have := h.2.end_eq; omega
  | rest x => have := h.1.end_eq; omega
  | eof => have := h.2; omega

theorem items_forth {N : NameRel} (hN : ∀ {d i n j}, N d i n j → i ≤ j) {d : Bytes} : ∀ {its : List Item} {i j : Nat},
    Items.At N d i its j → i ≤ j := by
  intro its
  induction its with
  | nil => intro i j h; exact Nat.le_of_eq h
  | cons it its ih => rintro i j ⟨m, h1, h2⟩; exact Nat.le_trans (item_forth hN h1) (ih h2)

theorem nameFrom_forth {lo : Nat} {d : Bytes} {i j : Nat} {n : Fqdn} (h : NameFrom lo d i n j) : i ≤ j :=
  Nat.le_of_lt (legal_lt h.1)

theorem item_alike {lo : Nat} {d d' : Bytes} (hl : Alike lo d d') {it : Item} {i j : Nat} (hi : lo ≤ i)
    (h : it.At (NameFrom lo) d i j) : it.At (NameFrom lo) d' i j := by
  cases it with
  | u8 v => exact hl.octets hi h
  | u16 v => exact hl.octets hi h
  | u32 v => exact hl.octets hi h
  | num k v => obtain ⟨x, h1, h2⟩ := h; exact ⟨x, hl.octets hi h1, h2⟩
  | name n => exact nameFrom_alike hl hi h
  | raw x => exact hl.octets hi h
  | str x => exact ⟨h.1, hl.octets hi h.2⟩
  | str16 x => exact ⟨h.1, hl.octets hi h.2⟩
  | rest x => exact ⟨hl.octets hi h.1, by rw [h.2, hl.1]⟩
  | eof => exact ⟨by rw [h.1, hl.1], h.2⟩

theorem items_alike {lo : Nat} {d d' : Bytes} (hl : Alike lo d d') : ∀ {its : List Item} {i j : Nat}, lo ≤ i →
    Items.At (NameFrom lo) d i its j → Items.At (NameFrom lo) d' i its j := by
  intro its
  induction its with
  | nil => intro i j _ h; exact h
  | cons it its ih =>
    rintro i j hi ⟨m, h1, h2⟩
    exact ⟨m, item_alike hl hi h1, ih (Nat.le_trans hi (item_forth nameFrom_forth h1)) h2⟩

/-- Items that are read whatever stands before `lo`. -/
theorem items_from {lo : Nat} {d : Bytes} : ∀ {its : List Item} {i j : Nat}, lo ≤ i → Items.At LegalName d i its j →
    (∀ d', Alike lo d d' → ∃ k, Items.At Decodes d' i its k) → Items.At (NameFrom lo) d i its j := by
  intro its
  induction its with
  | nil => intro i j _ h _; exact h
  | cons it its ih =>
    rintro i j hi ⟨m, h1, h2⟩ hp
    have hm := Nat.le_trans hi (item_forth (fun h => Nat.le_of_lt (legal_lt h)) h1)
    refine ⟨m, ?_, ih hm h2 fun d' hl => ?_⟩
    · cases it with
      | name n =>
        refine ⟨h1, nameWith_from hi (legal_nameAt h1) fun d' hl => ?_⟩
        obtain ⟨k, m', g1, g2⟩ := hp d' hl
        exact ⟨_, _, codeName_nameWith (extractFqdn_ok.mp g1)⟩
      | _ => exact h1
    · obtain ⟨k, m', g1, g2⟩ := hp d' hl
      rw [item_end_alike hl h1 hi g1] at g2
      exact ⟨k, g2⟩

theorem items_from_front {lo : Nat} {d : Bytes} {front tail : List Item} {i j : Nat} (hi : lo ≤ i)
    (h : Items.At LegalName d i (front ++ tail) j) (ht : ∀ n, Item.name n ∉ tail)
    (hp : ∀ d', Alike lo d d' → ∃ k, Items.At Decodes d' i front k) :
    Items.At (NameFrom lo) d i (front ++ tail) j := by
  obtain ⟨k, h1, h2⟩ := itemsAt_append.mp h
  exact itemsAt_append.mpr ⟨k, items_from hi h1 hp, items_nameless ht h2⟩

theorem rdata_from {lo : Nat} {cfg : Cfg} {t : RecordType} {d : Bytes} {k : Nat} {r : RecordData} (hk : lo ≤ k)
    (h : RDataWritten LegalName cfg t d k r) (hp : ∀ d', Alike lo d d' → ParsedData cfg t d' k r) :
    RDataWritten (NameFrom lo) cfg t d k r := by
  have hrw : ReadWell r := parsed_readWell h (hp d ⟨rfl, fun _ _ => rfl⟩)
  obtain ⟨rfl, its, hs, hi⟩ := h
  refine ⟨rfl, its, hs, ?_⟩
  have nl : (∀ n, Item.name n ∉ its) → Items.At (NameFrom lo) d k its d.length := fun hn => items_nameless hn hi
  have ex : Exact r → ∀ d', Alike lo d d' → ∃ its' e, RData cfg r its' ∧
      Items.At Decodes d' k its' e := fun hx d' hl => by
    obtain ⟨e, he⟩ := hp d' hl
    obtain ⟨-, its', h1, h2⟩ := (RecordData.parse_ok hx).mp he
    exact ⟨its', e, h1, h2⟩
  have def' : Exact r → (∀ its', RData cfg r its' → its' = its) → Items.At (NameFrom lo) d k its d.length := by
    intro hx hu
    refine items_from hk hi fun d' hl => ?_
    obtain ⟨its', e, h1, h2⟩ := ex hx d' hl
    rw [hu _ h1] at h2
    exact ⟨e, h2⟩
  cases r with
  | NS r => exact def' trivial fun _ h => h.trans (Eq.symm hs)
  | CNAME r => exact def' trivial fun _ h => h.trans (Eq.symm hs)
  | SOA r => exact def' trivial fun _ h => h.trans (Eq.symm hs)
  | PTR r => exact def' trivial fun _ h => h.trans (Eq.symm hs)
  | MINFO r => exact def' trivial fun _ h => h.trans (Eq.symm hs)
  | MX r => exact def' trivial fun _ h => h.trans (Eq.symm hs)
  | SRV r => exact def' trivial fun _ h => h.trans (Eq.symm hs)
  | TSIG r => exact def' trivial fun _ h => h.trans (Eq.symm hs)
  | RRSIG r => exact def' trivial fun _ h => h.2.trans (Eq.symm hs.2)
  | TKEY r => exact def' trivial fun _ h => h.2.2.trans (Eq.symm hs.2.2)
  | HIP r => exact def' trivial fun _ h => h.2.2.2.trans (Eq.symm hs.2.2.2)
  | IPSECKEY r => exact def' hrw fun _ h => h.trans (Eq.symm hs)
  | NAPTR r =>
    cases hs
    refine items_from hk hi fun d' hl => ?_
    obtain ⟨_, e, ⟨fl, rfl, -, -⟩, h2⟩ := ex trivial d' hl
    obtain ⟨k1, a1, k2, a2, k3, a3, a4⟩ := hi
    obtain ⟨m1, b1, m2, b2, m3, b3, b4⟩ := h2
    have l1 : lo ≤ k1 := Nat.le_trans hk (item_forth (fun h => Nat.le_of_lt (legal_lt h)) a1)
    have l2 : lo ≤ k2 := Nat.le_trans l1 (item_forth (fun h => Nat.le_of_lt (legal_lt h)) a2)
    have e1 := item_end_alike hl a1 hk b1
    rw [e1] at b2
    have e2 := item_end_alike hl a2 l1 b2
    rw [e2] at b3
    have := str_unique (N := Decodes) ⟨a3.1, hl.octets l2 a3.2⟩ b3
    subst this
    exact ⟨e, _, b1, _, e1 ▸ b2, _, e2 ▸ b3, b4⟩
  | NSEC r =>
    obtain ⟨ws, rfl, -⟩ := hs
    refine items_from_front (front := [.name _]) hk hi (by simp [windowItems]) fun d' hl => ?_
    obtain ⟨_, e, ⟨ws', rfl, -⟩, m, h2, -⟩ := ex trivial d' hl
    exact ⟨m, m, h2, rfl⟩
  | SVCB r =>
    obtain ⟨rfl, -⟩ := hs
    rw [List.append_assoc] at hi ⊢
    refine items_from_front hk hi (by simp [paramItems, o16]) fun d' hl => ?_
    obtain ⟨e, he⟩ := hp d' hl
    simp only [RecordData.parse, RecordData.type, Parser.bind_ok, Parser.pure_ok] at he
    obtain ⟨_, _, h1, h2, -⟩ := he
    cases h2
    unfold Svcb.parse at h1
    simp only [Parser.bind_ok, Parser.pure_ok] at h1
    obtain ⟨_, k1, h3, _, k2, h4, _, _, -, rfl, -⟩ := h1
    exact ⟨k2, k1, extractU16_ok.mp h3, k2, h4, rfl⟩
  | TXT r => cases hs; exact nl (by simp)
  | OPT r => cases hs; exact nl (by simp [optionItems])
  | APL r => obtain ⟨part, rfl, -⟩ := hs; exact nl (by simp [o16, o8])
  | CSYNC r => obtain ⟨ws, rfl, -⟩ := hs; exact nl (by simp [windowItems])
  | DNSKEY r => cases hs; exact nl (by simp [o16, o8])
  | CDNSKEY r => cases hs; exact nl (by simp [o16, o8])
  | CAA r => cases hs; exact nl (by simp [o8])
  | _ => cases hs; exact nl (by simp [o16, o8, dsItems])

theorem question_from {lo : Nat} {cfg : Cfg} {d : Bytes} {i j : Nat} {q : Question} (hi : lo ≤ i)
    (h : QuestionAt LegalName cfg d i q j) :
    lo ≤ j ∧ (∀ (d' : Bytes) (k : Nat), Alike lo d d' → QuestionAt Decodes cfg d' i q k → k = j) ∧
    ((∀ d', Alike lo d d' → ∃ k, QuestionAt Decodes cfg d' i q k) → QuestionAt (NameFrom lo) cfg d i q j) := by
  obtain ⟨h1, v, h2, h3⟩ := h
  refine ⟨Nat.le_trans hi (items_forth (fun h => Nat.le_of_lt (legal_lt h)) h3), ?_, fun hp =>
    ⟨h1, v, h2, items_from_front (front := [.name q.qName]) hi h3 (by simp [o16]) fun d' hl => ?_⟩⟩
  · rintro d' k hl ⟨-, v', -, m1, a1, m2, a2, m3, a3, a4⟩
    obtain ⟨n1, c1, n2, c2, n3, c3, c4⟩ := h3
    have e1 := item_end_alike hl c1 hi a1
    have := a2.end_eq; have := a3.end_eq; have := c2.end_eq; have := c3.end_eq
    have : m3 = k := a4
    have : n3 = j := c4
    simp [octets16] at *
    omega
  · obtain ⟨k, -, v', -, m, a1, -⟩ := hp d' hl
    exact ⟨m, m, a1, rfl⟩

theorem question_alike {lo : Nat} {cfg : Cfg} {d d' : Bytes} (hl : Alike lo d d') {i j : Nat} {q : Question} (hi : lo ≤ i)
    (h : QuestionAt (NameFrom lo) cfg d i q j) : QuestionAt (NameFrom lo) cfg d' i q j := by
  obtain ⟨h1, v, h2, h3⟩ := h
  exact ⟨h1, v, h2, items_alike hl hi h3⟩

theorem Alike.of_take {lo j : Nat} {d d' : Bytes} (h : Alike lo (d.take j) d') (hj : j ≤ d.length) :
    Alike lo d (d' ++ d.drop j) ∧ (d' ++ d.drop j).take j = d' := by
  have hn : d'.length = j := by have := h.1; simp at this; omega
  refine ⟨⟨by simp [hn]; omega, fun k hk => ?_⟩, by rw [List.take_left' hn]⟩
  have := h.2 k hk
  rw [List.getElem?_take] at this
  by_cases hc : k < j
  · rw [if_pos hc] at this
    rw [List.getElem?_append_left (by omega), this]
  · rw [List.getElem?_append_right (by omega), List.getElem?_drop]
    congr 1
    omega

theorem record_from {lo : Nat} {cfg : Cfg} {d : Bytes} {i j : Nat} {r : ResourceRecord} (hi : lo ≤ i)
    (h : RecordAtWith (RDataWritten LegalName cfg) LegalName cfg d i r j) :
    lo ≤ j ∧ (∀ (d' : Bytes) (k : Nat), Alike lo d d' → RecordAtWith (ParsedData cfg) Decodes cfg d' i r k → k = j) ∧
    ((∀ d', Alike lo d d' → ∃ k, RecordAtWith (ParsedData cfg) Decodes cfg d' i r k) →
      RecordAtWith (RDataWritten (NameFrom lo) cfg) (NameFrom lo) cfg d i r j) := by
  obtain ⟨h1, h2, v, len, m, h3, h4, h5, h6, h7⟩ := h
  have hm : lo ≤ m := Nat.le_trans hi (items_forth (fun h => Nat.le_of_lt (legal_lt h)) h4)
  have key : ∀ (d' : Bytes) (k : Nat), Alike lo d d' → RecordAtWith (ParsedData cfg) Decodes cfg d' i r k →
      k = j ∧ ParsedData cfg r.type (d'.take j) m r.rdata := by
    rintro d' k hl ⟨-, -, v', len', m', -, ⟨a, a1, a', a2, a'', a3, a3_, a4, a4_, a5, a6⟩, g5, -, g7⟩
    obtain ⟨c, c1, c', c2, c'', c3, c3_, c4, c4_, c5, c6⟩ := h4
    have e1 := item_end_alike hl c1 hi a1
    have l1 : lo ≤ c := Nat.le_trans hi (item_forth (fun h => Nat.le_of_lt (legal_lt h)) c1)
    have x2 := a2.end_eq; have x3 := a3.end_eq; have x4 := a4.end_eq; have x5 := a5.end_eq
    have y2 := c2.end_eq; have y3 := c3.end_eq; have y4 := c4.end_eq; have y5 := c5.end_eq
    have z1 : a4_ = m' := a6
    have z2 : c4_ = m := c6
    simp only [octets16, octets32, List.length_cons, List.length_nil] at x2 x3 x4 x5 y2 y3 y4 y5
    have p5 : a3_ = c3_ := by omega
    have hlen : len' = len := by
      have q := hl.octets (by omega) c5
      rw [← p5] at q
      exact octets_at_unique a5 q
    subst hlen
    have hk : k = j := by omega
    refine ⟨hk, ?_⟩
    rw [hk] at g7
    rw [show m = m' by omega]
    exact g7
  refine ⟨by omega, fun d' k hl hk => (key d' k hl hk).1, fun hp => ⟨h1, h2, v, len, m, h3, ?_, h5, h6, ?_⟩⟩
  · refine items_from_front (front := [.name r.name]) hi h4 (by simp [o16]) fun d' hl => ?_
    obtain ⟨k, -, -, v', len', m', -, ⟨a, a1, -⟩, -⟩ := hp d' hl
    exact ⟨a, a, a1, rfl⟩
  · refine rdata_from hm h7 fun d' hl => ?_
    obtain ⟨b1, b2⟩ := hl.of_take h6
    obtain ⟨k, hk⟩ := hp _ b1
    have := (key _ k b1 hk).2
    rwa [b2] at this

theorem record_alike {lo : Nat} {cfg : Cfg} {d d' : Bytes} (hl : Alike lo d d') {i j : Nat} {r : ResourceRecord} (hi : lo ≤ i)
    (h : RecordAtWith (RDataWritten (NameFrom lo) cfg) (NameFrom lo) cfg d i r j) :
    lo ≤ j ∧ RecordAtWith (RDataWritten (NameFrom lo) cfg) (NameFrom lo) cfg d' i r j := by
  obtain ⟨h1, h2, v, len, k, h3, h4, h5, h6, h7, its, h8, h9⟩ := h
  have hk := Nat.le_trans hi (items_forth nameFrom_forth h4)
  refine ⟨by omega, h1, h2, v, len, k, h3, items_alike hl hi h4, h5, by rw [← hl.1]; exact h6, h7, its, h8, ?_⟩
  have := items_alike (hl.take j) hk h9
  rwa [show (d.take j).length = (d'.take j).length by simp [hl.1]] at this

theorem listAt_alike {α : Type} {R S : Nat → α → Nat → Prop} {lo : Nat} (h : ∀ i x j, lo ≤ i → R i x j → lo ≤ j ∧ S i x j) :
    ∀ {xs : List α} {i j : Nat}, lo ≤ i → ListAt R i xs j → lo ≤ j ∧ ListAt S i xs j := by
  intro xs
  induction xs with
  | nil => intro i j hi h; have e : i = j := h; exact ⟨e ▸ hi, h⟩
  | cons x xs ih =>
    rintro i j hi ⟨k, h1, h2⟩
    obtain ⟨a1, a2⟩ := h _ _ _ hi h1
    obtain ⟨b1, b2⟩ := ih a1 h2
    exact ⟨b1, _, a2, b2⟩

theorem listAt_from {α ι : Type} {lo : Nat} {P : ι → Prop} {R S : Nat → α → Nat → Prop} {T : ι → Nat → α → Nat → Prop}
    (hR : ∀ i x j, lo ≤ i → R i x j → lo ≤ j ∧ (∀ (d : ι) (k : Nat), P d → T d i x k → k = j) ∧
      ((∀ d, P d → ∃ k, T d i x k) → S i x j)) :
    ∀ {xs : List α} {i j : Nat}, lo ≤ i → ListAt R i xs j →
      lo ≤ j ∧ (∀ (d : ι) (k : Nat), P d → ListAt (T d) i xs k → k = j) ∧
      ((∀ d, P d → ∃ k, ListAt (T d) i xs k) → ListAt S i xs j) := by
  intro xs
  induction xs with
  | nil =>
    intro i j hi h
    have e : i = j := h
    exact ⟨e ▸ hi, fun _ k _ hk => by have h2 : i = k := hk; omega, fun _ => h⟩
  | cons x xs ih =>
    rintro i j hi ⟨m, h1, h2⟩
    obtain ⟨a1, a2, a3⟩ := hR _ _ _ hi h1
    obtain ⟨b1, b2, b3⟩ := ih a1 h2
    refine ⟨b1, ?_, fun hp => ⟨m, a3 ?_, b3 ?_⟩⟩
    · rintro d k hd ⟨m', g1, g2⟩
      rw [a2 d m' hd g1] at g2
      exact b2 d k hd g2
    · intro d hd
      obtain ⟨k, m', g1, g2⟩ := hp d hd
      exact ⟨m', g1⟩
    · intro d hd
      obtain ⟨k, m', g1, g2⟩ := hp d hd
      rw [a2 d m' hd g1] at g2
      exact ⟨k, g2⟩

/-! ## Messages -/

theorem header_repatch {N : NameRel} {id : UInt16} {fl : Flags} {d : Bytes} {h : Header} {j : Nat}
    (h0 : Items.At N d 0 (headerItems h) j) :
    j = 12 ∧ 12 ≤ d.length ∧ Items.At N (patch id fl d) 0 (headerItems { h with id := id, flags := fl }) j := by
  obtain ⟨k1, a1, k2, a2, k3, a3, k4, a4, k5, a5, k6, a6, k7, a7, a8⟩ := h0
  have b1 := a1.end_eq; have b2 := a2.end_eq; have b3 := a3.end_eq; have b4 := a4.end_eq
  have b5 := a5.end_eq; have b6 := a6.end_eq; have b7 := a7.end_eq
  have b8 : k7 = j := a8
  simp only [octets16, List.length_cons, List.length_nil] at b1 b2 b3 b4 b5 b6 b7
  have hlen : 12 ≤ d.length := by
    obtain ⟨x, y, rfl, rfl, -⟩ := a7
    simp [octets16]
    omega
  have hl : Alike 4 d (patch id fl d) := patch_alike (by omega)
  refine ⟨by omega, hlen, 2, ⟨[], [fl.hi, fl.lo] ++ d.drop 4, by simp [patch], rfl, rfl⟩,
    3, ⟨octets16 id, [fl.lo] ++ d.drop 4, by simp [patch], rfl, rfl⟩,
    4, ⟨octets16 id ++ [fl.hi], d.drop 4, by simp [patch], rfl, rfl⟩, k4, ?_, k5, ?_, k6, ?_, k7, ?_, b8⟩
  · rw [show 4 = k3 by omega]
    exact hl.octets (by omega) a4
  · exact hl.octets (by omega) a5
  · exact hl.octets (by omega) a6
  · exact hl.octets (by omega) a7

/-- A message of which no name has a pointer to the first four octets says the same with others. -/
theorem message_patch {cfg : Cfg} {d : Bytes} {p : Packet} {e : Nat} (id : UInt16) (fl : Flags)
    (h : MessageAtWith (RDataWritten (NameFrom 4) cfg) (NameFrom 4) cfg d p e) :
    MessageAtWith (RDataWritten (NameFrom 4) cfg) (NameFrom 4) cfg (patch id fl d) (repatch id fl p) e := by
  obtain ⟨c1, c2, c3, c4, i1, i2, i3, i4, h0, h1, h2, h3, h4⟩ := h
  obtain ⟨rfl, hlen, h0'⟩ := header_repatch (id := id) (fl := fl) h0
  have hl : Alike 4 d (patch id fl d) := patch_alike (by omega)
  obtain ⟨b1, a1⟩ := listAt_alike (S := QuestionAt (NameFrom 4) cfg (patch id fl d)) (lo := 4)
    (fun i x j hi h => ⟨Nat.le_trans hi (by obtain ⟨-, v, -, h⟩ := h; exact items_forth nameFrom_forth h),
      question_alike hl hi h⟩) (by omega) h1
  obtain ⟨b2, a2⟩ := listAt_alike (fun i x j hi h => record_alike hl hi h) b1 h2
  obtain ⟨b3, a3⟩ := listAt_alike (fun i x j hi h => record_alike hl hi h) b2 h3
  obtain ⟨b4, a4⟩ := listAt_alike (fun i x j hi h => record_alike hl hi h) b3 h4
  exact ⟨c1, c2, c3, c4, 12, i2, i3, i4, h0', a1, a2, a3, a4⟩

theorem messageFrom_received {lo : Nat} {cfg : Cfg} {d : Bytes} {p : Packet} {e : Nat}
    (h : MessageAtWith (RDataWritten (NameFrom lo) cfg) (NameFrom lo) cfg d p e) : ReceivedMessage cfg d p e := by
  have hm : ∀ {d its i j}, Items.At (NameFrom lo) d i its j → Items.At LegalName d i its j :=
    fun h => items_mono (fun _ _ _ _ h => h.1) h
  obtain ⟨c1, c2, c3, c4, i1, i2, i3, i4, h0, h1, h2, h3, h4⟩ := h
  have key : ∀ i x j, RecordAtWith (RDataWritten (NameFrom lo) cfg) (NameFrom lo) cfg d i x j →
      RecordAtWith (RDataWritten LegalName cfg) LegalName cfg d i x j := by
    rintro i x j ⟨a1, a2, v, len, k, a3, a4, a5, a6, a7, its, a8, a9⟩
    exact ⟨a1, a2, v, len, k, a3, hm a4, a5, a6, a7, its, a8, hm a9⟩
  refine ⟨c1, c2, c3, c4, i1, i2, i3, i4, hm h0,
    listAt_mono ?_ _ _ _ h1, listAt_mono key _ _ _ h2, listAt_mono key _ _ _ h3, listAt_mono key _ _ _ h4⟩
  rintro i q j ⟨a1, v, a2, a3⟩
  exact ⟨a1, v, a2, hm a3⟩

/-- C112 (partial): a message of RFC 1035, of which no name has a pointer to the identification or the flags, is read with
any identification and flags written over the ones it has, and what is read differs in nothing else.  What is missing:
names with such pointers (false, see `C112_counterexample`; exactly those, see `C112_exact`), and data that are not
`ReadWell` (C99). -/
theorem C112_message_partial (cfg : Cfg) (d : Bytes) (p : Packet) (e : Nat) (id : UInt16) (fl : Flags)
    (h : MessageAtWith (RDataWritten (NameFrom 4) cfg) (NameFrom 4) cfg d p e)
    (hv : ∀ r ∈ records p, Writable cfg 63 r.rdata ∧ ReadWell r.rdata) :
    Packet.parse cfg d = .ok p ∧ Packet.parse cfg (patch id fl d) = .ok (repatch id fl p) ∧
      (Packet.parseBuf cfg (patch id fl d) 0).2 = e := by
  have h1 := C99_received_partial cfg d p e (messageFrom_received h) (fun r hr => (hv r hr).1) (fun r hr => (hv r hr).2)
  have h2 := C99_received_partial cfg _ _ e (messageFrom_received (message_patch id fl h)) (fun r hr => (hv r hr).1)
    (fun r hr => (hv r hr).2)
  exact ⟨h1.1, h2⟩

/-- C112, exactly: of the messages of RFC 1035 that the crate reads, those in which no name has a pointer to the
identification or the flags can be given any others in place, and no others. -/
theorem C112_exact (cfg : Cfg) (d : Bytes) (p : Packet) (e : Nat) (h : ReceivedMessage cfg d p e)
    (hv : ∀ r ∈ records p, Writable cfg 63 r.rdata) (hr : Packet.parse cfg d = .ok p) :
    (∀ id fl, Packet.parse cfg (patch id fl d) = .ok (repatch id fl p)) ↔
      MessageAtWith (RDataWritten (NameFrom 4) cfg) (NameFrom 4) cfg d p e := by
  constructor
  · intro hp
    obtain ⟨c1, c2, c3, c4, i1, i2, i3, i4, h0, h1, h2, h3, h4⟩ := h
    obtain ⟨rfl, hlen, -⟩ := header_repatch (id := 0) (fl := ⟨0, 0⟩) h0
    have hq : ∀ d', Alike 4 d d' → ∃ e j2 j3 j4, ListAt (QuestionAt Decodes cfg d') 12 p.questions j2 ∧
        ListAt (RecordAtWith (ParsedData cfg) Decodes cfg d') j2 p.answers j3 ∧
        ListAt (RecordAtWith (ParsedData cfg) Decodes cfg d') j3 p.authorities j4 ∧
        ListAt (RecordAtWith (ParsedData cfg) Decodes cfg d') j4 p.additional e := by
      intro d' hl
      have hl' := hl.1
      obtain ⟨id, fl, hd⟩ := patch_self (d := d') (by omega)
      have hd' : d' = patch id fl d := by
        rw [hd]
        unfold patch
        rw [hl.drop (Nat.le_refl 4)]
      have hx := hp id fl
      rw [← hd'] at hx
      obtain ⟨hd, q, an, au, ad⟩ := p
      obtain ⟨e, he⟩ : ∃ e, Packet.parseBuf cfg d' 0 = (.ok (repatch id fl ⟨hd, q, an, au, ad⟩), e) :=
        ⟨_, Prod.ext hx rfl⟩
      simp only [Packet.parseBuf, Parser.bind_ok, Parser.pure_ok, Header.parse_ok (N := Decodes), seq_times,
        seq_listAt (fun i x j => Question.parse_ok), seq_listAt (fun i x j => ResourceRecord.parse_ok)] at he
      obtain ⟨hd', j1, k0, q', j2, ⟨-, k1⟩, an', j3, ⟨-, k2⟩, au', j4, ⟨-, k3⟩, ad', j5, ⟨-, k4⟩, hx, hy⟩ := he
      cases hx
      obtain ⟨e1, -, -⟩ := header_repatch (id := 0) (fl := ⟨0, 0⟩) k0
      rw [e1] at k1
      exact ⟨_, _, _, _, k1, k2, k3, k4⟩
    obtain ⟨l1, b1, a1⟩ := listAt_from (lo := 4) (P := Alike 4 d) (S := QuestionAt (NameFrom 4) cfg d)
      (T := fun d' => QuestionAt Decodes cfg d') (fun i x j hi h => question_from hi h) (by omega) h1
    obtain ⟨l2, b2, a2⟩ := listAt_from (lo := 4) (P := Alike 4 d)
      (T := fun d' => RecordAtWith (ParsedData cfg) Decodes cfg d') (fun i x j hi h => record_from hi h) l1 h2
    obtain ⟨l3, b3, a3⟩ := listAt_from (lo := 4) (P := Alike 4 d)
      (T := fun d' => RecordAtWith (ParsedData cfg) Decodes cfg d') (fun i x j hi h => record_from hi h) l2 h3
    obtain ⟨l4, b4, a4⟩ := listAt_from (lo := 4) (P := Alike 4 d)
      (T := fun d' => RecordAtWith (ParsedData cfg) Decodes cfg d') (fun i x j hi h => record_from hi h) l3 h4
    refine ⟨c1, c2, c3, c4, 12, i2, i3, i4, items_nameless (by simp [headerItems]) h0, a1 fun d' hl => ?_,
      a2 fun d' hl => ?_, a3 fun d' hl => ?_, a4 fun d' hl => ?_⟩
    all_goals
      obtain ⟨e, j2, j3, j4, k1, k2, k3, k4⟩ := hq d' hl
    · exact ⟨_, k1⟩
    · rw [b1 _ _ hl k1] at k2
      exact ⟨_, k2⟩
    · rw [b1 _ _ hl k1] at k2
      rw [b2 _ _ hl k2] at k3
      exact ⟨_, k3⟩
    · rw [b1 _ _ hl k1] at k2
      rw [b2 _ _ hl k2] at k3
      rw [b3 _ _ hl k3] at k4
      exact ⟨_, k4⟩
  · intro hp id fl
    have hw : ∀ r ∈ records p, ReadWell r.rdata := (C99_exact cfg d p _ h hv).mp hr
    exact (C112_message_partial cfg d p e id fl hp fun r hr => ⟨hv r hr, hw r hr⟩).2.1

/-- C112 for messages the crate has written (partial, in the cases of C27 and C28 in which they are read back): with
another identification and other flags written over them they are read as the packet with these. -/
theorem C112_own_partial (cfg : Cfg) (h : Hash) (p : Packet) (id : UInt16) (fl : Flags) (hp : PacketOk cfg 191 p)
    (hc : CountsOk p) (hs : ∀ r ∈ records p, r.rdata.type ≠ .SSHFP) :
    ((∀ r ∈ records p, sizeError r.rdata = 0) →
      ∃ b, p.toBytes cfg = .ok b ∧ Packet.parse cfg (patch id fl b) = .ok (repatch id fl p)) ∧
    (NoCollision h (packetNames p) → ∃ b, p.toBytesCompressed cfg h = .ok b ∧
      (b.length ≤ 16384 → Packet.parse cfg (patch id fl b) = .ok (repatch id fl p))) := by
  have hp' : PacketOk cfg 191 (repatch id fl p) := hp
  have hc' : CountsOk (repatch id fl p) := hc
  obtain ⟨w1, w2⟩ := C112_written cfg h p id fl
  constructor
  · intro hz
    obtain ⟨b, b1, b2⟩ := C27_packet_round_trip_partial cfg p hp (fun r hr => ⟨hs r hr, hz r hr⟩)
    obtain ⟨c, c1, c2⟩ := C27_packet_round_trip_partial cfg _ hp' (fun r hr => ⟨hs r hr, hz r hr⟩)
    refine ⟨b, b1, ?_⟩
    rw [b1] at w1
    have e : c = patch id fl b := Res.ok.inj (c1.symm.trans w1)
    have := (c2 []).1
    rwa [List.append_nil, e, C27_counts _ hc'] at this
  · intro hh
    obtain ⟨b, b1, b2⟩ := C28_compressed_round_trip_partial cfg h p hp hc hs hh
    obtain ⟨c, c1, c2⟩ := C28_compressed_round_trip_partial cfg h _ hp' hc' hs hh
    refine ⟨b, b1, fun hl => ?_⟩
    rw [b1] at w2
    have e : c = patch id fl b := Res.ok.inj (c1.symm.trans w2)
    have hlen : 4 ≤ b.length := by
      rw [toBytesCompressed_parts] at b1
      rcases hx : partsCompressed cfg h (parts p) Names.empty 12 with x | x | x <;> rw [hx] at b1 <;> try cases b1
      simp [Header.toBytes, u16be_eq, octets16]
    have := (c2 (by rw [e, patch_length hlen]; exact hl) []).1
    rwa [List.append_nil, e] at this

/-- C112 is false of messages in which a name has a pointer to the identification: the question of this message of
RFC 1035 is for `a.`; with the identification 354 for 353 it is for `b.`. -/
theorem C112_counterexample (cfg : Cfg) : ∃ (d : Bytes) (p q : Packet), ReceivedMessage cfg d p d.length ∧
    Packet.parse cfg d = .ok p ∧ Packet.parse cfg (patch 354 p.header.flags d) = .ok q ∧
    p.questions.map (·.qName) = [[[97]]] ∧ q.questions.map (·.qName) = [[[98]]] := by
  refine ⟨[1, 97, 0, 0, 0, 1, 0, 0, 0, 0, 0, 0, 0xC0, 0, 0, 1, 0, 1],
    ⟨⟨353, ⟨0, 0⟩, 1, 0, 0, 0⟩, [⟨[[97]], .rr .A, .IN, false⟩], [], [], []⟩,
    ⟨⟨354, ⟨0, 0⟩, 1, 0, 0, 0⟩, [⟨[[98]], .rr .A, .IN, false⟩], [], [], []⟩, ?_, ?_, ?_, rfl, rfl⟩
  · refine ⟨rfl, rfl, rfl, rfl, 12, 18, 18, 18, ?_, ⟨18, ⟨?_, 1, ?_, 14, ?_, 16, ?_, 18, ?_, rfl⟩, rfl⟩, rfl, rfl, rfl⟩
    · exact ⟨2, octets_iff.mpr (by decide), 3, octets_iff.mpr (by decide), 4, octets_iff.mpr (by decide),
        6, octets_iff.mpr (by decide), 8, octets_iff.mpr (by decide), 10, octets_iff.mpr (by decide),
        12, octets_iff.mpr (by decide), rfl⟩
    · simp [QReadable, Readable, dnssecTypes]
    · exact ⟨rfl, by simp⟩
    · exact .pointer (hi := 0xC0) (lo := 0) (by decide) (octets_iff.mpr (by decide)) (by decide)
        (.label (len := 1) (by decide) (by decide) rfl (octets_iff.mpr (by decide)) (.root rfl))
    · exact octets_iff.mpr (by decide)
    · exact octets_iff.mpr (by decide)
  all_goals
    obtain ⟨o, m, s⟩ := cfg
    cases o <;> cases m <;> cases s <;> decide +kernel

/-! ## Examples -/

/-- A message with a compressed name that meets the hypothesis of `C112_any`: `a.` twice. -/
example : 4 ≤ [0, 1, 0, 0, 0, 2, 0, 0, 0, 0, 0, 0, 1, 97, 0, 0, 1, 0, 1, 0xC0, 12, 0, 1, 0, 1].length ∧
    NoPointerBelow 4 [0, 1, 0, 0, 0, 2, 0, 0, 0, 0, 0, 0, 1, 97, 0, 0, 1, 0, 1, 0xC0, 12, 0, 1, 0, 1] ∧
    Packet.parse ⟨true, true, true⟩ (patch 513 ⟨0x81, 0x80⟩
      [0, 1, 0, 0, 0, 2, 0, 0, 0, 0, 0, 0, 1, 97, 0, 0, 1, 0, 1, 0xC0, 12, 0, 1, 0, 1]) =
      .ok ⟨⟨513, ⟨0x81, 0x80⟩, 2, 0, 0, 0⟩, [⟨[[97]], .rr .A, .IN, false⟩, ⟨[[97]], .rr .A, .IN, false⟩], [], [], []⟩ := by
  refine ⟨by decide, ?_, by decide +kernel⟩
  intro k hi l hk ho h1
  have h2 := (octets_iff.mp ho)
  have h3 : k < 24 := by
    obtain ⟨x, y, e, rfl, -⟩ := ho
    have := congrArg List.length e
    simp at this
    omega
  have h4 := octets_cons_getElem? ho
  have h5 : ∀ k < 24, 4 ≤ k → ∀ hi : UInt8,
      [0, 1, 0, 0, 0, 2, 0, 0, 0, 0, 0, 0, 1, 97, 0, 0, 1, 0, 1, 0xC0, 12, 0, 1, 0, 1][k]? = some hi → 192 ≤ hi.toNat →
        k = 19 := by
    intro k hk1 hk2 hi he hh
    interval_cases k <;> first | rfl | (simp at he; subst he; simp at hh)
  have := h5 k h3 hk hi h4 h1
  subst this
  obtain ⟨rfl, rfl⟩ : hi = 0xC0 ∧ l = 12 := by
    have := h2.2.2
    simp at this
    exact ⟨this.1.symm, this.2.symm⟩
  decide

theorem plain_from {lo : Nat} {d : Bytes} {i j : Nat} {n : Fqdn} (h : PlainName d i n j) : NameFrom lo d i n j :=
  ⟨plain_legal h, nameWith_mono (Nat.le_refl 63) (fun _ _ h => h.elim) h⟩

/-- What the crate itself sends without compression (C97) is a message as in `C112_message_partial`, and in `C112_exact`. -/
theorem C112_of_sent (cfg : Cfg) (d : Bytes) (p : Packet) (h : SentMessage PlainName cfg d p) :
    MessageAtWith (RDataWritten (NameFrom 4) cfg) (NameFrom 4) cfg d p d.length := by
  have hm : ∀ {d its i j}, Items.At PlainName d i its j → Items.At (NameFrom 4) d i its j :=
    fun h => items_mono (fun _ _ _ _ => plain_from) h
  obtain ⟨c1, c2, c3, c4, i1, i2, i3, i4, h0, h1, h2, h3, h4⟩ := h
  have key : ∀ i x j, RecordAtWith (RDataWritten PlainName cfg) PlainName cfg d i x j →
      RecordAtWith (RDataWritten (NameFrom 4) cfg) (NameFrom 4) cfg d i x j := by
    rintro i x j ⟨a1, a2, v, len, k, a3, a4, a5, a6, a7, its, a8, a9⟩
    exact ⟨a1, a2, v, len, k, a3, hm a4, a5, a6, a7, its, a8, hm a9⟩
  refine ⟨c1, c2, c3, c4, i1, i2, i3, i4, hm h0,
    listAt_mono ?_ _ _ _ h1, listAt_mono key _ _ _ h2, listAt_mono key _ _ _ h3, listAt_mono key _ _ _ h4⟩
  rintro i q j ⟨a1, v, a2, a3⟩
  exact ⟨a1, v, a2, hm a3⟩

/-- A message with records of several types meets the hypotheses of `C112_message_partial` and `C112_exact`. -/
example : ∃ d, MessageAtWith (RDataWritten (NameFrom 4) ⟨true, true, true⟩) (NameFrom 4) ⟨true, true, true⟩ d exPacket d.length ∧
    ReceivedMessage ⟨true, true, true⟩ d exPacket d.length ∧
    (∀ r ∈ records exPacket, Writable ⟨true, true, true⟩ 63 r.rdata ∧ ReadWell r.rdata) ∧
    Packet.parse ⟨true, true, true⟩ d = .ok exPacket := by
  obtain ⟨b, -, h⟩ := C97_plain_partial ⟨true, true, true⟩ exPacket exPacket_ok exPacket_well
  rw [C27_counts exPacket ⟨rfl, rfl, rfl, rfl⟩] at h
  have hw : ∀ r ∈ records exPacket, Writable ⟨true, true, true⟩ 63 r.rdata ∧ ReadWell r.rdata := fun r hr =>
    ⟨(exPacket_ok.2.1 r hr).2.2.2.2.2.2.1, written_read (exPacket_well r hr).1
      ((by decide : ∀ r ∈ records exPacket, r.rdata.type ≠ .SSHFP) r hr)⟩
  have hf := C112_of_sent _ _ _ h
  exact ⟨b, hf, messageFrom_received hf, hw, (C112_message_partial _ b exPacket _ 0 ⟨0, 0⟩ hf hw).1⟩

/-- A name with a pointer to the place 4, and one with a pointer to the place 0. -/
example : NameFrom 4 [9, 9, 9, 9, 1, 97, 0, 0xC0, 4] 7 [[97]] 9 ∧ LegalName [1, 97, 0, 9, 9, 9, 9, 0xC0, 0] 7 [[97]] 9 ∧
    extractFqdn ([1, 98, 0, 9] ++ [1, 97, 0, 9, 9, 9, 9, 0xC0, 0].drop 4) 7 = (.ok [[98]], 9) := by
  refine ⟨⟨?_, ?_⟩, ?_, by decide⟩
  · exact .pointer (hi := 0xC0) (lo := 4) (by decide) (octets_iff.mpr (by decide)) (by decide)
      (.label (len := 1) (by decide) (by decide) rfl (octets_iff.mpr (by decide)) (.root rfl))
  · exact .pointer (hi := 0xC0) (lo := 4) (by decide) (octets_iff.mpr (by decide)) (by decide)
      (.label (len := 1) (by decide) (by decide) rfl (octets_iff.mpr (by decide)) (.root rfl))
  · exact .pointer (hi := 0xC0) (lo := 0) (by decide) (octets_iff.mpr (by decide)) (by decide)
      (.label (len := 1) (by decide) (by decide) rfl (octets_iff.mpr (by decide)) (.root rfl))

/-- A packet meets the hypotheses of `C112_own_partial`. -/
example : PacketOk ⟨true, true, true⟩ 191 exPacket ∧ CountsOk exPacket ∧
    (∀ r ∈ records exPacket, r.rdata.type ≠ .SSHFP) ∧ ∀ r ∈ records exPacket, sizeError r.rdata = 0 :=
  ⟨exPacket_ok.mono (by decide), ⟨rfl, rfl, rfl, rfl⟩, by decide, fun r hr => (exPacket_well r hr).2⟩

end Dns
