import Mathlib.Data.List.Perm.Basic
import Verif.Spec.SetRead
import Verif.Lemmas.Fails
import Verif.Props.RRSet
import Verif.Props.PacketWire

/-! C121: the octets of a set of records are its records. -/

namespace Dns
open Spec Buf

theorem perm_of_map_perm {α β : Type} {f : α → β} {l : List β} {m : List α} (h : l.Perm (m.map f)) :
    ∃ w : List α, w.Perm m ∧ l = w.map f := by
  have h2 : List.Forall₂ (fun b a => b = f a) (m.map f) m := by
    clear h
    induction m with
    | nil => exact .nil
    | cons a m ih => exact .cons rfl ih
  obtain ⟨w, h3, h4⟩ := List.perm_comp_forall₂ h h2
  refine ⟨w, h4, ?_⟩
  clear h h2 h4
  induction h3 with
  | nil => rfl
  | cons h _ ih => rw [List.map_cons, ← h, ← ih]

theorem setRecord_read {cfg : Cfg} {s : RRSet} {r : RecordData} (h : RecordOk cfg 191 (setRecord s r))
    (hs : s.type ≠ .SSHFP) {b : Bytes} (hb : r.toBytes cfg = .ok b) (pre : Bytes) :
    RecordAtWith (ParsedData cfg) Decodes cfg (pre ++ s.recordBytes b) pre.length (setRecord s r)
      (pre ++ s.recordBytes b).length := by
  have ht : r.type = s.type := h.2.2.1
  have hn : Good 191 s.name := h.1
  have hx : ∀ x, (setRecord s r).rdata ≠ .SSHFP x := by
    intro x hx
    have hx : r = .SSHFP x := hx
    exact hs (by rw [← ht, hx]; rfl)
  have hcb : (setRecord s r).classBits cfg = s.class_.toU16 := by
    simp [ResourceRecord.classBits, setRecord]
  have e : s.recordBytes b = Items.octets (recordHead (setRecord s r) ((setRecord s r).classBits cfg)
      (UInt16.ofNat b.length)) ++ b := by
    rw [hcb]
    simp [RRSet.recordBytes, setRecord, recordHead, Items.octets, Item.octets, o16,
      RecordType.toU16_eq, u16be_eq, u32be_eq, lenU16]
    exact NameOk.toBytes h.1
  rw [e, ← List.append_assoc]
  have h1 := items_decode (Nat.le_refl 191) (recordHead (setRecord s r) ((setRecord s r).classBits cfg)
      (UInt16.ofNat b.length)) pre (by simp [recordHead, Item.Fits, o16]; exact hn) (by simp [recordHead, Item.Open, o16])
  refine recordAt_of_parts h (h.2.2.2.2.2.2.2 b hb) h1 ?_
  obtain ⟨b', h5, h6⟩ := RecordData.read_back (Nat.le_refl 191) h.2.2.2.2.2.2.1 hx
    (pre ++ Items.octets (recordHead (setRecord s r) ((setRecord s r).classBits cfg) (UInt16.ofNat b.length)))
  have h5 : r.toBytes cfg = .ok b' := h5
  rw [hb] at h5
  cases h5
  exact h6

theorem setRecords_read {cfg : Cfg} {s : RRSet} (hs : s.type ≠ .SSHFP) : ∀ (rs : List RecordData) (bs : List Bytes)
    (pre post : Bytes), (∀ r ∈ rs, RecordOk cfg 191 (setRecord s r)) → bs.map Res.ok = rs.map (RecordData.toBytes cfg) →
    ReadOneByOne cfg (pre ++ (bs.map s.recordBytes).flatten ++ post) pre.length (rs.map (setRecord s))
      (pre ++ (bs.map s.recordBytes).flatten).length := by
  intro rs
  induction rs with
  | nil =>
    intro bs pre post _ hb
    cases bs with
    | nil => simp [ReadOneByOne, ListAt]
    | cons b bs => cases hb
  | cons r rs ih =>
    intro bs pre post hr hb
    cases bs with
    | nil => cases hb
    | cons b bs =>
      simp only [List.map_cons, List.cons.injEq] at hb
      have h1 := setRecord_read (hr r List.mem_cons_self) hs hb.1.symm pre
      have h2 := recordAt_extend decodes_extends h1 ((bs.map s.recordBytes).flatten ++ post)
      have h3 := ih bs (pre ++ s.recordBytes b) post (fun x hx => hr x (List.mem_cons_of_mem _ hx)) hb.2
      simp only [List.map_cons, List.flatten_cons]
      refine ⟨(pre ++ s.recordBytes b).length, ?_, ?_⟩
      · refine ResourceRecord.parse_ok.mpr ?_
        simpa using h2
      · have h3 : ListAt _ _ _ _ := h3
        simpa using h3

/-- C121 (partial): the octets that a set is written to (and that are signed) are its records, in canonical order: when
they stand anywhere in a buffer, `ResourceRecord::try_from` reads them one after the other.  What is missing: SSHFP
records, which the crate does not read as it writes them (`C121_exact`). -/
theorem C121_read_partial (cfg : Cfg) (search : Search) (hv : search.Valid) (s : RRSet)
    (hok : ∀ r ∈ s.records, RecordOk cfg 191 (setRecord s r)) (hs : s.type ≠ .SSHFP) (out : Bytes)
    (h : s.toBytes cfg search = .ok out) :
    ∃ rs : List RecordData, rs.Perm s.records ∧
      rs.Pairwise (fun a b => ∀ x y, a.toBytes cfg = .ok x → b.toBytes cfg = .ok y → OctetLe x y) ∧
      ∀ before after, ReadOneByOne cfg (before ++ out ++ after) before.length (rs.map (setRecord s))
        (before ++ out).length := by
  obtain ⟨bs, h1, h2, rfl⟩ := RRSet.toBytes_form hv h
  obtain ⟨rs, h3, h4⟩ := perm_of_map_perm h1
  refine ⟨rs, h3, ?_, fun before after => setRecords_read hs rs bs before after
    (fun r hr => hok r (h3.mem_iff.mp hr)) h4⟩
  have h5 : (bs.map Res.ok).Pairwise (fun a b => ∀ x y, a = .ok x → b = .ok y → OctetLe x y) := by
    rw [List.pairwise_map]
    refine h2.imp ?_
    intro a b hab x y hx hy
    cases hx; cases hy; exact hab
  rw [h4, List.pairwise_map] at h5
  exact h5

/-- Number of octets of a fingerprint. -/
def fingerprintSize : RecordData → Nat
  | .SSHFP x => x.fingerprint.length
  | _ => 0

theorem setRecords_sshfp {cfg : Cfg} {s : RRSet} (ht : s.type = .SSHFP) : ∀ (rs ws : List RecordData) (bs : List Bytes)
    (pre post : Bytes) (j : Nat), rs.length = ws.length → (∀ r ∈ rs, r.type = .SSHFP) →
    (∀ r ∈ ws, RecordOk cfg 191 (setRecord s r)) →
    bs.map Res.ok = ws.map (RecordData.toBytes cfg) →
    ReadOneByOne cfg (pre ++ (bs.map s.recordBytes).flatten ++ post) pre.length (rs.map (setRecord s)) j →
    (rs.map fingerprintSize).sum + rs.length ≤ (ws.map fingerprintSize).sum := by
  intro rs
  induction rs with
  | nil => intro ws bs pre post j _ _ _ _ _; simp
  | cons r rs ih =>
    intro ws bs pre post j hl hr hw hb hj
    cases ws with
    | nil => cases hl
    | cons w ws =>
      cases bs with
      | nil => cases hb
      | cons b bs =>
        simp only [List.map_cons, List.cons.injEq] at hb
        have hwt : w.type = .SSHFP := (hw w List.mem_cons_self).2.2.1.trans ht
        have hrt := hr r List.mem_cons_self
        cases w <;> simp only [RecordData.type, reduceCtorEq] at hwt
        cases r <;> simp only [RecordData.type, reduceCtorEq] at hrt
        rename_i w r
        have hok := hw (.SSHFP w) List.mem_cons_self
        have hbl := hok.2.2.2.2.2.2.2 b hb.1.symm
        have hlen : b.length = 2 + w.fingerprint.length := by
          have h := hb.1
          cases h
          simp [Sshfp.toBytes]; omega
        obtain ⟨k, h1, h2⟩ := hj
        have e : s.recordBytes b = Items.octets (recordHead (setRecord s (.SSHFP r)) s.class_.toU16
            (UInt16.ofNat b.length)) ++ b := by
          simp [RRSet.recordBytes, setRecord, recordHead, Items.octets, Item.octets, o16,
            RecordType.toU16_eq, u16be_eq, u32be_eq, lenU16]
          exact NameOk.toBytes hok.1
        have g1 := items_decode (Nat.le_refl 191) (recordHead (setRecord s (.SSHFP r)) s.class_.toU16
            (UInt16.ofNat b.length)) pre (by simp [recordHead, Item.Fits, o16]; exact hok.1)
            (by simp [recordHead, Item.Open, o16])
        have g2 := items_extend decodes_extends (by simp [Item.Open, o16, recordHead]) g1
          (b ++ (bs.map s.recordBytes).flatten ++ post)
        have hd : pre ++ ((b :: bs).map s.recordBytes).flatten ++ post =
            pre ++ Items.octets (recordHead (setRecord s (.SSHFP r)) s.class_.toU16 (UInt16.ofNat b.length)) ++
              (b ++ (bs.map s.recordBytes).flatten ++ post) := by
          simp [e]
        rw [hd] at h1
        obtain ⟨k1, k2, k3⟩ := data_of_record g2 h1
        rw [UInt16.toNat_ofNat_of_lt' (by simpa [UInt16.size] using hbl)] at k1
        rw [k1, take_behind] at k3
        have hf : r.fingerprint.length + 1 ≤ w.fingerprint.length := by
          by_contra hc
          refine sshfp_fails (r := r) ?_ k3
          simp; omega
        have h3 := ih ws bs (pre ++ s.recordBytes b) post j (by simpa using hl)
          (fun x hx => hr x (List.mem_cons_of_mem _ hx)) (fun x hx => hw x (List.mem_cons_of_mem _ hx)) hb.2
          (by
            have hk : k = (pre ++ s.recordBytes b).length := by
              rw [k1, e]; simp; omega
            have h2 : ListAt _ _ _ _ := h2
            rw [hk] at h2
            simpa [ReadOneByOne] using h2)
        simp only [List.map_cons, List.sum_cons, fingerprintSize, List.length_cons]
        omega

/-- C121, exactly: the octets of a set that is not empty are read as its records if and only if these are not SSHFP
records. -/
theorem C121_exact (cfg : Cfg) (search : Search) (hv : search.Valid) (s : RRSet)
    (hok : ∀ r ∈ s.records, RecordOk cfg 191 (setRecord s r)) (hne : s.records ≠ []) (out : Bytes)
    (h : s.toBytes cfg search = .ok out) (before after : Bytes) :
    (∃ (rs : List RecordData) (j : Nat), rs.Perm s.records ∧
      ReadOneByOne cfg (before ++ out ++ after) before.length (rs.map (setRecord s)) j) ↔ s.type ≠ .SSHFP := by
  constructor
  · rintro ⟨rs, j, h1, h2⟩ ht
    obtain ⟨bs, h3, _, rfl⟩ := RRSet.toBytes_form hv h
    obtain ⟨ws, h5, h6⟩ := perm_of_map_perm h3
    have h7 := setRecords_sshfp ht rs ws bs before after j (h1.trans h5.symm).length_eq
      (fun r hr => (hok r (h1.mem_iff.mp hr)).2.2.1.trans ht) (fun r hr => hok r (h5.mem_iff.mp hr)) h6 h2
    have h8 := ((h1.trans h5.symm).map fingerprintSize).sum_eq
    have h9 := List.length_pos_iff.mpr hne
    rw [← h1.length_eq] at h9
    omega
  · intro hs
    obtain ⟨rs, h1, _, h3⟩ := C121_read_partial cfg search hv s hok hs out h
    exact ⟨rs, _, h1, h3 before after⟩

/-- C121: the set of the example is written in the other order, and read so. -/
def readSet : RRSet := ⟨[[97]], .A, .IN, 60, [.A ⟨0x02000000⟩, .A ⟨0x01000000⟩]⟩

example : (∀ r ∈ readSet.records, RecordOk ⟨true, true, true⟩ 191 (setRecord readSet r)) ∧ readSet.type ≠ .SSHFP ∧
    readSet.toBytes ⟨true, true, true⟩ (fun l x => (l.filter (fun y => bytesLe y x)).length) =
      .ok [1, 97, 0, 0, 1, 0, 1, 0, 0, 0, 60, 0, 4, 1, 0, 0, 0, 1, 97, 0, 0, 1, 0, 1, 0, 0, 0, 60, 0, 4, 2, 0, 0, 0] := by
  refine ⟨?_, by decide, by decide +kernel⟩
  intro r hr
  simp only [readSet, List.mem_cons, List.not_mem_nil, or_false] at hr
  rcases hr with rfl | rfl
  all_goals
    refine ⟨by decide, by decide, rfl, trivial, by decide, by simp [setRecord], trivial, ?_⟩
    intro b hb; cases hb; decide

end Dns
