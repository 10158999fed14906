import Mathlib.Data.List.Perm.Basic
import Mathlib.Data.List.Sort
import Verif.Spec.Dnssec
import Verif.Lemmas.RDataWrite
import Verif.Props.NameText
import Verif.Props.Codes

/-! Record sets: the insertion loop of `to_bytes` and `canonical_reorder`. -/

namespace Dns
open Spec

theorem bytesLe_iff (a b : Bytes) : bytesLe a b = true ↔ OctetLe a b := by
  have h1 := cmpBytes_lt a b
  have h2 := cmpBytes_eq a b
  unfold bytesLe OctetLe
  cases h : Fqdn.cmpBytes a b <;> simp_all

theorem octetLe_cons {x y : UInt8} {a b : Bytes} :
    OctetLe (x :: a) (y :: b) ↔ x < y ∨ x = y ∧ OctetLe a b := by
  unfold OctetLe
  rw [List.cons_lex_cons_iff, List.cons.injEq]
  constructor
  · rintro ((h | ⟨h, h'⟩) | ⟨h, h'⟩)
    · exact Or.inl h
    · exact Or.inr ⟨h, Or.inl h'⟩
    · exact Or.inr ⟨h, Or.inr h'⟩
  · rintro (h | ⟨h, (h' | h')⟩)
    · exact Or.inl (Or.inl h)
    · exact Or.inl (Or.inr ⟨h, h'⟩)
    · exact Or.inr ⟨h, h'⟩

theorem octetLe_nil (b : Bytes) : OctetLe [] b := by
  cases b with
  | nil => exact Or.inr rfl
  | cons y b => exact Or.inl (by simp)

theorem not_octetLe_nil (x : UInt8) (a : Bytes) : ¬ OctetLe (x :: a) [] := by
  unfold OctetLe; simp

theorem octetLe_trans {a b c : Bytes} (h1 : OctetLe a b) (h2 : OctetLe b c) : OctetLe a c := by
  induction a generalizing b c with
  | nil => exact octetLe_nil c
  | cons x a ih =>
    cases b with
    | nil => exact absurd h1 (not_octetLe_nil x a)
    | cons y b =>
      cases c with
      | nil => exact absurd h2 (not_octetLe_nil y b)
      | cons z c =>
        rw [octetLe_cons] at h1 h2 ⊢
        rcases h1 with h1 | ⟨rfl, h1⟩
        · rcases h2 with h2 | ⟨rfl, h2⟩
          · left; rw [UInt8.lt_iff_toNat_lt] at *; omega
          · exact Or.inl h1
        · rcases h2 with h2 | ⟨rfl, h2⟩
          · exact Or.inl h2
          · exact Or.inr ⟨rfl, ih h1 h2⟩

theorem octetLe_antisymm {a b : Bytes} (h1 : OctetLe a b) (h2 : OctetLe b a) : a = b := by
  induction a generalizing b with
  | nil =>
    cases b with
    | nil => rfl
    | cons y b => exact absurd h2 (not_octetLe_nil y b)
  | cons x a ih =>
    cases b with
    | nil => exact absurd h1 (not_octetLe_nil x a)
    | cons y b =>
      rw [octetLe_cons] at h1 h2
      rcases h1 with h1 | ⟨rfl, h1⟩
      · rcases h2 with h2 | ⟨rfl, h2⟩
        · rw [UInt8.lt_iff_toNat_lt] at *; omega
        · rw [UInt8.lt_iff_toNat_lt] at *; omega
      · rcases h2 with h2 | ⟨_, h2⟩
        · rw [UInt8.lt_iff_toNat_lt] at *; omega
        · rw [ih h1 h2]

theorem octetLe_total (a b : Bytes) : OctetLe a b ∨ OctetLe b a := by
  induction a generalizing b with
  | nil => exact Or.inl (octetLe_nil b)
  | cons x a ih =>
    cases b with
    | nil => exact Or.inr (octetLe_nil _)
    | cons y b =>
      simp only [octetLe_cons]
      rcases ih b with h | h
      all_goals
        rcases Nat.lt_trichotomy x.toNat y.toNat with hx | hx | hx
        · exact Or.inl (Or.inl (UInt8.lt_iff_toNat_lt.mpr hx))
        · have := UInt8.toNat_inj.mp hx
          subst this
          first | exact Or.inl (Or.inr ⟨rfl, h⟩) | exact Or.inr (Or.inr ⟨rfl, h⟩)
        · exact Or.inr (Or.inl (UInt8.lt_iff_toNat_lt.mpr hx))

theorem ok_injective {α : Type} : Function.Injective (Res.ok : α → Res α) := fun _ _ h => Res.ok.inj h

/-- The order of the records is unique. -/
theorem sorted_unique {a b : List Bytes} (hp : a.Perm b) (ha : a.Pairwise OctetLe)
    (hb : b.Pairwise OctetLe) : a = b :=
  hp.eq_of_pairwise (fun _ _ _ _ h1 h2 => octetLe_antisymm h1 h2) ha hb

theorem sortedRecords_perm {cfg : Cfg} {s t : RRSet} {a b : Bytes} (hn : t.name = s.name)
    (hty : t.type = s.type) (hc : t.class_ = s.class_) (htt : t.ttl = s.ttl)
    (hp : t.records.Perm s.records) (ha : SortedRecords cfg s a) (hb : SortedRecords cfg t b) :
    a = b := by
  obtain ⟨as, a1, a2, rfl⟩ := ha
  obtain ⟨bs, b1, b2, rfl⟩ := hb
  have : as.Perm bs := (List.map_perm_map_iff ok_injective).mp
    (a1.trans ((hp.map _).symm.trans b1.symm))
  rw [sorted_unique this a2 b2]
  have : rrOctets t = rrOctets s := by
    funext x; unfold rrOctets; rw [hn, hty, hc, htt]
  rw [this]

/-- One step of the loop: inserting at a valid position. -/
theorem insert_sorted {search : Search} (hv : search.Valid) {acc : List Bytes}
    (hs : acc.Pairwise OctetLe) (x : Bytes) :
    (RRSet.vecInsert acc (search acc x) x).Pairwise OctetLe ∧
      (RRSet.vecInsert acc (search acc x) x).Perm (x :: acc) := by
  have hs' : acc.Pairwise (fun a b => bytesLe a b = true) := by
    simpa only [bytesLe_iff] using hs
  obtain ⟨h1, h2, h3⟩ := hv acc x hs'
  simp only [bytesLe_iff] at h2 h3
  unfold RRSet.vecInsert
  constructor
  · rw [List.pairwise_append]
    refine ⟨hs.sublist (List.take_sublist _ _), ?_, ?_⟩
    · rw [List.pairwise_cons]
      exact ⟨h3, hs.sublist (List.drop_sublist _ _)⟩
    · intro a ha b hb
      rcases List.mem_cons.mp hb with rfl | hb
      · exact h2 a ha
      · exact octetLe_trans (h2 a ha) (h3 b hb)
  · exact List.perm_middle.trans (by rw [List.take_append_drop])

theorem collect_spec {cfg : Cfg} {search : Search} (hv : search.Valid) :
    ∀ (rs : List RecordData) (acc bins : List Bytes), acc.Pairwise OctetLe →
      RRSet.collect cfg search rs acc = .ok bins →
      bins.Pairwise OctetLe ∧
        (bins.map Res.ok).Perm (rs.map (RecordData.toBytes cfg) ++ acc.map Res.ok) := by
  intro rs
  induction rs with
  | nil =>
    intro acc bins hs h
    cases h
    exact ⟨hs, List.Perm.refl _⟩
  | cons r rs ih =>
    intro acc bins hs h
    rw [RRSet.collect] at h
    obtain ⟨bin, hb, h⟩ := Res.bind_ok.mp h
    obtain ⟨i1, i2⟩ := insert_sorted hv hs bin
    obtain ⟨j1, j2⟩ := ih _ _ i1 h
    refine ⟨j1, j2.trans ?_⟩
    rw [List.map_cons, hb]
    refine (List.Perm.append_left _ (i2.map Res.ok)).trans ?_
    rw [List.map_cons]
    exact List.perm_middle

theorem collect_total {cfg : Cfg} {search : Search} :
    ∀ (rs : List RecordData) (acc : List Bytes), (∀ r ∈ rs, ∃ b, r.toBytes cfg = .ok b) →
      ∃ bins, RRSet.collect cfg search rs acc = .ok bins := by
  intro rs
  induction rs with
  | nil => intro acc _; exact ⟨acc, rfl⟩
  | cons r rs ih =>
    intro acc h
    obtain ⟨b, hb⟩ := h r List.mem_cons_self
    obtain ⟨bins, hbins⟩ := ih (RRSet.vecInsert acc (search acc b) b)
      (fun x hx => h x (List.mem_cons_of_mem _ hx))
    exact ⟨bins, by rw [RRSet.collect]; exact Res.bind_ok.mpr ⟨b, hb, hbins⟩⟩

theorem collect_written {cfg : Cfg} {search : Search} :
    ∀ (rs : List RecordData) (acc bins : List Bytes), RRSet.collect cfg search rs acc = .ok bins →
      ∀ r ∈ rs, ∃ b, r.toBytes cfg = .ok b := by
  intro rs
  induction rs with
  | nil => intro _ _ _ r hr; exact absurd hr List.not_mem_nil
  | cons r rs ih =>
    intro acc bins h x hx
    rw [RRSet.collect] at h
    obtain ⟨bin, hb, h⟩ := Res.bind_ok.mp h
    rcases List.mem_cons.mp hx with rfl | hx
    · exact ⟨bin, hb⟩
    · exact ih _ _ h x hx

theorem foldl_append_map {α : Type} (f : α → Bytes) (l : List α) (a : Bytes) :
    l.foldl (fun buf x => buf ++ f x) a = a ++ (l.map f).flatten := by
  induction l generalizing a with
  | nil => simp
  | cons x l ih => rw [List.foldl_cons, ih]; simp

end Dns
