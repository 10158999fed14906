import Verif.Lemmas.RRSet
import Verif.Lemmas.PacketWrite
import Verif.Props.PacketSize

/-! C48, C49: record sets. -/

namespace Dns
open Spec

/-- A search that meets the contract of `binary_search`: the first position behind all elements that
are not greater. -/
def exSearch : Search := fun l x => (l.takeWhile (fun y => bytesLe y x)).length

theorem exSearch_valid : exSearch.Valid := by
  intro l x hs
  unfold exSearch
  refine ⟨(List.takeWhile_prefix _).length_le, ?_, ?_⟩
  · intro y hy
    rw [← List.prefix_iff_eq_take.mp (List.takeWhile_prefix _)] at hy
    have : ∀ l : List Bytes, y ∈ l.takeWhile (fun y => bytesLe y x) → bytesLe y x = true := by
      intro l
      induction l with
      | nil => intro h; exact absurd h List.not_mem_nil
      | cons z zs ih =>
        rw [List.takeWhile_cons]
        split
        · intro h
          rcases List.mem_cons.mp h with rfl | h
          · assumption
          · exact ih h
        · intro h; exact absurd h List.not_mem_nil
    exact this l hy
  · intro y hy
    have hd : l.drop (l.takeWhile (fun y => bytesLe y x)).length = l.dropWhile (fun y => bytesLe y x) := by
      clear hs hy
      induction l with
      | nil => rfl
      | cons z zs ih =>
        rw [List.takeWhile_cons, List.dropWhile_cons]
        split
        · simpa using ih
        · rfl
    rw [hd] at hy
    simp only [bytesLe_iff] at hs ⊢
    have hs' : (l.dropWhile (fun y => bytesLe y x)).Pairwise OctetLe :=
      hs.sublist (List.dropWhile_sublist _)
    rcases hw : l.dropWhile (fun y => bytesLe y x) with _ | ⟨z, zs⟩
    · rw [hw] at hy; exact absurd hy List.not_mem_nil
    · have hz : ¬ OctetLe z x := by
        have := List.head?_dropWhile_not (p := fun y => bytesLe y x) (l := l)
        rw [hw] at this
        simp only [List.head?_cons] at this
        rw [← bytesLe_iff]; simp [this]
      have hxz : OctetLe x z := (octetLe_total x z).resolve_right hz
      rw [hw] at hy hs'
      rcases List.mem_cons.mp hy with rfl | hy
      · exact hxz
      · exact octetLe_trans hxz ((List.pairwise_cons.mp hs').1 y hy)

/-! ## C48 -/

theorem RRSet.recordBytes_eq {s : RRSet} (hn : ∀ l ∈ s.name, l ≠ []) : s.recordBytes = rrOctets s := by
  funext bin
  have h1 : ∀ l ∈ s.name, 1 ≤ l.length := fun l hl => List.length_pos_iff.mpr (hn l hl)
  simp [RRSet.recordBytes, rrOctets, Items.octets, Item.octets, o16, Fqdn.toBytes_eq h1,
    RecordType.toU16_eq, classNumber_eq, u16be_eq, u32be_eq, lenU16]

theorem RRSet.toBytes_form {cfg : Cfg} {search : Search} (hv : search.Valid) {s : RRSet} {out : Bytes}
    (h : s.toBytes cfg search = .ok out) :
    ∃ rdatas : List Bytes, (rdatas.map Res.ok).Perm (s.records.map (RecordData.toBytes cfg)) ∧
      rdatas.Pairwise OctetLe ∧ out = (rdatas.map s.recordBytes).flatten := by
  obtain ⟨bins, h1, h2⟩ := Res.bind_ok.mp h
  obtain ⟨h3, h4⟩ := collect_spec hv _ _ _ List.Pairwise.nil h1
  refine ⟨bins, by simpa using h4, h3, ?_⟩
  cases h2
  rw [foldl_append_map]; simp

theorem RRSet.toBytes_total {cfg : Cfg} {search : Search} {s : RRSet} :
    (∃ out, s.toBytes cfg search = .ok out) ↔ ∀ r ∈ s.records, ∃ b, r.toBytes cfg = .ok b := by
  constructor
  · rintro ⟨out, h⟩
    obtain ⟨bins, h1, h2⟩ := Res.bind_ok.mp h
    exact collect_written _ _ _ h1
  · intro h
    obtain ⟨bins, hb⟩ := collect_total (search := search) s.records [] h
    exact ⟨_, Res.bind_ok.mpr ⟨bins, hb, rfl⟩⟩

/-- C48: `to_bytes()` does not depend on the order of the records (nor on the element `binary_search`
picks among equal ones). -/
theorem C48_order_independent (cfg : Cfg) (search search' : Search) (hv : search.Valid)
    (hv' : search'.Valid) (s : RRSet) (rs : List RecordData) (hp : rs.Perm s.records) (out : Bytes)
    (h : s.toBytes cfg search = .ok out) :
    ({ s with records := rs } : RRSet).toBytes cfg search' = .ok out := by
  obtain ⟨as, a1, a2, a3⟩ := RRSet.toBytes_form hv h
  have hw := RRSet.toBytes_total.mp ⟨out, h⟩
  obtain ⟨out', h'⟩ := (RRSet.toBytes_total (cfg := cfg) (search := search')
    (s := { s with records := rs })).mpr (fun r hr => hw r (hp.mem_iff.mp hr))
  obtain ⟨bs, b1, b2, b3⟩ := RRSet.toBytes_form hv' h'
  have hab : as.Perm bs := (List.map_perm_map_iff ok_injective).mp
    (a1.trans ((hp.map _).symm.trans b1.symm))
  have := sorted_unique hab a2 b2
  subst this
  have hr : ({ s with records := rs } : RRSet).recordBytes = s.recordBytes := rfl
  rw [h', b3, hr, a3]

/-- C48: the octets are those of the records — owner, type, class, TTL, RDATA length and RDATA — in
ascending order of the RDATA, and only those. -/
theorem C48_sorted (cfg : Cfg) (search : Search) (hv : search.Valid) (s : RRSet) (out : Bytes)
    (hn : ∀ l ∈ s.name, l ≠ []) : s.toBytes cfg search = .ok out ↔ SortedRecords cfg s out := by
  constructor
  · intro h
    obtain ⟨rdatas, h1, h2, h3⟩ := RRSet.toBytes_form hv h
    exact ⟨rdatas, h1, h2, by rw [h3, RRSet.recordBytes_eq hn]⟩
  · rintro ⟨rdatas, h1, h2, h3⟩
    have hw : ∀ r ∈ s.records, ∃ b, r.toBytes cfg = .ok b := by
      intro r hr
      have := h1.mem_iff.mpr (List.mem_map_of_mem hr)
      obtain ⟨b, _, hb⟩ := List.mem_map.mp this
      exact ⟨b, hb.symm⟩
    obtain ⟨out', h'⟩ := (RRSet.toBytes_total (search := search)).mpr hw
    obtain ⟨bs, b1, b2, b3⟩ := RRSet.toBytes_form hv h'
    have := sorted_unique ((List.map_perm_map_iff ok_injective).mp (h1.trans b1.symm)) h2 b2
    subst this
    rw [h', b3, h3, RRSet.recordBytes_eq hn]

/-- C48: a set whose records can be written can be written. -/
theorem C48_written (cfg : Cfg) (search : Search) (s : RRSet)
    (h : ∀ r ∈ s.records, ∃ b, r.toBytes cfg = .ok b) : ∃ out, s.toBytes cfg search = .ok out :=
  RRSet.toBytes_total.mpr h
example (cfg : Cfg) (search : Search) : ∃ out, RRSet.toBytes cfg search ⟨[[97]], .A, .IN, 5, [.A ⟨2⟩, .A ⟨1⟩]⟩ = .ok out :=
  C48_written cfg search _ (by simp [RecordData.toBytes])

theorem keys_ok {cfg : Cfg} : ∀ (rs : List RecordData) (ks : List (Bytes × RecordData)),
    RRSet.keys cfg rs = .ok ks → ks.map (·.2) = rs ∧ ∀ k ∈ ks, k.2.toBytes cfg = .ok k.1 := by
  intro rs
  induction rs with
  | nil => intro ks h; cases h; simp
  | cons r rs ih =>
    intro ks h
    rw [RRSet.keys] at h
    obtain ⟨b, h1, h⟩ := Res.bind_ok.mp h
    obtain ⟨bs, h2, h⟩ := Res.bind_ok.mp h
    cases h
    obtain ⟨i1, i2⟩ := ih _ h2
    refine ⟨by simp [i1], ?_⟩
    intro k hk
    rcases List.mem_cons.mp hk with rfl | hk
    · exact h1
    · exact i2 k hk

theorem keys_total {cfg : Cfg} : ∀ (rs : List RecordData), (∀ r ∈ rs, ∃ b, r.toBytes cfg = .ok b) →
    ∃ ks, RRSet.keys cfg rs = .ok ks := by
  intro rs
  induction rs with
  | nil => intro _; exact ⟨[], rfl⟩
  | cons r rs ih =>
    intro h
    obtain ⟨b, hb⟩ := h r List.mem_cons_self
    obtain ⟨ks, hk⟩ := ih (fun x hx => h x (List.mem_cons_of_mem _ hx))
    exact ⟨_, by rw [RRSet.keys]; exact Res.bind_ok.mpr ⟨b, hb, Res.bind_ok.mpr ⟨ks, hk, rfl⟩⟩⟩

/-- C48: `canonical_reorder` only permutes the records, and orders them by their wire format. -/
theorem C48_reorder (cfg : Cfg) (s : RRSet) (h : ∀ r ∈ s.records, ∃ b, r.toBytes cfg = .ok b) :
    ∃ rs, s.canonicalReorder cfg = .ok { s with records := rs } ∧ rs.Perm s.records ∧
      rs.Pairwise (fun a b => ∀ x y, a.toBytes cfg = .ok x → b.toBytes cfg = .ok y → OctetLe x y) := by
  by_cases hlen : s.records.length < 2
  · refine ⟨s.records, by rw [RRSet.canonicalReorder, if_pos hlen]; rfl, .refl _, ?_⟩
    match hr : s.records with
    | [] => exact .nil
    | [r] => exact List.pairwise_singleton _ r
    | _ :: _ :: _ => rw [hr] at hlen; simp only [List.length_cons] at hlen; omega
  obtain ⟨ks, hk⟩ := keys_total s.records h
  obtain ⟨h1, h2⟩ := keys_ok _ _ hk
  refine ⟨_, by rw [RRSet.canonicalReorder, if_neg hlen]; exact Res.bind_ok.mpr ⟨ks, hk, rfl⟩, ?_, ?_⟩
  · rw [← h1]
    exact (List.mergeSort_perm ks _).map _
  · have hs := List.pairwise_mergeSort (le := fun (a b : Bytes × RecordData) => bytesLe a.1 b.1)
      (fun a b c hab hbc => by
        simp only [bytesLe_iff] at *
        exact octetLe_trans hab hbc)
      (fun a b => by
        simp only [Bool.or_eq_true, bytesLe_iff]
        exact octetLe_total a.1 b.1) ks
    rw [List.pairwise_map]
    refine hs.imp_of_mem ?_
    intro a b ha hb hab x y hx hy
    rw [List.mem_mergeSort] at ha hb
    rw [h2 a ha] at hx
    rw [h2 b hb] at hy
    cases hx; cases hy
    exact (bytesLe_iff _ _).mp hab
example (cfg : Cfg) := C48_reorder cfg ⟨[[97]], .A, .IN, 5, [.A ⟨2⟩, .A ⟨1⟩]⟩ (by simp [RecordData.toBytes])

/-- C48: it returns exactly if there is nothing to compare or every record can be written. -/
theorem C48_reorder_returns (cfg : Cfg) (s : RRSet) :
    (∃ t, s.canonicalReorder cfg = .ok t) ↔
      s.records.length < 2 ∨ ∀ r ∈ s.records, ∃ b, r.toBytes cfg = .ok b := by
  by_cases hlen : s.records.length < 2
  · simp only [hlen, true_or, iff_true]
    exact ⟨s, by rw [RRSet.canonicalReorder, if_pos hlen]; rfl⟩
  · simp only [hlen, false_or]
    constructor
    · rintro ⟨t, ht⟩
      rw [RRSet.canonicalReorder, if_neg hlen] at ht
      obtain ⟨ks, hk, _⟩ := Res.bind_ok.mp ht
      obtain ⟨h1, h2⟩ := keys_ok _ _ hk
      intro r hr
      rw [← h1] at hr
      obtain ⟨k, hk, rfl⟩ := List.mem_map.mp hr
      exact ⟨_, h2 k hk⟩
    · intro h
      obtain ⟨rs, h1, _⟩ := C48_reorder cfg s h
      exact ⟨_, h1⟩

/-- C48: and `to_bytes()` is the same before and after. -/
theorem C48_reorder_bytes (cfg : Cfg) (search : Search) (hv : search.Valid) (s t : RRSet) (out : Bytes)
    (ht : s.canonicalReorder cfg = .ok t) (h : s.toBytes cfg search = .ok out) :
    t.toBytes cfg search = .ok out := by
  obtain ⟨rs, h1, h2, _⟩ := C48_reorder cfg s (RRSet.toBytes_total.mp ⟨out, h⟩)
  rw [h1] at ht
  cases ht
  exact C48_order_independent cfg search search hv hv s rs h2 out h

/-- C48: a set with three records, one of them twice. -/
example : (⟨[[97]], .A, .IN, 60, [.A ⟨0x02000000⟩, .A ⟨0x01000000⟩, .A ⟨0x02000000⟩]⟩ : RRSet).toBytes
      ⟨true, true, true⟩ exSearch
    = .ok [1, 97, 0, 0, 1, 0, 1, 0, 0, 0, 60, 0, 4, 1, 0, 0, 0, 1, 97, 0, 0, 1, 0, 1, 0, 0, 0, 60, 0, 4, 2,
        0, 0, 0, 1, 97, 0, 0, 1, 0, 1, 0, 0, 0, 60, 0, 4, 2, 0, 0, 0] := by decide +kernel

/-! ## C49 -/

theorem sizeLoop_eq {cfg : Cfg} {name : Fqdn} : ∀ (rs : List RecordData) (acc : Nat),
    (∀ r ∈ rs, SetsOk r) → ∀ bs : List Bytes, bs.map Res.ok = rs.map (RecordData.toBytes cfg) →
    ∃ n, RRSet.sizeLoop cfg name rs acc = .ok n ∧
      (n : Int) = acc + ((bs.map (fun b => name.toBytes.length + 10 + b.length)).sum : Nat) +
        (rs.map sizeError).sum := by
  intro rs
  induction rs with
  | nil =>
    intro acc _ bs hb
    have : bs = [] := by simpa using hb
    subst this
    exact ⟨acc, rfl, by simp⟩
  | cons r rs ih =>
    intro acc hs bs hb
    cases bs with
    | nil => simp at hb
    | cons b bs =>
      rw [List.map_cons, List.map_cons, List.cons.injEq] at hb
      obtain ⟨n, h1, h2⟩ := RecordData.size (hs r List.mem_cons_self) hb.1.symm
      obtain ⟨m, h3, h4⟩ := ih (acc + name.byteSize + 10 + n)
        (fun x hx => hs x (List.mem_cons_of_mem _ hx)) bs hb.2
      refine ⟨m, by rw [RRSet.sizeLoop]; exact Res.bind_ok.mpr ⟨n, h1, h3⟩, ?_⟩
      rw [h4, Fqdn.byteSize_eq]
      simp only [List.map_cons, List.sum_cons]
      push_cast
      omega

theorem perm_ok_list {cfg : Cfg} {rs : List RecordData} (h : ∀ r ∈ rs, ∃ b, r.toBytes cfg = .ok b) :
    ∃ bs : List Bytes, bs.map Res.ok = rs.map (RecordData.toBytes cfg) := by
  induction rs with
  | nil => exact ⟨[], rfl⟩
  | cons r rs ih =>
    obtain ⟨b, hb⟩ := h r List.mem_cons_self
    obtain ⟨bs, hbs⟩ := ih (fun x hx => h x (List.mem_cons_of_mem _ hx))
    exact ⟨b :: bs, by simp [hb, hbs]⟩

/-- C49 (partial): `byte_size()` is the number of octets of `to_bytes()` up to the errors in the sizes
of the record data (`sizeError`); what is missing: it is wrong for OPT, RRSIG, CAA and SVCB records. -/
theorem C49_set_size_partial (cfg : Cfg) (search : Search) (hv : search.Valid) (s : RRSet) (out : Bytes)
    (hs : ∀ r ∈ s.records, SetsOk r) (h : s.toBytes cfg search = .ok out) :
    ∃ n, s.byteSize cfg = .ok n ∧ (n : Int) = out.length + (s.records.map sizeError).sum := by
  obtain ⟨rdatas, h1, _, h3⟩ := RRSet.toBytes_form hv h
  obtain ⟨bs, hb⟩ := perm_ok_list (RRSet.toBytes_total.mp ⟨out, h⟩)
  obtain ⟨n, h4, h5⟩ := sizeLoop_eq (name := s.name) s.records 0 hs bs hb
  refine ⟨n, h4, ?_⟩
  have hp : rdatas.Perm bs := (List.map_perm_map_iff ok_injective).mp (h1.trans (by rw [hb]))
  have hl : out.length = (bs.map (fun b => s.name.toBytes.length + 10 + b.length)).sum := by
    rw [h3, List.length_flatten, List.map_map]
    have hf : (List.length ∘ s.recordBytes) = (fun b => s.name.toBytes.length + 10 + b.length) := by
      funext b
      simp [RRSet.recordBytes, u16be_length, u32be_length]
      omega
    rw [hf]
    exact (hp.map _).sum_eq
  rw [h5, hl]
  simp

/-- C49: in particular it is right for sets of all other types. -/
theorem C49_right (cfg : Cfg) (search : Search) (hv : search.Valid) (s : RRSet) (out : Bytes)
    (hs : ∀ r ∈ s.records, SetsOk r) (h : s.toBytes cfg search = .ok out)
    (ht : ∀ r ∈ s.records, r.type ∉ [.OPT, .RRSIG, .CAA, .SVCB]) : s.byteSize cfg = .ok out.length := by
  obtain ⟨n, h1, h2⟩ := C49_set_size_partial cfg search hv s out hs h
  have h0 : (s.records.map sizeError).sum = 0 := by
    apply List.sum_eq_zero
    intro x hx
    obtain ⟨r, hr, rfl⟩ := List.mem_map.mp hx
    have := ht r hr
    cases r <;> first | rfl | (exfalso; apply this; simp [RecordData.type])
  rw [h1]; congr 1; omega

/-- C49 is false for CAA records. -/
theorem C49_counterexample : ∃ (s : RRSet) (out : Bytes),
    s.toBytes ⟨true, true, true⟩ exSearch = .ok out ∧ s.byteSize ⟨true, true, true⟩ ≠ .ok out.length :=
  ⟨⟨[[97]], .CAA, .IN, 60, [.CAA ⟨false, [105], [99, 97]⟩]⟩, _, rfl, by decide +kernel⟩

/-- C49: a set of two MX records. -/
example : (⟨[[97]], .MX, .IN, 60, [.MX ⟨1, [[98]]⟩, .MX ⟨2, [[99]]⟩]⟩ : RRSet).byteSize ⟨true, true, true⟩
    = .ok 36 := by decide +kernel

end Dns
