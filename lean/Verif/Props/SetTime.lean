import Verif.Lemmas.TimedSet
import Verif.Props.RRSet

/-
C122: steps of writing a record set in canonical order (Model/TimedSet.lean).
-/

namespace Dns
open Spec

/-- The searches the standard library has had. -/
def stdSearches : List (List Bytes → Bytes → Timed.Found) := [Timed.halving, Timed.narrowing]

theorem stdSearches_fast {find : List Bytes → Bytes → Timed.Found} (h : find ∈ stdSearches) : Timed.Fast find := by
  simp only [stdSearches, List.mem_cons, List.not_mem_nil, or_false] at h
  rcases h with rfl | rfl
  · exact Timed.halving_fast
  · exact Timed.narrowing_fast

/-- C122: both searches do what is documented of `binary_search`, so that whatever is proved of the searches that do
(C48, C51, C100, C118 and others) is true of them. -/
theorem C122_documented (find : List Bytes → Bytes → Timed.Found) (h : find ∈ stdSearches) :
    Search.Valid (fun l x => (find l x).pos) := (stdSearches_fast h).valid

/-- C122: counting steps does not change the outcome of `to_bytes`. -/
theorem C122_same (cfg : Cfg) (find : List Bytes → Bytes → Timed.Found) (s : RRSet) :
    (Timed.setBytes cfg find s).1 = s.toBytes cfg (fun l x => (find l x).pos) := Timed.setBytes_fst cfg find s

theorem collect_fails {cfg : Cfg} {search search' : Search} : ∀ (rs : List RecordData) (acc acc' : List Bytes),
    (¬ ∃ bins, RRSet.collect cfg search rs acc = .ok bins) →
    RRSet.collect cfg search' rs acc' = RRSet.collect cfg search rs acc := by
  intro rs
  induction rs with
  | nil => intro acc acc' h; exact absurd ⟨acc, rfl⟩ h
  | cons r rs ih =>
    intro acc acc' h
    rw [RRSet.collect, RRSet.collect]
    rw [RRSet.collect] at h
    cases hb : r.toBytes cfg with
    | ok bin => rw [hb] at h; exact ih _ _ h
    | err e => rfl
    | panic k => rfl
    | hang => rfl

/-- C122: it does not matter with which of the searches the library was compiled; also the panics are the same. -/
theorem C122_any_compiler (cfg : Cfg) (search search' : Search) (hv : search.Valid) (hv' : search'.Valid) (s : RRSet) :
    s.toBytes cfg search = s.toBytes cfg search' := by
  by_cases h : ∃ out, s.toBytes cfg search = .ok out
  · obtain ⟨out, h⟩ := h
    rw [h]
    exact (C48_order_independent cfg search search' hv hv' s s.records (.refl _) out h).symm
  · have : ¬ ∃ bins, RRSet.collect cfg search s.records [] = .ok bins := by
      rintro ⟨bins, hb⟩
      exact h ⟨_, by rw [RRSet.toBytes, hb]; rfl⟩
    rw [RRSet.toBytes, RRSet.toBytes, collect_fails (search' := search') s.records [] [] this]

/-- C122: a set of `m` records is put in order with at most `m * (log2 m + 2)` comparisons. -/
theorem C122_comparisons (cfg : Cfg) (find : List Bytes → Bytes → Timed.Found) (h : find ∈ stdSearches) (s : RRSet) :
    (Timed.setBytes cfg find s).2.comparisons ≤ s.records.length * (Nat.log2 s.records.length + 2) := by
  have h1 := Timed.collect_comparisons (cfg := cfg) (stdSearches_fast h) s.records.length s.records [] (by simp)
  rw [Timed.setBytes]
  cases (Timed.collect cfg find s.records []).1 <;> exact h1
example (cfg : Cfg) (find : List Bytes → Bytes → Timed.Found) (h : find ∈ stdSearches) :
    (Timed.setBytes cfg find ⟨[[97]], .A, .IN, 5, [.A ⟨3⟩, .A ⟨2⟩, .A ⟨1⟩]⟩).2.comparisons ≤ 9 :=
  C122_comparisons cfg find h ⟨[[97]], .A, .IN, 5, [.A ⟨3⟩, .A ⟨2⟩, .A ⟨1⟩]⟩

theorem foldl_length (f : Bytes → Bytes) : ∀ (bins : List Bytes) (buf : Bytes),
    (bins.foldl (fun buf bin => buf ++ f bin) buf).length = buf.length + (bins.map (fun b => (f b).length)).sum := by
  intro bins
  induction bins with
  | nil => simp
  | cons b bs ih => intro buf; rw [List.foldl_cons, ih]; simp; omega

/-- C122: a set of `m` records, written in `n` octets, takes at most `(log2 m + 5) * n + m * m` steps and one for each
octet of the name. -/
theorem C122_time (cfg : Cfg) (find : List Bytes → Bytes → Timed.Found) (h : find ∈ stdSearches) (s : RRSet) (out : Bytes)
    (ho : s.toBytes cfg (fun l x => (find l x).pos) = .ok out) :
    (Timed.setBytes cfg find s).2.steps ≤
      (Nat.log2 s.records.length + 5) * out.length + s.records.length * s.records.length + s.name.toBytes.length := by
  rw [← C122_same] at ho
  rw [Timed.setBytes] at ho ⊢
  cases hc : (Timed.collect cfg find s.records []).1 with
  | ok bins =>
    rw [hc] at ho
    have h1 := Timed.collect_steps (stdSearches_fast h) s.records.length s.records [] bins (by simp) hc
    rw [Timed.collect_fst] at hc
    have h2 := Timed.collect_total_length _ _ _ hc
    have ho := Res.ok.inj ho
    have h3 := congrArg List.length ho
    rw [foldl_length] at h3
    have h4 : ∀ bs : List Bytes, Timed.total bs + 11 * bs.length ≤ (bs.map (fun b => (s.recordBytes b).length)).sum ∧
        (bs.map (fun b => (s.recordBytes b).length + 1)).sum =
          (bs.map (fun b => (s.recordBytes b).length)).sum + bs.length := by
      intro bs
      have hn : 1 ≤ s.name.toBytes.length := by
        have : ∀ n : Fqdn, 1 ≤ n.toBytes.length := by
          intro n
          simp [Fqdn.toBytes]
        exact this _
      induction bs with
      | nil => simp [Timed.total]
      | cons b bs ih =>
        simp only [Timed.total, List.map_cons, List.sum_cons, List.length_cons] at ih ⊢
        have : (s.recordBytes b).length = s.name.toBytes.length + 10 + b.length := by
          simp [RRSet.recordBytes, u16be, u32be]; omega
        omega
    obtain ⟨h5, h6⟩ := h4 bins
    have h7 : Timed.total ([] : List Bytes) = 0 := rfl
    simp only [List.length_nil, Nat.zero_add, Nat.add_zero] at h2 h3
    rw [h7] at h1
    dsimp only
    rw [h6]
    generalize Nat.log2 s.records.length = g at *
    have h8 : (g + 3) * (Timed.total bins + 2 * s.records.length) ≤ (g + 3) * out.length :=
      Nat.mul_le_mul_left _ (by omega)
    have e1 : (g + 5) * out.length = (g + 3) * out.length + 2 * out.length := by ring
    omega
  | err e => rw [hc] at ho; cases ho
  | panic k => rw [hc] at ho; cases ho
  | hang => rw [hc] at ho; cases ho

/-- The mail exchangers with the preferences below `m`, the greatest first. -/
def mxDown : Nat → List RecordData
  | 0 => []
  | m + 1 => .MX ⟨UInt16.ofNat m, []⟩ :: mxDown m

theorem mxDown_length (m : Nat) : (mxDown m).length = m := by
  induction m with
  | zero => rfl
  | succ m ih => rw [mxDown, List.length_cons, ih]

/-- The data of a mail exchanger. -/
def mxData (i : Nat) : Bytes := u16be (UInt16.ofNat i) ++ [0]

theorem mxData_lt {i j : Nat} (h : i < j) (hj : j < 65536) : OctetLe (mxData i) (mxData j) ∧ ¬ OctetLe (mxData j) (mxData i) := by
  have e : ∀ i : Nat, i < 65536 → mxData i = [UInt8.ofNat (i / 256), UInt8.ofNat i, 0] := by
    intro i hi
    have h1 : (UInt16.ofNat i).toNat = i := by simp; omega
    simp [mxData, u16be, toBE, h1]
  have h1 : OctetLe (mxData i) (mxData j) := by
    rw [e i (by omega), e j hj]
    simp only [octetLe_cons]
    by_cases hq : i / 256 = j / 256
    · right
      refine ⟨by rw [hq], .inl ?_⟩
      rw [UInt8.lt_iff_toNat_lt]; simp; omega
    · left
      rw [UInt8.lt_iff_toNat_lt]; simp; omega
  refine ⟨h1, fun h2 => ?_⟩
  have h3 := octetLe_antisymm h1 h2
  rw [e i (by omega), e j hj] at h3
  simp only [List.cons.injEq] at h3
  have h4 := congrArg UInt8.toNat h3.1
  have h5 := congrArg UInt8.toNat h3.2.1
  simp at h4 h5
  omega

theorem mxDown_steps (cfg : Cfg) (find : List Bytes → Bytes → Timed.Found)
    (hv : Search.Valid (fun l x => (find l x).pos)) : ∀ (m : Nat) (acc : List Bytes), m ≤ 65536 →
    acc.Pairwise OctetLe → (∀ y ∈ acc, ∃ j, m ≤ j ∧ j < 65536 ∧ y = mxData j) →
    2 * (m * acc.length) + m * m ≤ 2 * (Timed.collect cfg find (mxDown m) acc).2.steps := by
  intro m
  induction m with
  | zero => intros; omega
  | succ m ih =>
    intro acc hm hs ha
    have hb : (RecordData.MX ⟨UInt16.ofNat m, []⟩).toBytes cfg = .ok (mxData m) := rfl
    have hp : (find acc (mxData m)).pos = 0 := by
      obtain ⟨h1, h2, _⟩ := hv acc (mxData m) (by simpa only [bytesLe_iff] using hs)
      by_contra hne
      obtain ⟨y, ys, rfl⟩ : ∃ y ys, acc = y :: ys := by
        cases acc with
        | nil => simp only [List.length_nil] at h1; omega
        | cons y ys => exact ⟨y, ys, rfl⟩
      obtain ⟨j, j1, j2, rfl⟩ := ha y (by simp)
      have := h2 (mxData j) (by
        dsimp only
        rw [← Nat.succ_pred_eq_of_ne_zero hne, List.take_succ_cons]
        exact List.mem_cons_self)
      rw [bytesLe_iff] at this
      exact (mxData_lt (by omega) j2).2 this
    rw [mxDown, Timed.collect, hb]
    dsimp only
    rw [hp]
    have h1 := ih (RRSet.vecInsert acc 0 (mxData m)) (by omega) (by
        rw [RRSet.vecInsert, List.take_zero, List.nil_append, List.drop_zero, List.pairwise_cons]
        refine ⟨fun y hy => ?_, hs⟩
        obtain ⟨j, j1, j2, rfl⟩ := ha y hy
        exact (mxData_lt (by omega) j2).1) (by
        intro y hy
        rw [RRSet.vecInsert, List.take_zero, List.nil_append, List.drop_zero] at hy
        rcases List.mem_cons.mp hy with rfl | hy
        · exact ⟨m, by omega, by omega, rfl⟩
        · obtain ⟨j, j1, j2, rfl⟩ := ha y hy
          exact ⟨j, by omega, j2, rfl⟩)
    rw [Timed.vecInsert_length] at h1
    have e1 : 2 * (m * (acc.length + 1)) = 2 * (m * acc.length) + 2 * m := by ring
    have e2 : 2 * ((m + 1) * acc.length) = 2 * (m * acc.length) + 2 * acc.length := by ring
    have e3 : (m + 1) * (m + 1) = m * m + 2 * m + 1 := by ring
    omega

/-- C122: the growth with the square of the number of records is reached, with every search that does what is
documented: `m` mail exchangers of the root, the greatest preference first, are written in `14 * m` octets and not less
than `m * m / 2` steps, for every `m` up to 65536. -/
theorem C122_reached (cfg : Cfg) (find : List Bytes → Bytes → Timed.Found)
    (hv : Search.Valid (fun l x => (find l x).pos)) (m : Nat) (hm : m ≤ 65536) :
    ∃ (s : RRSet) (out : Bytes), s.records.length = m ∧ s.toBytes cfg (fun l x => (find l x).pos) = .ok out ∧
      out.length = 14 * m ∧ m * m ≤ 2 * (Timed.setBytes cfg find s).2.steps := by
  have hw : ∀ (m : Nat), ∀ r ∈ mxDown m, ∃ b, r.toBytes cfg = .ok b ∧ b.length = 3 := by
    intro m
    induction m with
    | zero => intro r hr; exact absurd hr List.not_mem_nil
    | succ m ih =>
      intro r hr
      rcases List.mem_cons.mp hr with rfl | hr
      · exact ⟨_, rfl, rfl⟩
      · exact ih r hr
  let s : RRSet := ⟨[], .MX, .IN, 0, mxDown m⟩
  obtain ⟨out, ho⟩ := C48_written cfg (fun l x => (find l x).pos) s
    (fun r hr => let ⟨b, hb, _⟩ := hw m r hr; ⟨b, hb⟩)
  refine ⟨s, out, mxDown_length m, ho, ?_, ?_⟩
  · obtain ⟨bins, hb, ho⟩ := Res.bind_ok.mp (by rw [RRSet.toBytes] at ho; exact ho)
    have ho := Res.ok.inj ho
    have h1 := Timed.collect_total_length _ _ _ hb
    obtain ⟨_, h2⟩ := collect_spec hv _ _ _ .nil hb
    have h3 : ∀ b ∈ bins, b.length = 3 := by
      intro b hb
      have := h2.mem_iff.mp (List.mem_map_of_mem hb)
      rw [List.map_nil, List.append_nil] at this
      obtain ⟨r, hr, hrb⟩ := List.mem_map.mp this
      obtain ⟨b', hb', hl⟩ := hw m r hr
      rw [hb'] at hrb
      rw [← Res.ok.inj hrb, hl]
    rw [← ho, foldl_length]
    have h4 : ∀ bs : List Bytes, (∀ b ∈ bs, b.length = 3) →
        (bs.map (fun b => (s.recordBytes b).length)).sum = 14 * bs.length := by
      intro bs
      induction bs with
      | nil => intro _; rfl
      | cons b bs ih =>
        intro h
        have := h b (by simp)
        rw [List.map_cons, List.sum_cons, ih (fun x hx => h x (by simp [hx])), List.length_cons]
        have : (s.recordBytes b).length = 14 := by
          have e : s.name.toBytes = [0] := rfl
          simp [RRSet.recordBytes, u16be, u32be, this, e]
        omega
    rw [h4 bins h3, h1]
    have : s.records.length = m := mxDown_length m
    simp [this]
  · have h1 := mxDown_steps cfg find hv m [] hm .nil (by simp)
    have h2 : (Timed.collect cfg find (mxDown m) []).2.steps ≤ (Timed.setBytes cfg find s).2.steps := by
      have e : s.records = mxDown m := rfl
      rw [Timed.setBytes, e]
      cases (Timed.collect cfg find (mxDown m) []).1 with
      | ok bins => dsimp only; omega
      | err e => exact Nat.le_refl _
      | panic k => exact Nat.le_refl _
      | hang => exact Nat.le_refl _
    simp only [List.length_nil, Nat.mul_zero, Nat.zero_add] at h1
    omega

/-- Non-vacuity: four mail exchangers, two of them twice; 4 and 6 comparisons, 114 and 123 steps. -/
example : let s : RRSet := ⟨[[97]], .MX, .IN, 60, [.MX ⟨2, []⟩, .MX ⟨1, []⟩, .MX ⟨2, []⟩, .MX ⟨1, []⟩]⟩
    (Timed.setBytes ⟨true, true, true⟩ Timed.halving s).2 = ⟨4, 114⟩ ∧
    (Timed.setBytes ⟨true, true, true⟩ Timed.narrowing s).2 = ⟨6, 123⟩ := by decide +kernel

end Dns
