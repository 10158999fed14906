import Verif.Model.TimedSet
import Verif.Lemmas.RRSet

/-! The searches of Model/TimedSet.lean and what they cost. -/

namespace Dns
open Spec
namespace Timed

theorem comparing_le (a b : Bytes) : comparing a b ≤ b.length + 1 := by
  induction a generalizing b with
  | nil => simp [comparing]
  | cons x a ih =>
    cases b with
    | nil => simp [comparing]
    | cons y b =>
      rw [comparing]
      have := ih b
      simp only [List.length_cons]
      split <;> omega

theorem getD_sorted {l : List Bytes} (hs : l.Pairwise OctetLe) {i j : Nat} (hij : i ≤ j) (hj : j < l.length) :
    OctetLe (l.getD i []) (l.getD j []) := by
  rw [List.getD_eq_getElem _ _ (by omega), List.getD_eq_getElem _ _ hj]
  rcases Nat.eq_or_lt_of_le hij with rfl | h
  · exact Or.inr rfl
  · exact List.pairwise_iff_getElem.mp hs i j (by omega) hj h

theorem octetLe_of_lt {a b : Bytes} (h : Fqdn.cmpBytes a b = .lt) : OctetLe a b :=
  (bytesLe_iff a b).mp (by simp [bytesLe, h])

theorem octetLe_of_eq {a b : Bytes} (h : Fqdn.cmpBytes a b = .eq) : OctetLe a b :=
  (bytesLe_iff a b).mp (by simp [bytesLe, h])

theorem octetLe_of_gt {a b : Bytes} (h : Fqdn.cmpBytes a b = .gt) : OctetLe b a :=
  (octetLe_total a b).resolve_left (fun h1 => by
    have := (bytesLe_iff a b).mpr h1
    simp [bytesLe, h] at this)

theorem octetLe_of_eq' {a b : Bytes} (h : Fqdn.cmpBytes a b = .eq) : OctetLe b a :=
  Or.inr ((cmpBytes_eq a b).mp h).symm

/-- A position that parts what is not greater from what is not less. -/
def Parts (l : List Bytes) (x : Bytes) (p : Nat) : Prop :=
  p ≤ l.length ∧ (∀ i < p, OctetLe (l.getD i []) x) ∧ ∀ i, p ≤ i → i < l.length → OctetLe x (l.getD i [])

theorem halvingLoop_parts {l : List Bytes} (hs : l.Pairwise OctetLe) (x : Bytes) (left right : Nat) :
    left ≤ right → right ≤ l.length → (∀ i < left, OctetLe (l.getD i []) x) →
    (∀ i, right ≤ i → i < l.length → OctetLe x (l.getD i [])) → Parts l x (halvingLoop l x left right).pos := by
  induction left, right using halvingLoop.induct l x with
  | case1 left right h mid hc ih =>
    intro h1 h2 h3 h4
    rw [halvingLoop, if_pos h]
    simp only [mid] at hc ih
    simp only [hc]
    refine ih (by omega) h2 (fun i hi => ?_) h4
    exact octetLe_trans (getD_sorted hs (Nat.lt_succ_iff.mp hi) (by omega)) (octetLe_of_lt hc)
  | case2 left right h mid hc ih =>
    intro h1 h2 h3 h4
    rw [halvingLoop, if_pos h]
    simp only [mid] at hc ih
    simp only [hc]
    refine ih (by omega) (by omega) h3 (fun i hi hi2 => ?_)
    exact octetLe_trans (octetLe_of_gt hc) (getD_sorted hs hi hi2)
  | case3 left right h mid hc =>
    intro h1 h2 h3 h4
    rw [halvingLoop, if_pos h]
    simp only [mid] at hc
    simp only [hc]
    refine ⟨by omega, fun i hi => ?_, fun i hi hi2 => ?_⟩
    · exact octetLe_trans (getD_sorted hs (Nat.le_of_lt hi) (by omega)) (octetLe_of_eq hc)
    · exact octetLe_trans (octetLe_of_eq' hc) (getD_sorted hs hi hi2)
  | case4 left right h =>
    intro h1 h2 h3 h4
    rw [halvingLoop, if_neg h]
    exact ⟨by dsimp only; omega, h3, fun i hi hi2 => h4 i (by dsimp only at hi; omega) hi2⟩

theorem narrowingLoop_parts {l : List Bytes} (hs : l.Pairwise OctetLe) (x : Bytes) (base size : Nat) :
    1 ≤ size → base + size ≤ l.length → (∀ i < base, OctetLe (l.getD i []) x) →
    (∀ i, base + size ≤ i → i < l.length → OctetLe x (l.getD i [])) →
    Parts l x (narrowingLoop l x base size).pos := by
  induction base, size using narrowingLoop.induct l x with
  | case1 base size h mid hc ih =>
    intro h1 h2 h3 h4
    rw [narrowingLoop, if_pos h]
    simp only [mid] at hc
    simp only [hc]
    refine ih (by omega) (by omega) h3 (fun i hi hi2 => ?_)
    exact octetLe_trans (octetLe_of_gt hc) (getD_sorted hs (by omega) hi2)
  | case2 base size h mid hc ih =>
    intro h1 h2 h3 h4
    rw [narrowingLoop, if_pos h]
    simp only [mid] at hc ih
    have hle : OctetLe (l.getD (base + size / 2) []) x := by
      cases hcc : Fqdn.cmpBytes (l.getD (base + size / 2) []) x with
      | lt => exact octetLe_of_lt hcc
      | eq => exact octetLe_of_eq hcc
      | gt => exact absurd hcc hc
    have := ih (by omega) (by omega) (fun i hi => octetLe_trans (getD_sorted hs (Nat.le_of_lt hi) (by omega)) hle)
      (fun i hi hi2 => h4 i (by omega) hi2)
    cases hcc : Fqdn.cmpBytes (l.getD (base + size / 2) []) x with
    | lt => simp only [hcc]; exact this
    | eq => simp only [hcc]; exact this
    | gt => exact absurd hcc hc
  | case3 base size h hc =>
    intro h1 h2 h3 h4
    rw [narrowingLoop, if_neg h]
    simp only [hc]
    refine ⟨by omega, fun i hi => ?_, fun i hi hi2 => h4 i (by omega) hi2⟩
    exact octetLe_trans (getD_sorted hs (Nat.lt_succ_iff.mp hi) (by omega)) (octetLe_of_lt hc)
  | case4 base size h hc =>
    intro h1 h2 h3 h4
    rw [narrowingLoop, if_neg h]
    have hle : OctetLe x (l.getD base []) := by
      cases hcc : Fqdn.cmpBytes (l.getD base []) x with
      | lt => exact absurd hcc hc
      | eq => exact octetLe_of_eq' hcc
      | gt => exact octetLe_of_gt hcc
    have : Parts l x base :=
      ⟨by omega, h3, fun i hi hi2 => octetLe_trans hle (getD_sorted hs hi hi2)⟩
    cases hcc : Fqdn.cmpBytes (l.getD base []) x with
    | lt => exact absurd hcc hc
    | eq => exact this
    | gt => exact this

theorem parts_valid {find : List Bytes → Bytes → Found}
    (h : ∀ l x, l.Pairwise OctetLe → Parts l x (find l x).pos) : Search.Valid (fun l x => (find l x).pos) := by
  intro l x hs
  simp only [bytesLe_iff] at hs ⊢
  obtain ⟨h1, h2, h3⟩ := h l x hs
  refine ⟨h1, fun y hy => ?_, fun y hy => ?_⟩
  · obtain ⟨i, hi, rfl⟩ := List.mem_iff_getElem.mp hy
    rw [List.length_take] at hi
    rw [List.getElem_take, ← List.getD_eq_getElem _ [] (by omega)]
    exact h2 i (by omega)
  · obtain ⟨i, hi, rfl⟩ := List.mem_iff_getElem.mp hy
    rw [List.length_drop] at hi
    rw [List.getElem_drop, ← List.getD_eq_getElem _ [] (by omega)]
    exact h3 _ (by omega) (by omega)

theorem halving_valid : Search.Valid (fun l x => (halving l x).pos) :=
  parts_valid (fun l x hs => halvingLoop_parts hs x 0 l.length (by omega) (by omega) (by simp) (by intros; omega))

theorem narrowing_valid : Search.Valid (fun l x => (narrowing l x).pos) := by
  refine parts_valid (fun l x hs => ?_)
  rw [narrowing]
  split
  · exact ⟨Nat.zero_le _, by simp, by intros; omega⟩
  · exact narrowingLoop_parts hs x 0 l.length (by omega) (by omega) (by simp) (by intros; omega)

theorem halvingLoop_comparisons (l : List Bytes) (x : Bytes) (k : Nat) : ∀ left right, right - left < 2 ^ k →
    (halvingLoop l x left right).comparisons ≤ k := by
  induction k with
  | zero =>
    intro left right h
    rw [halvingLoop, if_neg (by omega)]
  | succ k ih =>
    intro left right h
    rw [halvingLoop]
    rw [Nat.pow_succ] at h
    split
    · have h1 := ih (left + (right - left) / 2 + 1) right (by omega)
      have h2 := ih left (left + (right - left) / 2) (by omega)
      dsimp only
      split
      · simp only [Found.after]; omega
      · simp only [Found.after]; omega
      · dsimp only; omega
    · exact Nat.zero_le _

theorem narrowingLoop_comparisons (l : List Bytes) (x : Bytes) (k : Nat) : ∀ base size, size ≤ 2 ^ k →
    (narrowingLoop l x base size).comparisons ≤ k + 1 := by
  induction k with
  | zero =>
    intro base size h
    rw [narrowingLoop, if_neg (by omega)]
    split <;> exact Nat.le_refl 1
  | succ k ih =>
    intro base size h
    rw [narrowingLoop]
    rw [Nat.pow_succ] at h
    split
    · have h1 := ih base (size - size / 2) (by omega)
      have h2 := ih (base + size / 2) (size - size / 2) (by omega)
      dsimp only
      split
      · simp only [Found.after]; omega
      · simp only [Found.after]; omega
    · split
      · dsimp only; omega
      · dsimp only; omega

theorem halvingLoop_steps (l : List Bytes) (x : Bytes) (left right : Nat) :
    (halvingLoop l x left right).steps ≤ (halvingLoop l x left right).comparisons * (x.length + 2) := by
  induction left, right using halvingLoop.induct l x with
  | case1 left right h mid hc ih =>
    rw [halvingLoop, if_pos h]
    simp only [mid] at hc ih
    simp only [hc, Found.after, Nat.add_mul]
    have := comparing_le (l.getD (left + (right - left) / 2) []) x
    omega
  | case2 left right h mid hc ih =>
    rw [halvingLoop, if_pos h]
    simp only [mid] at hc ih
    simp only [hc, Found.after, Nat.add_mul]
    have := comparing_le (l.getD (left + (right - left) / 2) []) x
    omega
  | case3 left right h mid hc =>
    rw [halvingLoop, if_pos h]
    simp only [mid] at hc
    simp only [hc]
    have := comparing_le (l.getD (left + (right - left) / 2) []) x
    omega
  | case4 left right h =>
    rw [halvingLoop, if_neg h]
    exact Nat.zero_le _

theorem narrowingLoop_steps (l : List Bytes) (x : Bytes) (base size : Nat) :
    (narrowingLoop l x base size).steps ≤ (narrowingLoop l x base size).comparisons * (x.length + 2) := by
  induction base, size using narrowingLoop.induct l x with
  | case1 base size h mid hc ih =>
    rw [narrowingLoop, if_pos h]
    simp only [mid] at hc
    simp only [hc, Found.after, Nat.add_mul]
    have := comparing_le (l.getD (base + size / 2) []) x
    omega
  | case2 base size h mid hc ih =>
    rw [narrowingLoop, if_pos h]
    simp only [mid] at hc ih
    have := comparing_le (l.getD (base + size / 2) []) x
    dsimp only
    split
    · exact absurd (by assumption) hc
    · simp only [Found.after, Nat.add_mul]; omega
  | case3 base size h hc =>
    rw [narrowingLoop, if_neg h]
    have := comparing_le (l.getD base []) x
    split <;> (dsimp only; omega)
  | case4 base size h hc =>
    rw [narrowingLoop, if_neg h]
    have := comparing_le (l.getD base []) x
    split <;> (dsimp only; omega)

/-- A search that does what is documented, with few comparisons. -/
structure Fast (find : List Bytes → Bytes → Found) : Prop where
  valid : Search.Valid (fun l x => (find l x).pos)
  comparisons : ∀ l x, (find l x).comparisons ≤ Nat.log2 l.length + 2
  steps : ∀ l x, (find l x).steps ≤ (find l x).comparisons * (x.length + 2)

theorem halving_fast : Fast halving :=
  ⟨halving_valid, fun l x => by
    have := halvingLoop_comparisons l x (Nat.log2 l.length + 1) 0 l.length (by
      have := Nat.lt_log2_self (n := l.length); omega)
    unfold halving; omega, fun l x => halvingLoop_steps l x 0 l.length⟩

theorem narrowing_fast : Fast narrowing := by
  refine ⟨narrowing_valid, fun l x => ?_, fun l x => ?_⟩
  · rw [narrowing]
    split
    · exact Nat.zero_le _
    · exact narrowingLoop_comparisons l x (Nat.log2 l.length + 1) 0 l.length (by
        have := Nat.lt_log2_self (n := l.length); omega)
  · rw [narrowing]
    split
    · exact Nat.zero_le _
    · exact narrowingLoop_steps l x 0 l.length

theorem collect_fst (cfg : Cfg) (find : List Bytes → Bytes → Found) : ∀ (rs : List RecordData) (acc : List Bytes),
    (collect cfg find rs acc).1 = RRSet.collect cfg (fun l x => (find l x).pos) rs acc := by
  intro rs
  induction rs with
  | nil => intro acc; rfl
  | cons r rs ih =>
    intro acc
    rw [collect, RRSet.collect]
    cases h : r.toBytes cfg with
    | ok bin => exact ih _
    | err e => rfl
    | panic k => rfl
    | hang => rfl

theorem setBytes_fst (cfg : Cfg) (find : List Bytes → Bytes → Found) (s : RRSet) :
    (setBytes cfg find s).1 = s.toBytes cfg (fun l x => (find l x).pos) := by
  rw [setBytes, RRSet.toBytes, ← collect_fst]
  cases (collect cfg find s.records []).1 <;> rfl

theorem vecInsert_length (l : List Bytes) (p : Nat) (x : Bytes) : (RRSet.vecInsert l p x).length = l.length + 1 := by
  simp only [RRSet.vecInsert, List.length_append, List.length_take, List.length_cons, List.length_drop]
  omega

theorem log2_mono {a b : Nat} (h : a ≤ b) : Nat.log2 a ≤ Nat.log2 b := by
  rcases Nat.eq_zero_or_pos a with rfl | ha
  · simp
  · rw [Nat.le_log2 (by omega)]
    exact Nat.le_trans (Nat.log2_self_le (by omega)) h

theorem collect_comparisons {cfg : Cfg} {find : List Bytes → Bytes → Found} (hf : Fast find) (m : Nat) :
    ∀ (rs : List RecordData) (acc : List Bytes), acc.length + rs.length ≤ m →
      (collect cfg find rs acc).2.comparisons ≤ rs.length * (Nat.log2 m + 2) := by
  intro rs
  induction rs with
  | nil => intro acc _; exact Nat.zero_le _
  | cons r rs ih =>
    intro acc h
    simp only [List.length_cons] at h
    rw [collect, List.length_cons, Nat.add_mul]
    cases hb : r.toBytes cfg with
    | ok bin =>
      have h1 := ih (RRSet.vecInsert acc (find acc bin).pos bin) (by rw [vecInsert_length]; omega)
      have h2 := hf.comparisons acc bin
      have h3 := log2_mono (show acc.length ≤ m by omega)
      dsimp only
      omega
    | err e => exact Nat.zero_le _
    | panic k => exact Nat.zero_le _
    | hang => exact Nat.zero_le _

/-- Octets of the data of all records. -/
def total (bins : List Bytes) : Nat := (bins.map List.length).sum

theorem total_insert (acc : List Bytes) (p : Nat) (x : Bytes) :
    total (RRSet.vecInsert acc p x) = total acc + x.length := by
  conv_rhs => rw [← List.take_append_drop p acc]
  simp only [total, RRSet.vecInsert, List.map_append, List.sum_append, List.map_cons, List.sum_cons]
  omega

theorem collect_total_length {cfg : Cfg} {search : Search} : ∀ (rs : List RecordData) (acc bins : List Bytes),
    RRSet.collect cfg search rs acc = .ok bins → bins.length = rs.length + acc.length := by
  intro rs
  induction rs with
  | nil => intro acc bins h; cases h; simp
  | cons r rs ih =>
    intro acc bins h
    rw [RRSet.collect] at h
    obtain ⟨bin, _, h⟩ := Res.bind_ok.mp h
    have := ih _ _ h
    rw [vecInsert_length] at this
    rw [List.length_cons]; omega

theorem collect_steps {cfg : Cfg} {find : List Bytes → Bytes → Found} (hf : Fast find) (m : Nat) :
    ∀ (rs : List RecordData) (acc bins : List Bytes), acc.length + rs.length ≤ m →
      (collect cfg find rs acc).1 = .ok bins →
      (collect cfg find rs acc).2.steps + (Nat.log2 m + 3) * total acc ≤
        (Nat.log2 m + 3) * (total bins + 2 * rs.length) + rs.length * m := by
  intro rs
  induction rs with
  | nil => intro acc bins _ h; cases h; simp [collect]
  | cons r rs ih =>
    intro acc bins h
    simp only [List.length_cons] at h
    rw [collect]
    cases hb : r.toBytes cfg with
    | ok bin =>
      intro ho
      have h1 := ih (RRSet.vecInsert acc (find acc bin).pos bin) bins (by rw [vecInsert_length]; omega) ho
      have h2 := hf.comparisons acc bin
      have h3 := log2_mono (show acc.length ≤ m by omega)
      have h4 := hf.steps acc bin
      have h5 : (find acc bin).comparisons * (bin.length + 2) ≤ (Nat.log2 m + 2) * (bin.length + 2) :=
        Nat.mul_le_mul_right _ (by omega)
      rw [total_insert] at h1
      dsimp only
      rw [List.length_cons]
      generalize Nat.log2 m = g at *
      have e1 : (g + 3) * (total acc + bin.length) = (g + 3) * total acc + (g + 2) * bin.length + bin.length := by ring
      have e2 : (g + 2) * (bin.length + 2) = (g + 2) * bin.length + 2 * (g + 2) := by ring
      have e3 : (g + 3) * (total bins + 2 * (rs.length + 1)) = (g + 3) * (total bins + 2 * rs.length) + 2 * (g + 2) + 2 := by
        ring
      have e4 : (rs.length + 1) * m = rs.length * m + m := by ring
      omega
    | err e => intro ho; cases ho
    | panic k => intro ho; cases ho
    | hang => intro ho; cases ho

end Timed
end Dns
