import Verif.Lemmas.Names

/-! When `extract_fqdn` does not end, when it panics, and how long its names are. -/

namespace Dns
open Spec Buf

theorem step_move {d : Bytes} {s s' : FqdnState} (h : fqdnStep d s = .inl s') :
    Move d (s.pos, s.org) (s'.pos, s'.org) := by
  have hs := stepCase d s
  rw [h] at hs
  cases hs with
  | jump hi lo a b c => exact .pointer b a c
  | label len l a b c e =>
    have := e.le
    have := Move.label (d := d) (o := s.org) (octets_cons_getElem? e) b a (by omega)
    rwa [← c] at this

theorem move_step {d : Bytes} {p q : Nat} {o o' : Option Nat} (ls : Fqdn)
    (h : Move d (p, o) (q, o')) : ∃ ls', fqdnStep d ⟨p, ls, o⟩ = .inl ⟨q, ls', o'⟩ := by
  cases h with
  | @label _ _ len h1 h2 h3 h4 =>
    have hl : ((d.drop (p + 1)).take len.toNat).length = len.toNat := by simp; omega
    have := step_label (d := d) (s := ⟨p, ls, o⟩) (len := len)
      (l := (d.drop (p + 1)).take len.toNat) h2 h3 hl (by
        rw [show len :: (d.drop (p + 1)).take len.toNat
          = [len] ++ (d.drop (p + 1)).take len.toNat from rfl]
        exact octets_append.mpr ⟨p + 1, octets_of_getElem? h1,
          octets_iff.mpr ⟨rfl, by dsimp only; omega, by rw [hl]⟩⟩)
    rw [hl] at this
    exact ⟨_, this⟩
  | pointer h1 h2 h3 => exact ⟨_, step_jump (s := ⟨p, ls, o⟩) h2 h1 h3⟩

theorem loop_none_of_cycle {d : Bytes} {f : Nat → Reader} (hf : ∀ n, Move d (f n) (f (n + 1))) :
    ∀ (k n : Nat) (ls : Fqdn), fqdnLoop d k ⟨(f n).1, ls, (f n).2⟩ = none := by
  intro k
  induction k with
  | zero => intros; rfl
  | succ k ih =>
    intro n ls
    obtain ⟨ls', h⟩ := move_step (p := (f n).1) (o := (f n).2) (q := (f (n+1)).1)
      (o' := (f (n+1)).2) ls (hf n)
    rw [fqdnLoop_succ, h]
    exact ih (n + 1) ls'

/-- The loop state after `n` iterations, if it has not ended. -/
def iter (d : Bytes) (s : FqdnState) : Nat → FqdnState
  | 0 => s
  | n + 1 =>
    match fqdnStep d (iter d s n) with
    | .inl s' => s'
    | .inr _ => iter d s n

theorem loop_none_iter {d : Bytes} : ∀ (k n : Nat) (s : FqdnState),
    (∀ k, fqdnLoop d k s = none) → fqdnLoop d k (iter d s n) = none := by
  intro k n
  induction n generalizing k with
  | zero => intro s h; exact h k
  | succ n ih =>
    intro s h
    have h1 := ih (k + 1) s h
    rw [fqdnLoop_succ] at h1
    rw [iter]
    split at h1
    · cases h1
    · rename_i s' hs
      rw [hs]
      exact h1

theorem cycle_of_loop_none {d : Bytes} {i : Nat}
    (h : ∀ k, fqdnLoop d k ⟨i, [], none⟩ = none) : Cycle d i := by
  refine ⟨fun n => ((iter d ⟨i, [], none⟩ n).pos, (iter d ⟨i, [], none⟩ n).org), rfl, ?_⟩
  intro n
  have h1 := loop_none_iter 1 n _ h
  rw [fqdnLoop_succ] at h1
  split at h1
  · cases h1
  · rename_i s' hs
    have := step_move hs
    simp only [iter, hs]
    exact this

theorem extractFqdn_hang {d : Bytes} {i : Nat} :
    (extractFqdn d i).1 = .hang ↔ Cycle d i := by
  unfold extractFqdn
  constructor
  · intro h
    apply cycle_of_loop_none
    intro k
    by_contra hc
    obtain ⟨r, hr⟩ := Option.ne_none_iff_exists'.mp hc
    rw [fqdnLoop_fuel hr] at h
    have : ∀ (k : Nat) (s : FqdnState) (r : Res Fqdn × Nat), fqdnLoop d k s = some r → r.1 ≠ .hang := by
      intro k
      induction k with
      | zero => intro s r h; cases h
      | succ k ih =>
        intro s r h
        rw [fqdnLoop_succ] at h
        have hs := stepCase d s
        split at h
        · rename_i r' hr'
          rw [hr'] at hs
          cases h
          cases hs <;> simp
        · exact ih _ _ h
    exact this _ _ _ hr h
  · rintro ⟨f, h0, hf⟩
    have := loop_none_of_cycle hf (fqdnFuel d) 0 []
    rw [h0] at this
    rw [this]

theorem loop_panic {d : Bytes} {i : Nat} : ∀ (k : Nat) (s : FqdnState) (e : PanicKind) (j : Nat),
    Visits d i (s.pos, s.org) → fqdnLoop d k s = some (.panic e, j) →
    ∃ p o, Visits d i (p, o) ∧ Stuck d p := by
  intro k
  induction k with
  | zero => intro s e j _ h; cases h
  | succ k ih =>
    intro s e j hv h
    rw [fqdnLoop_succ] at h
    have hs := stepCase d s
    rcases hy : fqdnStep d s with s' | r
    · rw [hy] at h
      exact ih s' e j (.move hv (step_move hy)) h
    · rw [hy] at h hs
      cases h
      cases hs with
      | outside h0 => exact ⟨_, _, hv, .inl (by simpa using h0)⟩
      | slice len a b c e => exact ⟨_, _, hv, .inr ⟨len, a, c, b, e.symm⟩⟩

theorem visits_loop {d : Bytes} {i : Nat} {s : Reader} (hv : Visits d i s) :
    ∀ k (r : Res Fqdn × Nat) , (∀ ls, ∃ r', fqdnLoop d k ⟨s.1, ls, s.2⟩ = some r' ∧ r'.1.isPanic = r.1.isPanic) →
    ∃ m, ∀ ls, ∃ r', fqdnLoop d m ⟨i, ls, none⟩ = some r' ∧ r'.1.isPanic = r.1.isPanic := by
  induction hv with
  | start => intro k r h; exact ⟨k, h⟩
  | @move s t _ hm ih =>
    intro k r h
    refine ih (k + 1) r ?_
    intro ls
    obtain ⟨ls', h1⟩ := move_step (p := s.1) (o := s.2) (q := t.1) (o' := t.2) ls hm
    rw [fqdnLoop_succ, h1]
    exact h ls'

theorem extractFqdn_panic {d : Bytes} {i : Nat} :
    (extractFqdn d i).1.isPanic = true ↔ ∃ p o, Visits d i (p, o) ∧ Stuck d p := by
  constructor
  · intro h
    unfold extractFqdn at h
    split at h
    · rename_i r hr
      obtain ⟨r, j⟩ := r
      cases r with
      | panic e => exact loop_panic _ _ e j .start hr
      | ok => simp [Res.isPanic] at h
      | err => simp [Res.isPanic] at h
      | hang => simp [Res.isPanic] at h
    · simp [Res.isPanic] at h
  · rintro ⟨p, o, hv, hs⟩
    have h1 : ∀ ls, ∃ r', fqdnLoop d 1 ⟨p, ls, o⟩ = some r' ∧ r'.1.isPanic =
        ((.panic .index, 0) : Res Fqdn × Nat).1.isPanic := by
      intro ls
      rcases hs with hs | ⟨len, a, b, c, e⟩
      · refine ⟨(.panic .index, p), ?_, rfl⟩
        simp [fqdnLoop_succ, fqdnStep, List.getElem?_eq_none hs]
      · refine ⟨(.panic .index, p + 1), ?_, rfl⟩
        rw [fqdnLoop_succ]
        unfold fqdnStep
        simp only [a]
        rw [if_neg (by rw [and_c0_iff]; omega), if_neg (by omega),
          if_neg (by rw [u8_eq_zero_iff]; omega), if_pos (by omega)]
    obtain ⟨m, hm⟩ := visits_loop hv 1 (.panic .index, 0) h1
    obtain ⟨r', h2, h3⟩ := hm []
    unfold extractFqdn
    rw [fqdnLoop_fuel h2]
    simpa [Res.isPanic] using h3

/-! ## Number of labels -/

theorem codeName_with {d : Bytes} {i j : Nat} {n : Fqdn} (h : CodeName d i n j) :
    ∃ o k, NameWith 191 (fun _ t => t < o) d i n k := by
  induction h with
  | root h => exact ⟨0, _, .root h⟩
  | label h1 h2 h3 h4 _ ih =>
    obtain ⟨o, k, h⟩ := ih
    exact ⟨o, k, .label h1 h2 h3 h4 h⟩
  | pointer h1 h2 h3 h4 => exact ⟨_, _, .pointer h1 h2 h3 h4⟩

theorem loop_labels_le {d : Bytes} {o : Nat} : ∀ (v pos : Nat) (acc n : Fqdn) (j : Nat),
    fqdnLoop d v ⟨pos, acc, some o⟩ = some (.ok n, j) → n.length + 1 ≤ acc.length + v := by
  intro v
  induction v with
  | zero => intro pos acc n j h; cases h
  | succ v ih =>
    intro pos acc n j h
    rw [fqdnLoop_succ] at h
    have hs := stepCase d ⟨pos, acc, some o⟩
    revert h hs
    generalize fqdnStep d ⟨pos, acc, some o⟩ = y
    intro h hs
    cases hs with
    | outside => simp at h
    | cut => simp at h
    | refused => simp at h
    | long => simp at h
    | slice => simp at h
    | zero h0 =>
      simp only [Option.some.injEq, Prod.mk.injEq, Res.ok.injEq] at h
      rw [← h.1]; omega
    | jump hi lo h1 h2 h3 =>
      have := ih _ _ _ _ h
      dsimp only at this
      omega
    | label len l h1 h2 h3 h4 =>
      have := ih _ _ _ _ h
      simp only [List.length_append, List.length_singleton] at this
      omega

theorem codeName_labels {d : Bytes} {i j : Nat} {n : Fqdn} (h : CodeName d i n j) :
    n.length ≤ d.length := by
  obtain ⟨o, k, h⟩ := codeName_with h
  obtain ⟨fuel, hf⟩ := loop_complete_after h []
  have h1 := ends_after (by rw [hf]; rfl)
  obtain ⟨r, hr⟩ := Option.isSome_iff_exists.mp h1
  have e1 := fqdnLoop_mono _ _ hf (max fuel (d.length + 1)) (by omega)
  have e2 := fqdnLoop_mono _ _ hr (max fuel (d.length + 1)) (by omega)
  rw [e1] at e2
  rw [← e2] at hr
  have := loop_labels_le _ _ _ _ _ hr
  simp at this
  exact this

/-! ## The specification reads one name at most -/

theorem nameWith_unique {m1 m2 : Nat} {a1 a2 : Nat → Nat → Prop} (hm1 : m1 ≤ 191) (hm2 : m2 ≤ 191)
    {d : Bytes} {i j1 : Nat} {n1 : Fqdn} (h1 : NameWith m1 a1 d i n1 j1) :
    ∀ {j2 : Nat} {n2 : Fqdn}, NameWith m2 a2 d i n2 j2 → n1 = n2 ∧ j1 = j2 := by
  induction h1 with
  | root h =>
    intro j2 n2 h2
    cases h2 with
    | root => exact ⟨rfl, rfl⟩
    | label a b c e =>
      have := octets_cons_getElem? e
      rw [h] at this
      cases this
      simp at a
    | pointer a b =>
      have := octets_cons_getElem? b
      rw [h] at this
      cases this
      simp at a
  | label a b c e _ ih =>
    intro j2 n2 h2
    have hx := octets_cons_getElem? e
    cases h2 with
    | root h =>
      rw [h] at hx
      cases hx
      simp at a
    | label a' b' c' e' f' =>
      have hx' := octets_cons_getElem? e'
      rw [hx] at hx'
      cases hx'
      have hl := e.inj e' (by simp [c, c'])
      cases hl
      obtain ⟨rfl, rfl⟩ := ih f'
      exact ⟨rfl, rfl⟩
    | pointer a' b' =>
      have hx' := octets_cons_getElem? b'
      rw [hx] at hx'
      cases hx'
      omega
  | pointer a b c _ ih =>
    intro j2 n2 h2
    have hx := octets_cons_getElem? b
    cases h2 with
    | root h =>
      rw [h] at hx
      cases hx
      simp at a
    | label a' b' c' e' f' =>
      have hx' := octets_cons_getElem? e'
      rw [hx] at hx'
      cases hx'
      omega
    | pointer a' b' c' f' =>
      have hl := b.inj b' rfl
      cases hl
      obtain ⟨rfl, -⟩ := ih f'
      exact ⟨rfl, rfl⟩

theorem nameWith_mono {m1 m2 : Nat} {a1 a2 : Nat → Nat → Prop} (hm : m1 ≤ m2)
    (ha : ∀ p t, a1 p t → a2 p t) {d : Bytes} {i j : Nat} {n : Fqdn}
    (h : NameWith m1 a1 d i n j) : NameWith m2 a2 d i n j := by
  induction h with
  | root h => exact .root h
  | label a b c e _ ih => exact .label a (by omega) c e ih
  | pointer a b c _ ih => exact .pointer a b (ha _ _ c) ih

theorem nameWith_short {m1 m2 : Nat} {a : Nat → Nat → Prop}
    {d : Bytes} {i j : Nat} {n : Fqdn} (h : NameWith m1 a d i n j)
    (hs : ∀ l ∈ n, l.length ≤ m2) : NameWith m2 a d i n j := by
  induction h with
  | root h => exact .root h
  | label a b c e _ ih =>
    have h1 := hs _ List.mem_cons_self
    exact .label a (by omega) c e (ih fun l hl => hs l (List.mem_cons_of_mem _ hl))
  | pointer a b c _ ih => exact .pointer a b c (ih hs)

theorem codeName_nameWith {d : Bytes} {i j : Nat} {n : Fqdn} (h : CodeName d i n j) :
    NameWith 191 (fun _ _ => True) d i n j := by
  induction h with
  | root h => exact .root h
  | label a b c e _ ih => exact .label a b c e ih
  | pointer a b _ h => exact .pointer a b trivial (nameWith_mono le_rfl (fun _ _ _ => trivial) h)

theorem legalName_codeName {d : Bytes} {i j : Nat} {n : Fqdn} (h : LegalName d i n j) :
    CodeName d i n j := by
  induction h with
  | root h => exact .root h
  | label a b c e _ ih => exact .label a (by omega) c e ih
  | pointer a b c h =>
    exact .pointer a b (by omega) (nameWith_mono (by omega) (fun _ t ht => by omega) h)

/-- Labels in place, as a chain. -/
theorem codeName_shape {d : Bytes} {i j : Nat} {n : Fqdn} (h : CodeName d i n j) :
    (LabelsAt d i n (j - 1) ∧ d[j - 1]? = some 0 ∧ i < j) ∨
    ∃ ls rest p hi lo k, n = ls ++ rest ∧ LabelsAt d i ls p ∧ j = p + 2 ∧
      Octets d p [hi, lo] (p + 2) ∧ 192 ≤ hi.toNat ∧ (hi.toNat - 192) * 256 + lo.toNat < p + 1 ∧
      NameWith 191 (fun _ t => t < p + 1) d ((hi.toNat - 192) * 256 + lo.toNat) rest k := by
  induction h with
  | @root i h =>
    left
    have := getElem?_lt h
    refine ⟨⟨by simp, ?_⟩, by simpa using h, by omega⟩
    exact octets_iff.mpr ⟨rfl, by simp; omega, by simp⟩
  | @label i j ls len l a b c e _ ih =>
    have hlen : UInt8.ofNat l.length = len := by rw [c]; simp
    have key : ∀ {ls' : Fqdn} {p : Nat}, LabelsAt d (i + 1 + l.length) ls' p →
        LabelsAt d i (l :: ls') p := by
      intro ls' p hh
      refine ⟨?_, ?_⟩
      · intro x hx
        rcases List.mem_cons.mp hx with rfl | hx
        · omega
        · exact hh.1 x hx
      · simp only [List.map_cons, List.flatten_cons, hlen]
        exact octets_append.mpr ⟨_, e, hh.2⟩
    rcases ih with ⟨h1, h2, h3⟩ | ⟨ls', rest, p, hi, lo, k, h1, h2, h3⟩
    · exact .inl ⟨key h1, h2, by omega⟩
    · exact .inr ⟨l :: ls', rest, p, hi, lo, k, by simp [h1], key h2, h3⟩
  | @pointer i k ls hi lo a b c h =>
    right
    refine ⟨[], ls, i, hi, lo, k, rfl, ⟨by simp, ?_⟩, rfl, b, a, c, h⟩
    have := b.le
    exact octets_iff.mpr ⟨by simp, by omega, by simp⟩

theorem labelsAt_loop {d : Bytes} {p : Nat} : ∀ (ls : Fqdn) (i fuel : Nat) (acc : Fqdn),
    LabelsAt d i ls p →
    fqdnLoop d (ls.length + fuel) ⟨i, acc, none⟩ = fqdnLoop d fuel ⟨p, acc ++ ls, none⟩ := by
  intro ls
  induction ls with
  | nil =>
    intro i fuel acc h
    have := h.2.end_eq
    simp at this
    simp [this]
  | cons l ls ih =>
    intro i fuel acc h
    obtain ⟨h1, h2⟩ := h
    have hl := h1 l List.mem_cons_self
    simp only [List.map_cons, List.flatten_cons] at h2
    obtain ⟨k, h3, h4⟩ := octets_append.mp h2
    have hk := h3.end_eq
    simp only [List.length_cons] at hk
    have hk' : k = i + 1 + l.length := by omega
    subst hk'
    have hn : (UInt8.ofNat l.length).toNat = l.length := by simp; omega
    rw [List.length_cons, show ls.length + 1 + fuel = (ls.length + fuel) + 1 by omega,
      fqdnLoop_succ, step_label (s := ⟨i, acc, none⟩) (by omega) (by omega) hn.symm h3]
    dsimp only
    rw [ih _ fuel (acc ++ [l]) ⟨fun x hx => h1 x (List.mem_cons_of_mem _ hx), h4⟩]
    simp

end Dns
