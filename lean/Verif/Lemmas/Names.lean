import Mathlib.Data.Fintype.Card
import Mathlib.Data.Fintype.EquivFin
import Verif.Lemmas.Items
import Verif.Spec.Name

/-! `extract_fqdn`: its loop, its bound and the names it accepts. -/

namespace Dns
open Spec Buf

/-! ## Octet facts (256 cases, lifted to all octets) -/

private theorem forall_u8 {P : UInt8 → Prop} (h : ∀ n : Fin 256, P (UInt8.ofNat n.val)) (b : UInt8) :
    P b := by
  have := h ⟨b.toNat, b.toNat_lt⟩
  simpa using this

theorem and_c0_iff (b : UInt8) : b &&& 0xC0 = 0xC0 ↔ 192 ≤ b.toNat := by
  revert b
  apply forall_u8
  decide +kernel

theorem u8_eq_zero_iff (b : UInt8) : b = 0 ↔ b.toNat = 0 := by
  constructor
  · rintro rfl; rfl
  · intro h; exact UInt8.toNat_inj.mp h

theorem mask_3fff (x : UInt16) : (x &&& 0x3FFF).toNat = x.toNat % 16384 := by
  rw [UInt16.toNat_and]
  exact Nat.and_two_pow_sub_one_eq_mod x.toNat 14

theorem pointer_target (hi lo : UInt8) (h : 192 ≤ hi.toNat) :
    (UInt16.ofNat (ofBE [hi, lo]) &&& 0x3FFF).toNat = (hi.toNat - 192) * 256 + lo.toNat := by
  have h1 := hi.toNat_lt
  have h2 := lo.toNat_lt
  rw [mask_3fff, UInt16.toNat_ofNat_of_lt']
  · simp [ofBE]; omega
  · simp [ofBE, UInt16.size]; omega

/-! ## One iteration -/

/-- The octets at a position, as a two-octet read. -/
theorem take_two {d : Bytes} {i : Nat} (h : i + 2 ≤ d.length) :
    ∃ a b, (d.drop i).take 2 = [a, b] ∧ d[i]? = some a ∧ Octets d i [a, b] (i + 2) := by
  have hl : ((d.drop i).take 2).length = 2 := by simp; omega
  obtain ⟨a, b, hab⟩ := List.length_eq_two.mp hl
  refine ⟨a, b, hab, ?_, octets_iff.mpr ⟨rfl, h, by simpa using hab⟩⟩
  have : ((d.drop i).take 2)[0]? = some a := by rw [hab]; rfl
  rw [List.getElem?_take_of_lt (by omega), List.getElem?_drop] at this
  simpa using this

/-- The cases of one iteration of the loop. -/
inductive StepCase (d : Bytes) (s : FqdnState) : FqdnState ⊕ (Res Fqdn × Nat) → Prop
  | outside : d[s.pos]? = none → StepCase d s (.inr (.panic .index, s.pos))
  | cut (hi : UInt8) : d[s.pos]? = some hi → 192 ≤ hi.toNat → d.length < s.pos + 2 →
      StepCase d s (.inr (.err .lengthViolation, s.pos))
  | refused (hi lo : UInt8) : 192 ≤ hi.toNat → Octets d s.pos [hi, lo] (s.pos + 2) →
      s.org.getD (s.pos + 1) ≤ (hi.toNat - 192) * 256 + lo.toNat →
      StepCase d s (.inr (.err .unresolveableCompressionPointer, s.org.getD (s.pos + 1)))
  | jump (hi lo : UInt8) : 192 ≤ hi.toNat → Octets d s.pos [hi, lo] (s.pos + 2) →
      (hi.toNat - 192) * 256 + lo.toNat < s.org.getD (s.pos + 1) →
      StepCase d s (.inl ⟨(hi.toNat - 192) * 256 + lo.toNat, s.labels, some (s.org.getD (s.pos + 1))⟩)
  | long (len : UInt8) : d[s.pos]? = some len → len.toNat < 192 → d.length < s.pos + len.toNat →
      StepCase d s (.inr (.err .lengthViolation, s.pos))
  | zero : d[s.pos]? = some 0 → StepCase d s (.inr (.ok s.labels, s.org.getD s.pos + 1))
  | slice (len : UInt8) : d[s.pos]? = some len → len.toNat < 192 → 1 ≤ len.toNat →
      d.length = s.pos + len.toNat → StepCase d s (.inr (.panic .index, s.pos + 1))
  | label (len : UInt8) (l : Bytes) : len.toNat < 192 → 1 ≤ len.toNat → l.length = len.toNat →
      Octets d s.pos (len :: l) (s.pos + 1 + l.length) →
      StepCase d s (.inl ⟨s.pos + 1 + l.length, s.labels ++ [l], s.org⟩)

theorem getElem?_lt {d : Bytes} {i : Nat} {a : UInt8} (h : d[i]? = some a) : i < d.length := by
  by_contra hc
  rw [List.getElem?_eq_none (by omega)] at h
  cases h

theorem octets_cons_getElem? {d : Bytes} {i j : Nat} {a : UInt8} {b : Bytes}
    (h : Octets d i (a :: b) j) : d[i]? = some a := by
  obtain ⟨pre, post, rfl, rfl, -⟩ := h
  simp

theorem octets_of_getElem? {d : Bytes} {i : Nat} {a : UInt8} (h : d[i]? = some a) :
    Octets d i [a] (i + 1) := by
  have hl := getElem?_lt h
  refine octets_iff.mpr ⟨rfl, hl, ?_⟩
  rw [List.drop_eq_getElem_cons hl]
  rw [List.getElem?_eq_getElem hl] at h
  simp only [List.length_singleton, List.take_succ_cons, List.take_zero]
  rw [Option.some.inj h]

theorem stepCase (d : Bytes) (s : FqdnState) : StepCase d s (fqdnStep d s) := by
  unfold fqdnStep
  split
  · exact .outside (by assumption)
  · rename_i len hlen
    have hlt := getElem?_lt hlen
    split
    · rename_i hc
      rw [and_c0_iff] at hc
      split
      · exact .cut len hlen hc (by omega)
      · rename_i h2
        obtain ⟨a, b, hab, ha, ho⟩ := take_two (d := d) (i := s.pos) (by omega)
        obtain rfl : len = a := by rw [hlen] at ha; exact Option.some.inj ha
        simp only [hab, pointer_target len b hc]
        split
        · exact .refused len b hc ho (by assumption)
        · exact .jump len b hc ho (by omega)
    · rename_i hc
      rw [and_c0_iff] at hc
      split
      · exact .long len hlen (by omega) (by omega)
      · split
        · rename_i h0
          subst h0
          exact .zero hlen
        · rename_i h3 h0
          have h0' : 1 ≤ len.toNat := by
            rw [u8_eq_zero_iff] at h0; omega
          split
          · exact .slice len hlen (by omega) h0' (by omega)
          · have hl : ((d.drop (s.pos + 1)).take len.toNat).length = len.toNat := by simp; omega
            have := StepCase.label (d := d) (s := s) len ((d.drop (s.pos + 1)).take len.toNat)
              (by omega) h0' hl (by
                rw [show len :: (d.drop (s.pos + 1)).take len.toNat
                  = [len] ++ (d.drop (s.pos + 1)).take len.toNat from rfl]
                exact octets_append.mpr ⟨s.pos + 1, octets_of_getElem? hlen,
                  octets_iff.mpr ⟨rfl, by omega, by rw [hl]⟩⟩)
            rwa [hl] at this

theorem step_zero {d : Bytes} {s : FqdnState} (h : d[s.pos]? = some 0) :
    fqdnStep d s = .inr (.ok s.labels, s.org.getD s.pos + 1) := by
  have hlt := getElem?_lt h
  have : ¬ d.length < s.pos := by omega
  simp [fqdnStep, h, this]

theorem step_label {d : Bytes} {s : FqdnState} {len : UInt8} {l : Bytes} (h1 : 1 ≤ len.toNat)
    (h2 : len.toNat < 192) (hl : l.length = len.toNat)
    (ho : Octets d s.pos (len :: l) (s.pos + 1 + l.length)) :
    fqdnStep d s = .inl ⟨s.pos + 1 + l.length, s.labels ++ [l], s.org⟩ := by
  have hle := ho.le
  have hg := octets_cons_getElem? ho
  rw [show len :: l = [len] ++ l from rfl] at ho
  obtain ⟨k, h3, h4⟩ := octets_append.mp ho
  have hk := h3.end_eq
  simp only [List.length_singleton] at hk
  subst hk
  have h5 := (octets_iff.mp h4).2.2
  rw [hl] at h5
  unfold fqdnStep
  simp only [hg]
  rw [if_neg (by rw [and_c0_iff]; omega), if_neg (by omega),
    if_neg (by rw [u8_eq_zero_iff]; omega), if_neg (by omega), h5, hl]

theorem step_jump {d : Bytes} {s : FqdnState} {hi lo : UInt8} (h : 192 ≤ hi.toNat)
    (ho : Octets d s.pos [hi, lo] (s.pos + 2))
    (ht : (hi.toNat - 192) * 256 + lo.toNat < s.org.getD (s.pos + 1)) :
    fqdnStep d s =
      .inl ⟨(hi.toNat - 192) * 256 + lo.toNat, s.labels, some (s.org.getD (s.pos + 1))⟩ := by
  have hle := ho.le
  have hg := octets_cons_getElem? ho
  have h5 := (octets_iff.mp ho).2.2
  simp only [List.length_cons, List.length_nil] at h5
  unfold fqdnStep
  simp only [hg]
  rw [if_pos (by rw [and_c0_iff]; omega), if_neg (by omega), h5, pointer_target hi lo h,
    if_neg (by omega)]


/-! ## The accepted names -/

theorem fqdnLoop_succ (d : Bytes) (fuel : Nat) (s : FqdnState) :
    fqdnLoop d (fuel + 1) s =
      match fqdnStep d s with
      | .inr r => some r
      | .inl s' => fqdnLoop d fuel s' := rfl

/-- The names `extract_fqdn` accepts (helper; compare `Spec.LegalName`). -/
inductive CodeName (d : Bytes) : Nat → Fqdn → Nat → Prop
  | root {i} : d[i]? = some 0 → CodeName d i [] (i + 1)
  | label {i j ls} {len : UInt8} {l : Bytes} :
      1 ≤ len.toNat → len.toNat ≤ 191 → l.length = len.toNat →
      Octets d i (len :: l) (i + 1 + l.length) →
      CodeName d (i + 1 + l.length) ls j →
      CodeName d i (l :: ls) j
  | pointer {i k ls} {hi lo : UInt8} :
      192 ≤ hi.toNat → Octets d i [hi, lo] (i + 2) →
      (hi.toNat - 192) * 256 + lo.toNat < i + 1 →
      NameWith 191 (fun _ t => t < i + 1) d ((hi.toNat - 192) * 256 + lo.toNat) ls k →
      CodeName d i ls (i + 2)

theorem loop_sound_after {d : Bytes} {o : Nat} : ∀ (fuel pos : Nat) (acc n : Fqdn) (j : Nat),
    fqdnLoop d fuel ⟨pos, acc, some o⟩ = some (.ok n, j) →
    ∃ m k, n = acc ++ m ∧ NameWith 191 (fun _ t => t < o) d pos m k ∧ j = o + 1 := by
  intro fuel
  induction fuel with
  | zero => intro pos acc n j h; cases h
  | succ fuel ih =>
    intro pos acc n j h
    rw [fqdnLoop_succ] at h
    have hs := stepCase d ⟨pos, acc, some o⟩
    revert h hs
    generalize fqdnStep d ⟨pos, acc, some o⟩ = y
    intro h hs
    cases hs with
    | outside => simp at h
    | cut => simp at h
    | refused => simp at h
    | long => simp at h
    | slice => simp at h
    | zero h0 =>
      simp only [Option.some.injEq, Prod.mk.injEq, Res.ok.injEq] at h
      exact ⟨[], _, by simp [h.1], .root h0, by rw [← h.2]; rfl⟩
    | jump hi lo h1 h2 h3 =>
      obtain ⟨m, k, hm, hn, hj⟩ := ih _ _ _ _ h
      exact ⟨m, _, hm, .pointer h1 h2 h3 hn, hj⟩
    | label len l h1 h2 h3 h4 =>
      obtain ⟨m, k, hm, hn, hj⟩ := ih _ _ _ _ h
      exact ⟨l :: m, k, by simp [hm], .label h2 (by omega) h3 h4 hn, hj⟩

theorem loop_sound_before {d : Bytes} : ∀ (fuel pos : Nat) (acc n : Fqdn) (j : Nat),
    fqdnLoop d fuel ⟨pos, acc, none⟩ = some (.ok n, j) →
    ∃ m, n = acc ++ m ∧ CodeName d pos m j := by
  intro fuel
  induction fuel with
  | zero => intro pos acc n j h; cases h
  | succ fuel ih =>
    intro pos acc n j h
    rw [fqdnLoop_succ] at h
    have hs := stepCase d ⟨pos, acc, none⟩
    revert h hs
    generalize fqdnStep d ⟨pos, acc, none⟩ = y
    intro h hs
    cases hs with
    | outside => simp at h
    | cut => simp at h
    | refused => simp at h
    | long => simp at h
    | slice => simp at h
    | zero h0 =>
      simp only [Option.some.injEq, Prod.mk.injEq, Res.ok.injEq] at h
      refine ⟨[], by simp [h.1], ?_⟩
      rw [← h.2]
      exact .root h0
    | jump hi lo h1 h2 h3 =>
      obtain ⟨m, k, hm, hn, hj⟩ := loop_sound_after _ _ _ _ _ h
      refine ⟨m, hm, ?_⟩
      rw [hj]
      exact .pointer h1 h2 h3 hn
    | label len l h1 h2 h3 h4 =>
      obtain ⟨m, hm, hn⟩ := ih _ _ _ _ h
      exact ⟨l :: m, by simp [hm], .label h2 (by omega) h3 h4 hn⟩

theorem loop_complete_after {d : Bytes} {o pos k : Nat} {m : Fqdn}
    (h : NameWith 191 (fun _ t => t < o) d pos m k) : ∀ acc : Fqdn,
    ∃ fuel, fqdnLoop d fuel ⟨pos, acc, some o⟩ = some (.ok (acc ++ m), o + 1) := by
  induction h with
  | root h0 =>
    intro acc
    exact ⟨1, by rw [fqdnLoop_succ, step_zero h0]; simp⟩
  | label h1 h2 h3 h4 _ ih =>
    intro acc
    obtain ⟨fuel, hf⟩ := ih (acc ++ [_])
    refine ⟨fuel + 1, ?_⟩
    rw [fqdnLoop_succ, step_label (s := ⟨_, acc, some o⟩) h1 (by omega) h3 h4]
    simpa using hf
  | pointer h1 h2 h3 _ ih =>
    intro acc
    obtain ⟨fuel, hf⟩ := ih acc
    refine ⟨fuel + 1, ?_⟩
    rw [fqdnLoop_succ, step_jump (s := ⟨_, acc, some o⟩) h1 h2 h3]
    simpa using hf

theorem loop_complete_before {d : Bytes} {pos j : Nat} {m : Fqdn}
    (h : CodeName d pos m j) : ∀ acc : Fqdn,
    ∃ fuel, fqdnLoop d fuel ⟨pos, acc, none⟩ = some (.ok (acc ++ m), j) := by
  induction h with
  | root h0 =>
    intro acc
    exact ⟨1, by rw [fqdnLoop_succ, step_zero h0]; simp⟩
  | label h1 h2 h3 h4 _ ih =>
    intro acc
    obtain ⟨fuel, hf⟩ := ih (acc ++ [_])
    refine ⟨fuel + 1, ?_⟩
    rw [fqdnLoop_succ, step_label (s := ⟨_, acc, none⟩) h1 (by omega) h3 h4]
    simpa using hf
  | pointer h1 h2 h3 hn =>
    intro acc
    obtain ⟨fuel, hf⟩ := loop_complete_after hn acc
    refine ⟨fuel + 1, ?_⟩
    rw [fqdnLoop_succ, step_jump (s := ⟨_, acc, none⟩) h1 h2 h3]
    simpa using hf

/-! ## Enough iterations -/

theorem fqdnLoop_mono {d : Bytes} {r : Res Fqdn × Nat} : ∀ (k : Nat) (s : FqdnState),
    fqdnLoop d k s = some r → ∀ m, k ≤ m → fqdnLoop d m s = some r := by
  intro k
  induction k with
  | zero => intro s h; cases h
  | succ k ih =>
    intro s h m hm
    obtain ⟨m, rfl⟩ : ∃ m', m = m' + 1 := ⟨m - 1, by omega⟩
    rw [fqdnLoop_succ] at h ⊢
    split at h
    · exact h
    · exact ih _ h m (by omega)

theorem step_labels (d : Bytes) (p : Nat) (ls ls' : Fqdn) (o : Option Nat) :
    (∃ p' l1 l2 o', fqdnStep d ⟨p, ls, o⟩ = .inl ⟨p', l1, o'⟩ ∧
        fqdnStep d ⟨p, ls', o⟩ = .inl ⟨p', l2, o'⟩) ∨
    (∃ r r', fqdnStep d ⟨p, ls, o⟩ = .inr r ∧ fqdnStep d ⟨p, ls', o⟩ = .inr r') := by
  unfold fqdnStep
  dsimp only
  split
  · exact .inr ⟨_, _, rfl, rfl⟩
  · repeat' split
    all_goals first
      | exact .inr ⟨_, _, rfl, rfl⟩
      | exact .inl ⟨_, _, _, _, rfl, rfl⟩

theorem loop_labels (d : Bytes) : ∀ (k p : Nat) (ls ls' : Fqdn) (o : Option Nat),
    fqdnLoop d k ⟨p, ls, o⟩ = none → fqdnLoop d k ⟨p, ls', o⟩ = none := by
  intro k
  induction k with
  | zero => intros; rfl
  | succ k ih =>
    intro p ls ls' o h
    rw [fqdnLoop_succ] at h ⊢
    rcases step_labels d p ls ls' o with ⟨p', l1, l2, o', h1, h2⟩ | ⟨r, r', h1, h2⟩
    · rw [h1] at h
      rw [h2]
      exact ih _ _ _ _ h
    · rw [h1] at h
      cases h

/-- Behind the first pointer the loop starting at `p` needs exactly `v` iterations. -/
def Needs (d : Bytes) (o p v : Nat) : Prop :=
  (fqdnLoop d v ⟨p, [], some o⟩).isSome ∧ ∀ w < v, fqdnLoop d w ⟨p, [], some o⟩ = none

theorem Needs.unique {d : Bytes} {o p v w : Nat} (h1 : Needs d o p v) (h2 : Needs d o p w) : v = w := by
  rcases Nat.lt_trichotomy v w with h | h | h
  · have h3 := h1.1; rw [h2.2 v h] at h3; simp at h3
  · exact h
  · have h3 := h2.1; rw [h1.2 w h] at h3; simp at h3

theorem needs_pred {d : Bytes} {o p v : Nat} (h : Needs d o p (v + 2)) :
    p < d.length ∧ ∃ q, Needs d o q (v + 1) := by
  obtain ⟨h1, h2⟩ := h
  have h3 := h2 (v + 1) (by omega)
  rw [fqdnLoop_succ] at h1 h3
  have hs := stepCase d ⟨p, [], some o⟩
  rcases hy : fqdnStep d ⟨p, [], some o⟩ with s' | r
  · rw [hy] at h1 h3 hs
    obtain ⟨q, ls, o'⟩ := s'
    have ho : o' = some o ∧ p < d.length := by
      cases hs with
      | jump hi lo a b c => exact ⟨rfl, by have := b.le; simp at this; omega⟩
      | label len l a b c e => exact ⟨rfl, by have := e.le; simp at this; omega⟩
    obtain ⟨rfl, hp⟩ := ho
    refine ⟨hp, q, ?_, ?_⟩
    · by_contra hc
      have : fqdnLoop d (v + 1) ⟨q, [], some o⟩ = none := by simpa using hc
      have := loop_labels d _ _ _ ls _ this
      dsimp only at h1
      rw [this] at h1
      simp at h1
    · intro w hw
      have h4 := h2 (w + 1) (by omega)
      rw [fqdnLoop_succ, hy] at h4
      exact loop_labels d _ _ _ [] _ h4
  · rw [hy] at h3
    cases h3

theorem needs_all {d : Bytes} {o : Nat} : ∀ (n p v : Nat), Needs d o p (v + n + 2) →
    ∃ q, q < d.length ∧ Needs d o q (v + 2) := by
  intro n
  induction n with
  | zero => intro p v h; exact ⟨p, (needs_pred h).1, h⟩
  | succ n ih =>
    intro p v h
    obtain ⟨-, q, hq⟩ := needs_pred (v := v + n + 1) h
    exact ih q v hq

theorem needs_le {d : Bytes} {o p v : Nat} (h : Needs d o p v) : v ≤ d.length + 1 := by
  by_contra hc
  have hex : ∀ w : Fin (v - 1), ∃ q, q < d.length ∧ Needs d o q (w.val + 2) := by
    intro w
    refine needs_all (v - 2 - w.val) p w.val ?_
    rwa [show w.val + (v - 2 - w.val) + 2 = v by omega]
  choose f hf using hex
  have hinj : Function.Injective (fun w => (⟨f w, (hf w).1⟩ : Fin d.length)) := by
    intro a b hab
    have hab' : f a = f b := by simpa using hab
    have h1 := (hf a).2
    have h2 := (hf b).2
    rw [hab'] at h1
    have := h1.unique h2
    exact Fin.ext (by omega)
  have := Fintype.card_le_of_injective _ hinj
  simp at this
  omega

theorem ends_after {d : Bytes} {o p k : Nat} {ls : Fqdn}
    (h : (fqdnLoop d k ⟨p, ls, some o⟩).isSome) :
    (fqdnLoop d (d.length + 1) ⟨p, ls, some o⟩).isSome := by
  have h' : ∃ v, (fqdnLoop d v ⟨p, [], some o⟩).isSome := by
    refine ⟨k, ?_⟩
    by_contra hc
    have := loop_labels d k p [] ls (some o) (by simpa using hc)
    rw [this] at h
    simp at h
  classical
  have hn : Needs d o p (Nat.find h') :=
    ⟨Nat.find_spec h', fun w hw => by simpa using Nat.find_min h' hw⟩
  have hle := needs_le hn
  by_contra hc
  have h1 := loop_labels d _ p ls [] (some o) (by simpa using hc)
  obtain ⟨r, hr⟩ := Option.isSome_iff_exists.mp hn.1
  have := fqdnLoop_mono _ _ hr (d.length + 1) hle
  rw [h1] at this
  cases this

theorem ends_before {d : Bytes} : ∀ (n p k : Nat) (ls : Fqdn), d.length - p ≤ n →
    (fqdnLoop d k ⟨p, ls, none⟩).isSome →
    (fqdnLoop d (n + d.length + 3) ⟨p, ls, none⟩).isSome := by
  intro n
  induction n with
  | zero =>
    intro p k ls hp _
    rw [fqdnLoop_succ]
    have : d[p]? = none := List.getElem?_eq_none (by omega)
    simp [fqdnStep, this]
  | succ n ih =>
    intro p k ls hp h
    cases k with
    | zero => simp [fqdnLoop] at h
    | succ k =>
      rw [fqdnLoop_succ] at h
      rw [show n + 1 + d.length + 3 = (n + d.length + 3) + 1 by omega, fqdnLoop_succ]
      have hs := stepCase d ⟨p, ls, none⟩
      revert h hs
      generalize fqdnStep d ⟨p, ls, none⟩ = y
      intro h hs
      cases hs with
      | outside => simp
      | cut => simp
      | refused => simp
      | long => simp
      | slice => simp
      | zero => simp
      | jump hi lo a b c =>
        have h1 := ends_after h
        obtain ⟨r, hr⟩ := Option.isSome_iff_exists.mp h1
        dsimp only
        rw [fqdnLoop_mono _ _ hr _ (by omega)]
        rfl
      | label len l a b c e =>
        exact ih _ k _ (by have := e.le; dsimp only at *; omega) h

/-- If the loop ends at all, it ends within the number of iterations of the model. -/
theorem fqdnLoop_fuel {d : Bytes} {i k : Nat} {ls : Fqdn} {r : Res Fqdn × Nat}
    (h : fqdnLoop d k ⟨i, ls, none⟩ = some r) :
    fqdnLoop d (fqdnFuel d) ⟨i, ls, none⟩ = some r := by
  have h1 := ends_before (d := d) d.length i k ls (by omega) (by rw [h]; rfl)
  obtain ⟨r', hr'⟩ := Option.isSome_iff_exists.mp h1
  have h2 := fqdnLoop_mono _ _ h (max k (d.length + d.length + 3)) (by omega)
  have h3 := fqdnLoop_mono _ _ hr' (max k (d.length + d.length + 3)) (by omega)
  rw [h2] at h3
  rw [fqdnFuel, show 2 * d.length + 3 = d.length + d.length + 3 by omega, hr', ← h3]

theorem extractFqdn_ok {d : Bytes} {i j : Nat} {n : Fqdn} :
    extractFqdn d i = (.ok n, j) ↔ CodeName d i n j := by
  unfold extractFqdn
  constructor
  · intro h
    split at h
    · rename_i r hr
      subst h
      obtain ⟨m, hm, hn⟩ := loop_sound_before _ _ _ _ _ hr
      simpa [hm] using hn
    · simp at h
  · intro h
    obtain ⟨fuel, hf⟩ := loop_complete_before h []
    rw [fqdnLoop_fuel hf]
    simp

end Dns
