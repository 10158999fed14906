import Verif.Lemmas.SafeRData
import Verif.Props.Svcb

/-! Exactly where numbers overflow when record data are read. -/

namespace Dns
open Spec Buf

/-! ### Loops -/

theorem steps_seq {σ τ : Type} {p : Parser τ} {g : σ → τ → Res σ} {body : σ → Parser σ} {d : Bytes}
    (hb : ∀ s i s' k, i ≤ d.length → (body s d i = (.ok s', k) ↔ ∃ x, p d i = (.ok x, k) ∧ g s x = .ok s'))
    (hadv : ∀ i x k, i ≤ d.length → p d i = (.ok x, k) → i < k ∧ k ≤ d.length) {s s' : σ} {i j : Nat}
    (hi : i ≤ d.length) :
    Steps body d s i s' j ↔ ∃ xs, Seq p d i xs j ∧ foldRes g s xs = .ok s' := by
  constructor
  · intro h
    induction h with
    | done => exact ⟨[], rfl, rfl⟩
    | step h1 h2 _ ih =>
      obtain ⟨x, h3, h4⟩ := (hb _ _ _ _ hi).mp h2
      obtain ⟨xs, h5, h6⟩ := ih (hadv _ _ _ hi h3).2
      exact ⟨x :: xs, ⟨_, h3, h5⟩, by simp [foldRes, h4, h6]⟩
  · rintro ⟨xs, h1, h2⟩
    induction xs generalizing s i with
    | nil =>
      cases h1
      simp only [foldRes, Res.ok.injEq] at h2
      subst h2
      exact .done
    | cons x xs ih =>
      obtain ⟨k, h3, h4⟩ := h1
      simp only [foldRes, Res.bind_eq_ok] at h2
      obtain ⟨s1, h5, h6⟩ := h2
      have := hadv _ _ _ hi h3
      exact .step (by omega) ((hb _ _ _ _ hi).mpr ⟨x, h3, h5⟩) (ih this.2 h4 h6)

/-! ### Type bitmaps -/

theorem windowBits_sorted (window : Nat) : ∀ (os : Bytes) (index : Nat),
    (windowBits window index os).Pairwise (· < ·) := by
  intro os
  induction os with
  | nil => intro index; exact .nil
  | cons o os ih =>
    intro index
    rw [windowBits, List.pairwise_append]
    refine ⟨?_, ih _, ?_⟩
    · unfold octetBits
      refine List.Pairwise.map _ (R := (· < ·)) (fun a b h => by omega) ?_
      exact List.Pairwise.filter _ (by decide)
    · intro a ha b hb
      obtain ⟨k, c, _, _, _, _, rfl⟩ := mem_windowBits.mp hb
      simp only [octetBits, List.mem_map, List.mem_filter] at ha
      obtain ⟨e, ⟨h1, _⟩, rfl⟩ := ha
      simp at h1
      omega

theorem foldRes_insertBit_bad {cfg : Cfg} {x : Option PanicKind} : ∀ (ps : List Nat)
    (acc : List RecordType), ps.Pairwise (· < ·) →
    (foldRes (insertBit cfg) acc ps = bad x ↔ Overflow cfg ((∃ p ∈ ps, 65536 ≤ p) ∧
      ∀ p ∈ ps, p < 65536 → ∃ t, Readable cfg t ∧ typeNumber t = p) x) := by
  intro ps
  induction ps with
  | nil => intro acc _; simp [foldRes, Overflow, bad_ne_ok]
  | cons p ps ih =>
    intro acc hs
    obtain ⟨h1, h2⟩ := List.pairwise_cons.mp hs
    rw [foldRes, insertBit]
    by_cases hp : p < 65536
    · rw [if_pos (.inl hp)]
      by_cases hk : ∃ t, Readable cfg t ∧ typeNumber t = p
      · obtain ⟨t, ht, rfl⟩ := hk
        rw [Nat.mod_eq_of_lt hp, (RecordType.ofU16_ok (x := t)).mpr ⟨ht, rfl⟩]
        simp only [Res.ok_bind, pure_bind]
        rw [ih _ h2]
        have : ¬ 65536 ≤ typeNumber t := by omega
        simp only [Overflow, List.mem_cons, exists_eq_or_imp, forall_eq_or_imp, this, false_or]
        constructor
        · rintro ⟨a, b, c, e⟩; exact ⟨a, b, c, fun _ => ⟨t, ht, rfl⟩, e⟩
        · rintro ⟨a, b, c, _, e⟩; exact ⟨a, b, c, e⟩
      · constructor
        · intro h
          exfalso
          rcases hr : RecordType.ofU16 cfg (UInt16.ofNat (p % 65536)) with t | e | k | _
          · obtain ⟨ht, hn⟩ := RecordType.ofU16_ok.mp hr
            refine hk ⟨t, ht, ?_⟩
            rw [Nat.mod_eq_of_lt hp] at hn
            have h1 := congrArg UInt16.toNat hn
            rw [UInt16.toNat_ofNat_of_lt' (by simpa [UInt16.size] using hp),
              UInt16.toNat_ofNat_of_lt' (typeNumber_lt t)] at h1
            exact h1.symm
          · rw [hr] at h; cases x <;> cases h
          · exact RecordType.calmly (P := fun _ => False) cfg _ (some k) hr
          · exact RecordType.calmly (P := fun _ => False) cfg _ none hr
        · rintro ⟨_, _, _, h⟩
          exact absurd (h p (by simp) hp) hk
    · cases hc : cfg.overflowChecks with
      | true =>
        rw [if_neg (by simp [hp])]
        constructor
        · intro h
          refine ⟨by cases x <;> cases h; rfl, hc, ⟨p, by simp, by omega⟩, ?_⟩
          intro q hq hq2
          rcases List.mem_cons.mp hq with rfl | hq
          · omega
          · have := h1 q hq; omega
        · rintro ⟨rfl, _⟩; rfl
      | false =>
        constructor
        · intro h
          exfalso
          have h3 : Calmly (fun _ => False) (foldRes (insertBit cfg) acc (p :: ps)) := by
            have : ∀ (l : List Nat) (a : List RecordType), Calmly (fun _ => False) (foldRes (insertBit cfg) a l) := by
              intro l
              induction l with
              | nil => intro a; exact calmly_ok _
              | cons b l ihl =>
                intro a
                rw [foldRes, insertBit, if_pos (.inr hc)]
                refine bind_calmly (bind_calmly (RecordType.calmly _ _) fun _ _ => calmly_ok _) fun _ _ => ihl _
            exact this _ _
          refine h3 x ?_
          rw [foldRes, insertBit, hc]
          exact h
        · rintro ⟨_, h, _⟩
          rw [hc] at h; cases h

theorem knownBits_iff {cfg : Cfg} {w : UInt8 × Bytes} : KnownBits cfg w ↔
    ∀ p ∈ windowBits w.1.toNat 0 w.2, p < 65536 → ∃ t, Readable cfg t ∧ typeNumber t = p := by
  simp only [KnownBits, mem_windowBits, BitSet]
  simp

theorem overrun_iff {w : UInt8 × Bytes} : Overrun w ↔ ∃ p ∈ windowBits w.1.toNat 0 w.2, 65536 ≤ p := by
  simp only [Overrun, mem_windowBits, BitSet]
  simp

theorem windows_good {cfg : Cfg} (hc : cfg.overflowChecks = true) (ws : List (UInt8 × Bytes)) :
    (∃ s, foldRes (insertBit cfg) [] (allBits ws) = .ok s) ↔ ∀ v ∈ ws, KnownBits cfg v ∧ ¬ Overrun v := by
  constructor
  · rintro ⟨s, h⟩ v hv
    obtain ⟨-, -, h3, h4⟩ := foldRes_insertBit_ok (by simp) h
    have hin : ∀ p ∈ windowBits v.1.toNat 0 v.2, p ∈ allBits ws :=
      fun p hp => List.mem_flatMap.mpr ⟨v, hv, hp⟩
    rw [knownBits_iff, overrun_iff]
    constructor
    · intro p hp hlt
      obtain ⟨t, ht, he⟩ := h3 p (hin p hp)
      exact ⟨t, ht, by rw [he, Nat.mod_eq_of_lt hlt]⟩
    · rintro ⟨p, hp, hge⟩
      have := h4 p (hin p hp) hc
      omega
  · intro h
    have hs : ∀ p ∈ allBits ws, p < 65536 ∧ ∃ t, Readable cfg t ∧ typeNumber t = p % 65536 := by
      intro p hp
      obtain ⟨v, hv, hpv⟩ := List.mem_flatMap.mp hp
      obtain ⟨h1, h2⟩ := h v hv
      rw [knownBits_iff] at h1
      rw [overrun_iff] at h2
      have hlt : p < 65536 := by
        by_contra hn
        exact h2 ⟨p, hpv, by omega⟩
      exact ⟨hlt, by rw [Nat.mod_eq_of_lt hlt]; exact h1 p hpv hlt⟩
    exact foldRes_insertBit_progress (fun p hp => (hs p hp).2) (fun p hp _ => (hs p hp).1)

theorem extractWindow_fails {d : Bytes} {i : Nat} {x : Option PanicKind} : ¬ Fails extractWindow d i x := by
  simp only [extractWindow, Fails.bind_iff, Fails.extractU8_iff, Fails.extractCharacterString_iff,
    Fails.pure_iff, and_false, exists_false, or_false, not_false_eq_true]

theorem Bitmap.fails_iff {cfg : Cfg} {d : Bytes} {i : Nat} {x : Option PanicKind} (hi : i ≤ d.length) :
    Fails (Bitmap.parse cfg) d i x ↔ Overflow cfg (∃ ws w j, WindowsOverflow cfg ws w ∧
      Items.At Decodes d i (windowItems (ws ++ [w])) j) x := by
  have hb : ∀ acc, Bitmap.readStep cfg acc =
      extractWindow >>= fun w => Parser.lift ((fun acc w => Bitmap.readWindow cfg w.1.toNat 0 w.2 acc) acc w) := by
    intro acc
    simp only [Bitmap.readStep, extractWindow, extractCharacterString, bind_assoc, pure_bind]
  have hadv : ∀ i w k, i ≤ d.length → extractWindow d i = (.ok w, k) → i < k ∧ k ≤ d.length := by
    intro i w k _ h
    obtain ⟨m, h1, n, ⟨_, h2⟩, rfl⟩ := (extractWindow_ok (N := Decodes)).mp h
    have := h1.end_eq
    have h3 := h2.end_eq
    have h4 := h2.le
    simp at this h3
    omega
  have hst : ∀ s i s' k, i ≤ d.length → (Bitmap.readStep cfg s d i = (.ok s', k) ↔
      ∃ w, extractWindow d i = (.ok w, k) ∧
        (fun acc w => Bitmap.readWindow cfg w.1.toNat 0 w.2 acc) s w = .ok s') := by
    intro s i s' k _
    rw [hb, Parser.bind_ok]
    simp only [Parser.lift_ok]
    constructor
    · rintro ⟨w, k, h1, h2, rfl⟩; exact ⟨w, h1, h2⟩
    · rintro ⟨w, h1, h2⟩; exact ⟨w, k, h1, h2, rfl⟩
  rw [show Bitmap.parse cfg = whileRemaining [] (Bitmap.readStep cfg) from rfl,
    Fails.while_iff (fun s i s' k _ h => readStep_pos h) hi]
  have hf : ∀ s k, Fails (Bitmap.readStep cfg s) d k x ↔ ∃ w j, Items.At Decodes d k [.u8 w.1, .str w.2] j ∧
      Overflow cfg (Overrun w ∧ KnownBits cfg w) x := by
    intro s k
    rw [hb, Fails.bind_iff]
    simp only [extractWindow_fails, false_or, Fails.lift_iff, extractWindow_ok (N := Decodes),
      readWindow_eq cfg _ (UInt8.toNat_lt _), foldRes_insertBit_bad _ _ (windowBits_sorted _ _ _),
      ← overrun_iff, ← knownBits_iff]
  simp only [hf]
  constructor
  · rintro ⟨s', k, h1, h2, w, j, h3, ⟨h4, h5, h6, h7⟩⟩
    obtain ⟨ws, h8, h9⟩ := (steps_seq hst hadv hi).mp h1
    rw [foldRes_windows] at h9
    refine ⟨h4, h5, ws, w, j, ⟨(windows_good h5 ws).mp ⟨_, h9⟩, h7, h6⟩, ?_⟩
    rw [windowItems, List.flatMap_append, itemsAt_append]
    exact ⟨k, (seq_items fun i x k => extractWindow_ok).mp h8, by simpa using h3⟩
  · rintro ⟨h4, h5, ws, w, j, ⟨h6, h7, h8⟩, h9⟩
    rw [windowItems, List.flatMap_append, itemsAt_append] at h9
    obtain ⟨k, h10, h11⟩ := h9
    obtain ⟨s', hs⟩ := (windows_good h5 ws).mpr h6
    rw [← foldRes_windows] at hs
    have h12 := (steps_seq hst hadv hi).mpr ⟨ws, (seq_items fun i x k => extractWindow_ok).mpr h10, hs⟩
    refine ⟨s', k, h12, ?_, w, j, by simpa using h11, h4, h5, h8, h7⟩
    obtain ⟨m, h13, -⟩ := (show Items.At Decodes d k [.u8 w.1, .str w.2] j by simpa using h11)
    have h14 := Octets.le h13
    have h15 := Octets.end_eq h13
    simp at h15
    omega

/-! ### SVCB -/

theorem subUsize_checked {cfg : Cfg} (hc : cfg.overflowChecks = true) (a b : Nat) :
    subUsize cfg a b = if b ≤ a then .ok (a - b) else .panic .overflow := by
  unfold subUsize
  rw [hc]
  simp

theorem keyKnown_iff {k : UInt16} : (∃ key, ParamKey.ofU16 k = .ok key) ↔ KeyKnown k := by
  constructor
  · rintro ⟨key, h⟩
    obtain ⟨rfl, hk⟩ := ParamKey.ofU16_sound h
    unfold KeyKnown
    cases key <;> simp [paramKeyNumber] <;> exact Or.inr hk.1
  · intro h
    unfold ParamKey.ofU16
    split
    all_goals first
      | exact ⟨_, rfl⟩
      | skip
    rename_i h0 h1 h2 h3 h4 h5 h6 h7
    rw [if_pos]
    · exact ⟨_, rfl⟩
    · have hk := UInt16.toNat_lt k
      have hne : ∀ n : Nat, n < 65536 → k ≠ UInt16.ofNat n → k.toNat ≠ n := by
        intro n hn hk he
        exact hk (by rw [← he]; simp)
      have e0 := hne 0 (by omega) h0
      have e1 := hne 1 (by omega) h1
      have e2 := hne 2 (by omega) h2
      have e3 := hne 3 (by omega) h3
      have e4 := hne 4 (by omega) h4
      have e5 := hne 5 (by omega) h5
      have e6 := hne 6 (by omega) h6
      have e7 := hne 65535 (by omega) h7
      rw [UInt16.le_iff_toNat_le, UInt16.le_iff_toNat_le]
      have a1 : (65280 : UInt16).toNat = 65280 := rfl
      have a2 : (65534 : UInt16).toNat = 65534 := rfl
      rw [a1, a2]
      rcases h with h | h <;> omega

theorem octets_nil {d : Bytes} {i : Nat} (h : i ≤ d.length) : Octets d i [] i :=
  ⟨d.take i, d.drop i, by simp, by simp [h], by simp⟩

theorem keys_length (keys : List UInt16) : (keys.flatMap octets16).length = 2 * keys.length := by
  induction keys with
  | nil => rfl
  | cons k ks ih => simp only [List.flatMap_cons, List.length_append, octets16_length, ih, List.length_cons]; omega

theorem octets_keys_cons {d : Bytes} {k : UInt16} {ks : List UInt16} {i j : Nat} :
    Octets d i ((k :: ks).flatMap octets16) j ↔
      ∃ m, Octets d i (octets16 k) m ∧ Octets d m (ks.flatMap octets16) j := by
  rw [List.flatMap_cons, octets_append]

theorem mandatory_sound {cfg : Cfg} (hc : cfg.overflowChecks = true) {d : Bytes} :
    ∀ (fuel len : Nat) (acc l : List ParamKey) (i j : Nat), i ≤ d.length →
    Param.mandatoryLoop cfg fuel len acc d i = (.ok l, j) → ∃ keys : List UInt16,
      (∀ key ∈ keys, KeyKnown key) ∧ 2 * keys.length = len ∧ Octets d i (keys.flatMap octets16) j := by
  intro fuel
  induction fuel with
  | zero => intro len acc l i j _ h; simp [Param.mandatoryLoop, Parser.lift] at h
  | succ fuel ih =>
    intro len acc l i j hi h
    unfold Param.mandatoryLoop at h
    by_cases h0 : len > 0
    · rw [if_pos h0] at h
      simp only [Parser.bind_ok, extractU16_ok, Parser.lift_ok, subUsize_checked hc] at h
      obtain ⟨k, j1, h3, key, _, ⟨h4, rfl⟩, len', _, ⟨h5, rfl⟩, h⟩ := h
      split at h5
      · cases h5
        obtain ⟨keys, a, b, c⟩ := ih _ _ _ _ _ h3.le h
        refine ⟨k :: keys, ?_, by simp only [List.length_cons]; omega, octets_keys_cons.mpr ⟨_, h3, c⟩⟩
        intro q hq
        rcases List.mem_cons.mp hq with rfl | hq
        · exact keyKnown_iff.mp ⟨key, h4⟩
        · exact a q hq
      · cases h5
    · rw [if_neg h0, Parser.pure_ok] at h
      obtain ⟨rfl, rfl⟩ := h
      exact ⟨[], by simp, by simp; omega, by simpa using octets_nil hi⟩

theorem mandatory_complete {cfg : Cfg} {d : Bytes} : ∀ (keys : List UInt16) (fuel : Nat)
    (acc : List ParamKey) (i j : Nat), (∀ key ∈ keys, KeyKnown key) → keys.length < fuel →
    Octets d i (keys.flatMap octets16) j →
    ∃ l, Param.mandatoryLoop cfg fuel (2 * keys.length) acc d i = (.ok l, j) := by
  intro keys
  induction keys with
  | nil =>
    intro fuel acc i j _ hf h
    obtain ⟨fuel, rfl⟩ : ∃ f, fuel = f + 1 := ⟨fuel - 1, by omega⟩
    have := h.end_eq
    simp at this
    subst this
    exact ⟨acc, by simp [Param.mandatoryLoop, Parser.pure_apply]⟩
  | cons k ks ih =>
    intro fuel acc i j hk hf h
    obtain ⟨fuel, rfl⟩ : ∃ f, fuel = f + 1 := ⟨fuel - 1, by omega⟩
    obtain ⟨m, h1, h2⟩ := octets_keys_cons.mp h
    obtain ⟨key, hkey⟩ := keyKnown_iff.mpr (hk k (by simp))
    obtain ⟨l, hl⟩ := ih fuel (btInsert ParamKey.ord key acc) m j (fun q hq => hk q (by simp [hq]))
      (by simp at hf; omega) h2
    refine ⟨l, ?_⟩
    rw [Param.mandatoryLoop, if_pos (by simp)]
    simp only [Parser.bind_ok, extractU16_ok, Parser.lift_ok]
    refine ⟨k, m, h1, key, m, ⟨hkey, rfl⟩, 2 * ks.length, m, ⟨?_, rfl⟩, hl⟩
    unfold subUsize
    rw [if_pos (by simp only [List.length_cons]; omega)]
    congr 1

theorem mandatory_fails_iff {cfg : Cfg} (hc : cfg.overflowChecks = true) {d : Bytes}
    {x : Option PanicKind} : ∀ (fuel len : Nat) (acc : List ParamKey) (i : Nat), i ≤ d.length →
    d.length < fuel + i →
    (Fails (Param.mandatoryLoop cfg fuel len acc) d i x ↔ x = some .overflow ∧ ∃ (keys : List UInt16) (j : Nat),
      (∀ key ∈ keys, KeyKnown key) ∧ 2 * keys.length = len + 1 ∧ Octets d i (keys.flatMap octets16) j) := by
  intro fuel
  induction fuel with
  | zero => intro len acc i h1 h2; omega
  | succ fuel ih =>
    intro len acc i hi hf
    rw [Param.mandatoryLoop]
    by_cases h0 : len > 0
    · rw [if_pos h0]
      simp only [Fails.bind_iff, Fails.extractU16_iff, false_or, Fails.lift_iff, extractU16_ok,
        Parser.lift_ok, subUsize_checked hc, calmly_iff (ParamKey.calmly _)]
      constructor
      · rintro ⟨k, m, h1, key, _, ⟨h2, rfl⟩, h | ⟨len', _, ⟨h3, rfl⟩, h⟩⟩
        · split at h
          · exact absurd h bad_ne_ok
          · have hk := keyKnown_iff.mp ⟨key, h2⟩
            refine ⟨by cases x <;> cases h; rfl, [k], _, by simpa using hk, by simp; omega,
              octets_keys_cons.mpr ⟨_, h1, by simpa using octets_nil h1.le⟩⟩
        · split at h3
          · cases h3
            have h5 := octets_stop h1
            simp [octets16] at h5
            obtain ⟨a, keys, j, b, c, e⟩ := (ih _ _ _ h1.le (by omega)).mp h
            refine ⟨a, k :: keys, j, ?_, by simp only [List.length_cons]; omega,
              octets_keys_cons.mpr ⟨_, h1, e⟩⟩
            intro q hq
            rcases List.mem_cons.mp hq with rfl | hq
            · exact keyKnown_iff.mp ⟨key, h2⟩
            · exact b q hq
          · cases h3
      · rintro ⟨rfl, keys, j, h1, h2, h3⟩
        cases keys with
        | nil => simp at h2
        | cons k ks =>
          obtain ⟨m, h4, h5⟩ := octets_keys_cons.mp h3
          obtain ⟨key, hkey⟩ := keyKnown_iff.mpr (h1 k (by simp))
          refine ⟨k, m, h4, key, m, ⟨hkey, rfl⟩, ?_⟩
          by_cases h6 : 2 ≤ len
          · right
            have h7 := octets_stop h4
            simp [octets16] at h7
            refine ⟨len - 2, m, ⟨by rw [if_pos h6], rfl⟩, (ih _ _ _ h4.le (by omega)).mpr
              ⟨rfl, ks, j, fun q hq => h1 q (by simp [hq]), ?_, h5⟩⟩
            simp only [List.length_cons] at h2
            omega
          · left
            rw [if_neg h6]; rfl
    · rw [if_neg h0, Fails.pure_iff]
      refine ⟨False.elim, ?_⟩
      rintro ⟨_, keys, _, _, h, _⟩
      omega

theorem alpnOctets_cons (a : Bytes) (ids : List Bytes) :
    alpnOctets (a :: ids) = [UInt8.ofNat a.length] ++ (a ++ alpnOctets ids) := by
  simp [alpnOctets]

theorem octets_alpn_cons {d : Bytes} {a : Bytes} {ids : List Bytes} {i j : Nat} :
    Octets d i (alpnOctets (a :: ids)) j ↔
      ∃ m, Octets d i [UInt8.ofNat a.length] m ∧ ∃ n, Octets d m a n ∧ Octets d n (alpnOctets ids) j := by
  rw [alpnOctets_cons, octets_append]
  simp only [octets_append]

theorem alpn_sound {cfg : Cfg} (hc : cfg.overflowChecks = true) {d : Bytes} :
    ∀ (fuel len : Nat) (acc l : List Bytes) (i j : Nat), i ≤ d.length →
    Param.alpnLoop cfg fuel len acc d i = (.ok l, j) → ∃ ids : List Bytes,
      (∀ a ∈ ids, a.length < 256) ∧ (alpnOctets ids).length = len ∧ Octets d i (alpnOctets ids) j := by
  intro fuel
  induction fuel with
  | zero => intro len acc l i j _ h; simp [Param.alpnLoop, Parser.lift] at h
  | succ fuel ih =>
    intro len acc l i j hi h
    unfold Param.alpnLoop at h
    by_cases h0 : len > 0
    · rw [if_pos h0] at h
      simp only [Parser.bind_ok, extractU8_ok, extractBytes_ok, Parser.lift_ok, subUsize_checked hc] at h
      obtain ⟨n, j1, h3, a, j2, ⟨h4, h5⟩, len', _, ⟨h6, rfl⟩, h⟩ := h
      split at h6
      · cases h6
        obtain ⟨ids, e1, e2, e3⟩ := ih _ _ _ _ _ h5.le h
        have hn := UInt8.toNat_lt n
        refine ⟨a :: ids, ?_, ?_, octets_alpn_cons.mpr ⟨_, ?_, _, h5, e3⟩⟩
        · intro q hq
          rcases List.mem_cons.mp hq with rfl | hq
          · omega
          · exact e1 q hq
        · rw [alpnOctets_cons]; simp only [List.length_append, List.length_cons, List.length_nil]; omega
        · rw [h4]; simpa using h3
      · cases h6
    · rw [if_neg h0, Parser.pure_ok] at h
      obtain ⟨rfl, rfl⟩ := h
      exact ⟨[], by simp, by simp [alpnOctets]; omega, octets_nil hi⟩

theorem alpn_complete {cfg : Cfg} {d : Bytes} : ∀ (ids : List Bytes) (fuel : Nat)
    (acc : List Bytes) (i j : Nat), (∀ a ∈ ids, a.length < 256) → ids.length < fuel →
    Octets d i (alpnOctets ids) j →
    ∃ l, Param.alpnLoop cfg fuel (alpnOctets ids).length acc d i = (.ok l, j) := by
  intro ids fuel acc i j h1 h2 h3
  have he : ∀ l : List Bytes, Items.octets (l.map .str) = alpnOctets l := by
    intro l
    induction l with
    | nil => rfl
    | cons a l ih => rw [List.map_cons, octets_cons, ih, alpnOctets_cons]; simp [Item.octets]
  have := alpn_read cfg d ids acc i j fuel h1 (by rw [he]; exact h3) h2
  rw [he] at this
  exact ⟨_, this⟩

theorem alpn_fails_iff {cfg : Cfg} (hc : cfg.overflowChecks = true) {d : Bytes}
    {x : Option PanicKind} : ∀ (fuel len : Nat) (acc : List Bytes) (i : Nat), i ≤ d.length →
    d.length < fuel + i →
    (Fails (Param.alpnLoop cfg fuel len acc) d i x ↔ x = some .overflow ∧
      ∃ (ids : List Bytes) (last : Bytes) (j : Nat), (∀ a ∈ ids ++ [last], a.length < 256) ∧
        (alpnOctets ids).length < len ∧ len < (alpnOctets (ids ++ [last])).length ∧
        Octets d i (alpnOctets (ids ++ [last])) j) := by
  intro fuel
  induction fuel with
  | zero => intro len acc i h1 h2; omega
  | succ fuel ih =>
    intro len acc i hi hf
    rw [Param.alpnLoop]
    by_cases h0 : len > 0
    · rw [if_pos h0]
      simp only [Fails.bind_iff, Fails.extractU8_iff, Fails.extractBytes_iff, false_or, Fails.lift_iff,
        extractU8_ok, extractBytes_ok, Parser.lift_ok, subUsize_checked hc]
      constructor
      · rintro ⟨n, m, h1, a, m2, ⟨h2, h3⟩, h⟩
        have hn := UInt8.toNat_lt n
        have hna : UInt8.ofNat a.length = n := by rw [h2]; simp
        rcases h with h | ⟨len', _, ⟨h4, rfl⟩, h⟩
        · split at h
          · exact absurd h bad_ne_ok
          · refine ⟨by cases x <;> cases h; rfl, [], a, m2, by simp; omega, by simpa [alpnOctets] using h0, ?_, ?_⟩
            · rw [List.nil_append, alpnOctets_cons]
              simp only [List.length_append, List.length_cons, List.length_nil, alpnOctets, List.flatMap_nil]
              omega
            · exact octets_alpn_cons.mpr ⟨m, by rwa [hna], m2, h3, octets_nil h3.le⟩
        · split at h4
          · cases h4
            have h5 := octets_stop h1
            have h6 := octets_stop h3
            simp at h5
            obtain ⟨e1, ids, last, j, e2, e3, e4, e5⟩ := (ih _ _ _ h3.le (by omega)).mp h
            refine ⟨e1, a :: ids, last, j, ?_, ?_, ?_, ?_⟩
            · intro q hq
              rcases List.mem_cons.mp hq with rfl | hq
              · omega
              · exact e2 q hq
            · rw [alpnOctets_cons]; simp only [List.length_append, List.length_cons, List.length_nil]; omega
            · rw [List.cons_append, alpnOctets_cons]
              simp only [List.length_append, List.length_cons, List.length_nil] at e4 ⊢; omega
            · exact octets_alpn_cons.mpr ⟨m, by rwa [hna], m2, h3, e5⟩
          · cases h4
      · rintro ⟨rfl, ids, last, j, h1, h2, h3, h4⟩
        cases ids with
        | nil =>
          obtain ⟨m, h5, m2, h6, -⟩ := octets_alpn_cons.mp h4
          have hl : (UInt8.ofNat last.length).toNat = last.length := UInt8.toNat_ofNat_of_lt' (h1 last (by simp))
          refine ⟨_, m, h5, last, m2, ⟨hl.symm, h6⟩, Or.inl ?_⟩
          rw [if_neg]
          · rfl
          · rw [List.nil_append, alpnOctets_cons] at h3
            simp only [List.length_append, List.length_cons, List.length_nil, alpnOctets, List.flatMap_nil] at h3
            omega
        | cons a ids =>
          obtain ⟨m, h5, m2, h6, h7⟩ := octets_alpn_cons.mp h4
          have hl : (UInt8.ofNat a.length).toNat = a.length := UInt8.toNat_ofNat_of_lt' (h1 a (by simp))
          rw [alpnOctets_cons] at h2
          rw [List.cons_append, alpnOctets_cons] at h3
          simp only [List.length_append, List.length_cons, List.length_nil] at h2 h3
          have e5 := octets_stop h5
          have e6 := octets_stop h6
          simp at e5
          refine ⟨_, m, h5, a, m2, ⟨hl.symm, h6⟩, Or.inr ⟨len - (a.length + 1), m2, ⟨?_, rfl⟩, ?_⟩⟩
          · rw [hl, if_pos (by omega)]
          · refine (ih _ _ _ h6.le (by omega)).mpr ⟨rfl, ids, last, j, fun q hq => h1 q (by simp at hq ⊢; tauto), by omega, ?_, h7⟩
            omega
    · rw [if_neg h0, Fails.pure_iff]
      refine ⟨False.elim, ?_⟩
      rintro ⟨_, ids, last, _, _, h, _⟩
      omega

theorem paramRead_private {k len : UInt16} {b : Bytes} (h1 : 65280 ≤ k.toNat) (h2 : k.toNat ≤ 65534) :
    ParamRead k len b ↔ b.length = len.toNat := by
  unfold ParamRead
  split <;> simp_all

theorem alpn_count (ids : List Bytes) : ids.length ≤ (alpnOctets ids).length := by
  induction ids with
  | nil => simp
  | cons a ids ih =>
    rw [alpnOctets_cons]
    simp only [List.length_append, List.length_cons, List.length_nil]
    omega

theorem Param.value_ok {cfg : Cfg} (hc : cfg.overflowChecks = true) {d : Bytes} {k : UInt16} {key : ParamKey}
    (hk : ParamKey.ofU16 k = .ok key) {len : UInt16} {i j : Nat} (hi : i ≤ d.length) :
    (∃ p, Param.parseValue cfg key len.toNat d i = (.ok p, j)) ↔ ∃ b, ParamRead k len b ∧ Octets d i b j := by
  obtain ⟨hk1, hk2⟩ := ParamKey.ofU16_sound hk
  have hempty : ∀ p : Param, (∃ q, (pure p : Parser Param) d i = (.ok q, j)) ↔ Octets d i [] j := by
    intro p
    constructor
    · rintro ⟨q, h⟩
      obtain ⟨-, rfl⟩ := Parser.pure_ok.mp h
      exact octets_nil hi
    · intro h
      have := h.end_eq
      simp at this
      exact ⟨p, by rw [this]; rfl⟩
  cases key <;> simp only [paramKeyNumber] at hk1 <;> (try subst hk1)
  case mandatory =>
    simp only [Param.parseValue, Parser.bind_ok, Parser.pure_ok, Param.dataLen, ParamRead,
      Prod.mk.injEq, Res.ok.injEq]
    constructor
    · rintro ⟨p, _, _, ⟨rfl, rfl⟩, l, _, h, -, rfl⟩
      obtain ⟨keys, h1, h2, h3⟩ := mandatory_sound hc _ _ _ _ _ _ hi h
      exact ⟨_, ⟨by rw [keys_length]; exact h2, keys, h1, rfl⟩, h3⟩
    · rintro ⟨_, ⟨h0, keys, h1, rfl⟩, h2⟩
      rw [keys_length] at h0
      have h3 := h2.end_eq
      have h4 := h2.le
      rw [keys_length] at h3
      obtain ⟨l, hl⟩ := mandatory_complete (cfg := cfg) keys (d.length + 1) [] i j h1 (by omega) h2
      exact ⟨_, _, _, ⟨rfl, rfl⟩, l, j, by rw [← h0]; exact hl, rfl, rfl⟩
  case alpn =>
    simp only [Param.parseValue, Parser.bind_ok, Parser.pure_ok, Param.dataLen, ParamRead,
      Prod.mk.injEq, Res.ok.injEq]
    constructor
    · rintro ⟨p, _, _, ⟨rfl, rfl⟩, l, _, h, -, rfl⟩
      obtain ⟨ids, h1, h2, h3⟩ := alpn_sound hc _ _ _ _ _ _ hi h
      exact ⟨_, ⟨h2, ids, h1, rfl⟩, h3⟩
    · rintro ⟨_, ⟨h0, ids, h1, rfl⟩, h2⟩
      have h3 := h2.end_eq
      have h4 := h2.le
      have h5 := alpn_count ids
      obtain ⟨l, hl⟩ := alpn_complete (cfg := cfg) ids (d.length + 1) [] i j h1 (by omega) h2
      exact ⟨_, _, _, ⟨rfl, rfl⟩, l, j, by rw [← h0]; exact hl, rfl, rfl⟩
  case noDefaultAlpn =>
    simp only [Param.parseValue, hempty]
    show _ ↔ ∃ b, b = [] ∧ _
    simp
  case invalid =>
    simp only [Param.parseValue, hempty]
    show _ ↔ ∃ b, b = [] ∧ _
    simp
  case port =>
    show _ ↔ ∃ b : Bytes, b.length = 2 ∧ _
    simp only [Param.parseValue, Parser.bind_ok, Parser.pure_ok, extractU16, extractBytes_ok]
    constructor
    · rintro ⟨p, v, _, ⟨b, _, ⟨h1, h2⟩, -, rfl⟩, -, rfl⟩; exact ⟨b, h1, h2⟩
    · rintro ⟨b, h1, h2⟩; exact ⟨_, _, _, ⟨b, _, ⟨h1, h2⟩, rfl, rfl⟩, rfl, rfl⟩
  case ipV4Hint =>
    show _ ↔ ∃ b : Bytes, b.length = 4 ∧ _
    simp only [Param.parseValue, Parser.bind_ok, Parser.pure_ok, extractU32, extractBytes_ok]
    constructor
    · rintro ⟨p, v, _, ⟨b, _, ⟨h1, h2⟩, -, rfl⟩, -, rfl⟩; exact ⟨b, h1, h2⟩
    · rintro ⟨b, h1, h2⟩; exact ⟨_, _, _, ⟨b, _, ⟨h1, h2⟩, rfl, rfl⟩, rfl, rfl⟩
  case ipV6Hint =>
    show _ ↔ ∃ b : Bytes, b.length = 16 ∧ _
    simp only [Param.parseValue, Parser.bind_ok, Parser.pure_ok, extractU128, extractBytes_ok]
    constructor
    · rintro ⟨p, v, _, ⟨b, _, ⟨h1, h2⟩, -, rfl⟩, -, rfl⟩; exact ⟨b, h1, h2⟩
    · rintro ⟨b, h1, h2⟩; exact ⟨_, _, _, ⟨b, _, ⟨h1, h2⟩, rfl, rfl⟩, rfl, rfl⟩
  case ech =>
    show _ ↔ ∃ b : Bytes, b.length = len.toNat ∧ _
    simp only [Param.parseValue, Parser.bind_ok, Parser.pure_ok, extractBytes_ok]
    constructor
    · rintro ⟨p, b, _, ⟨h1, h2⟩, -, rfl⟩; exact ⟨b, h1, h2⟩
    · rintro ⟨b, h1, h2⟩; exact ⟨_, b, _, ⟨h1, h2⟩, rfl, rfl⟩
  case «private» v =>
    rw [show UInt16.ofNat v.toNat = v by simp]
    simp only [paramRead_private hk2.1 hk2.2, Param.parseValue, Parser.bind_ok, Parser.pure_ok, extractBytes_ok]
    constructor
    · rintro ⟨p, b, _, ⟨h1, h2⟩, -, rfl⟩; exact ⟨b, h1, h2⟩
    · rintro ⟨b, h1, h2⟩; exact ⟨_, b, _, ⟨h1, h2⟩, rfl, rfl⟩

theorem paramRead_known {k len : UInt16} {b : Bytes} (h : ParamRead k len b) : KeyKnown k := by
  unfold ParamRead at h
  unfold KeyKnown
  split at h <;> first | (left; omega) | (right; omega)

theorem Param.read_iff {cfg : Cfg} (hc : cfg.overflowChecks = true) {d : Bytes} {i j : Nat} :
    (∃ p, Param.parse cfg d i = (.ok p, j)) ↔
      ∃ q : UInt16 × UInt16 × Bytes, ParamRead q.1 q.2.1 q.2.2 ∧ Items.At Decodes d i (rawParam q) j := by
  simp only [Param.parse, Parser.bind_ok, extractU16_ok, Parser.lift_ok, rawParam, Items.At, Item.At]
  constructor
  · rintro ⟨p, k, m, h1, key, _, ⟨h2, rfl⟩, len, m2, h3, h4⟩
    obtain ⟨b, h5, h6⟩ := (Param.value_ok hc h2 h3.le).mp ⟨p, h4⟩
    exact ⟨(k, len, b), h5, _, h1, _, h3, _, h6, rfl⟩
  · rintro ⟨⟨k, len, b⟩, h5, m, h1, m2, h3, _, h6, rfl⟩
    obtain ⟨key, h2⟩ := keyKnown_iff.mpr (paramRead_known h5)
    obtain ⟨p, h4⟩ := (Param.value_ok hc h2 h3.le).mpr ⟨b, h5, h6⟩
    exact ⟨p, k, m, h1, key, _, ⟨h2, rfl⟩, len, m2, h3, h4⟩

theorem Param.fails_iff {cfg : Cfg} {d : Bytes} {i : Nat} {x : Option PanicKind} :
    Fails (Param.parse cfg) d i x ↔ Overflow cfg (∃ (q : UInt16 × UInt16 × Bytes) (j : Nat),
      ParamOverflows q.1 q.2.1 q.2.2 ∧ Items.At Decodes d i (rawParam q) j) x := by
  cases hc : cfg.overflowChecks with
  | false =>
    constructor
    · intro h
      obtain ⟨_, h, _⟩ := Param.fails h
      rw [hc] at h; cases h
    · rintro ⟨_, h, _⟩
      rw [hc] at h; cases h
  | true =>
  simp only [Param.parse, Fails.bind_iff, Fails.extractU16_iff, false_or, Fails.lift_iff, extractU16_ok,
    Parser.lift_ok, calmly_iff (ParamKey.calmly _), rawParam, Items.At, Item.At]
  constructor
  · rintro ⟨k, m, h1, key, _, ⟨h2, rfl⟩, len, m2, h3, h⟩
    have hi := h3.le
    cases key <;> simp only [Param.parseValue, Fails.bind_iff, Fails.extractU16_iff, Fails.extractU32_iff,
      Fails.extractBytes_iff, Fails.pure_iff, and_false, exists_false, or_false] at h
    · rcases h with h | ⟨fuel, k', hf, h⟩
      · exact absurd h bad_ne_ok
      · cases hf
        obtain ⟨a, keys, j, b, c, e⟩ := (mandatory_fails_iff hc _ _ _ _ hi (by omega)).mp h
        obtain rfl := ParamKey.ofU16_list.1 h2
        exact ⟨a, hc, (0, len, keys.flatMap octets16), j,
          Or.inl ⟨rfl, (keys_length keys).trans c, keys, b, rfl⟩, _, h1, _, h3, _, e, rfl⟩
    · rcases h with h | ⟨fuel, k', hf, h⟩
      · exact absurd h bad_ne_ok
      · cases hf
        obtain ⟨a, ids, last, j, b, c, e, f⟩ := (alpn_fails_iff hc _ _ _ _ hi (by omega)).mp h
        obtain rfl := ParamKey.ofU16_list.2 h2
        exact ⟨a, hc, (1, len, _), j, Or.inr ⟨rfl, ids, last, b, rfl, c, e⟩, _, h1, _, h3, _, f, rfl⟩
    · simp only [extractU128, Fails.bind_iff, Fails.extractBytes_iff, Fails.pure_iff, and_false,
        exists_false, or_false] at h
  · rintro ⟨rfl, -, ⟨k, len, b⟩, j, h, m, h1, m2, h3, _, h4, rfl⟩
    have hi := h3.le
    rcases h with ⟨rfl, h5, keys, h6, h7⟩ | ⟨rfl, ids, last, h5, h6, h7, h8⟩
    · refine ⟨_, m, h1, .mandatory, m, ⟨rfl, rfl⟩, len, m2, h3, ?_⟩
      simp only [Param.parseValue, Fails.bind_iff, Fails.pure_iff, and_false, exists_false, or_false]
      dsimp only at h5 h7 h4
      subst h7
      rw [keys_length] at h5
      exact Or.inr ⟨_, _, rfl, (mandatory_fails_iff hc _ _ _ _ hi (by omega)).mpr ⟨rfl, keys, _, h6, h5, h4⟩⟩
    · refine ⟨_, m, h1, .alpn, m, ⟨rfl, rfl⟩, len, m2, h3, ?_⟩
      simp only [Param.parseValue, Fails.bind_iff, Fails.pure_iff, and_false, exists_false, or_false]
      dsimp only at h6 h7 h8 h4
      subst h6
      exact Or.inr ⟨_, _, rfl, (alpn_fails_iff hc _ _ _ _ hi (by omega)).mpr
        ⟨rfl, ids, last, _, h5, h7, h8, h4⟩⟩

theorem seq_read {cfg : Cfg} (hc : cfg.overflowChecks = true) {d : Bytes} {i j : Nat} :
    (∃ ps, Seq (Param.parse cfg) d i ps j) ↔ ∃ qs : List (UInt16 × UInt16 × Bytes),
      (∀ q ∈ qs, ParamRead q.1 q.2.1 q.2.2) ∧ Items.At Decodes d i (qs.flatMap rawParam) j := by
  constructor
  · rintro ⟨ps, h⟩
    induction ps generalizing i with
    | nil => exact ⟨[], by simp, h⟩
    | cons p ps ih =>
      obtain ⟨k, h1, h2⟩ := h
      obtain ⟨q, h3, h4⟩ := (Param.read_iff hc).mp ⟨p, h1⟩
      obtain ⟨qs, h5, h6⟩ := ih h2
      refine ⟨q :: qs, ?_, ?_⟩
      · intro r hr
        rcases List.mem_cons.mp hr with rfl | hr
        · exact h3
        · exact h5 r hr
      · rw [List.flatMap_cons, itemsAt_append]; exact ⟨k, h4, h6⟩
  · rintro ⟨qs, h1, h2⟩
    induction qs generalizing i with
    | nil => exact ⟨[], h2⟩
    | cons q qs ih =>
      rw [List.flatMap_cons, itemsAt_append] at h2
      obtain ⟨k, h3, h4⟩ := h2
      obtain ⟨p, h5⟩ := (Param.read_iff hc).mpr ⟨q, h1 q (by simp), h3⟩
      obtain ⟨ps, h6⟩ := ih (fun r hr => h1 r (by simp [hr])) h4
      exact ⟨p :: ps, k, h5, h6⟩

theorem Svcb.params_fails_iff {cfg : Cfg} {d : Bytes} {i : Nat} {x : Option PanicKind} (hi : i ≤ d.length) :
    Fails (whileRemaining [] (Svcb.step cfg)) d i x ↔ Overflow cfg (∃ ps p j,
      (∀ q ∈ ps, ParamRead q.1 q.2.1 q.2.2) ∧ ParamOverflows p.1 p.2.1 p.2.2 ∧
      Items.At Decodes d i ((ps ++ [p]).flatMap rawParam) j) x := by
  have hpos : ∀ i p k, i ≤ d.length → Param.parse cfg d i = (.ok p, k) → i < k ∧ k ≤ d.length := by
    intro i p k hi h
    refine ⟨Param.parse_pos h, ?_⟩
    have : Bounded (Param.parse cfg) := by
      unfold Param.parse
      exact .bind .extractU16 fun _ => .bind (.lift _) fun _ => .bind .extractU16 fun _ => Param.bounded_value _ _ _
    have := this d i hi
    rwa [h] at this
  have hst : ∀ s i s' k, i ≤ d.length → (Svcb.step cfg s d i = (.ok s', k) ↔
      ∃ p, Param.parse cfg d i = (.ok p, k) ∧
        (fun acc p => Res.ok (btInsert Param.ord p acc)) s p = .ok s') := by
    intro s i s' k hi
    rw [Svcb.step_ok]
    constructor
    · rintro ⟨_, _, p, h1, rfl⟩; exact ⟨p, h1, rfl⟩
    · rintro ⟨p, h1, h2⟩
      cases h2
      exact ⟨hi, (hpos _ _ _ hi h1).2, p, h1, rfl⟩
  have hadv : ∀ s i s' k, i ≤ d.length → Svcb.step cfg s d i = (.ok s', k) → i < k ∧ k ≤ d.length := by
    intro s i s' k hi h
    obtain ⟨p, h1, _⟩ := (hst _ _ _ _ hi).mp h
    exact hpos _ _ _ hi h1
  have hf : ∀ s k, k ≤ d.length → (Fails (Svcb.step cfg s) d k x ↔ Fails (Param.parse cfg) d k x) := by
    intro s k hk
    simp only [Svcb.step, Fails.bind_iff, Fails.withSubBuffer_iff, remaining_ok, withSubBuffer_ok,
      Fails.pure_iff, and_false, exists_false, or_false]
    constructor
    · rintro (h3 | ⟨n, m, ⟨h4, rfl, rfl⟩, ⟨h5, h6⟩ | ⟨a, _, ⟨h7, rfl, h8⟩, h9⟩⟩)
      · exact ((Calm.remaining (P := fun _ => False) d k (by omega)).2 x h3).elim
      · rwa [Nat.sub_add_cancel h4, List.take_length] at h6
      · exact ((Calm.setPosition (P := fun _ => False) _ d _ (by omega)).2 x h9).elim
    · intro h
      refine Or.inr ⟨_, k, ⟨hk, rfl, rfl⟩, Or.inl ⟨by omega, ?_⟩⟩
      rwa [Nat.sub_add_cancel hk, List.take_length]
  rw [Fails.while_iff hadv hi]
  constructor
  · rintro ⟨s', k, h1, h2, h3⟩
    rw [hf _ _ (by omega), Param.fails_iff] at h3
    obtain ⟨e1, hc, q, j, h4, h5⟩ := h3
    obtain ⟨ps, h6, -⟩ := (steps_seq hst hpos hi).mp h1
    obtain ⟨qs, h7, h8⟩ := (seq_read hc).mp ⟨ps, h6⟩
    refine ⟨e1, hc, qs, q, j, h7, h4, ?_⟩
    rw [List.flatMap_append, itemsAt_append]
    exact ⟨k, h8, by simpa using h5⟩
  · rintro ⟨e1, hc, qs, q, j, h7, h4, h5⟩
    rw [List.flatMap_append, itemsAt_append] at h5
    obtain ⟨k, h8, h5⟩ := h5
    obtain ⟨ps, h6⟩ := (seq_read hc).mpr ⟨qs, h7, h8⟩
    have h5 : Items.At Decodes d k (rawParam q) j := by simpa using h5
    have hk : k < d.length := by
      obtain ⟨m, h9, -⟩ := h5
      have h14 := Octets.le h9
      have h15 := Octets.end_eq h9
      rw [octets16_length] at h15
      omega
    refine ⟨_, k, (steps_seq hst hpos hi).mpr ⟨ps, h6, foldRes_ok (fun _ _ => rfl) _ _⟩, hk, ?_⟩
    rw [hf _ _ (by omega), Param.fails_iff]
    exact ⟨e1, hc, q, j, h4, h5⟩

/-! ### Record data -/

/-- Record data: the parser fails in a name, or because a number overflows. -/
theorem RecordData.fails {cfg : Cfg} {t : RecordType} {d : Bytes} {k : Nat} {x : Option PanicKind}
    (hk : k ≤ d.length) (h : Fails (RecordData.parse cfg t) d k x) :
    (∃ i, NameField Decodes cfg t d k i ∧ Fails extractFqdn d i x) ∨ Overflow cfg (TooLong Decodes cfg t d k) x := by
  cases t <;> simp only [RecordData.parse, bind_pure_fails] at h
  case NS => exact Or.inl ⟨_, rfl, Ns.fails.mp h⟩
  case CNAME => exact Or.inl ⟨_, rfl, Cname.fails.mp h⟩
  case PTR => exact Or.inl ⟨_, rfl, Ptr.fails.mp h⟩
  case SOA =>
    rcases Soa.fails.mp h with h | ⟨n, i, h1, h2⟩
    · exact Or.inl ⟨_, Or.inl rfl, h⟩
    · exact Or.inl ⟨_, Or.inr ⟨n, h1⟩, h2⟩
  case MINFO =>
    rcases Minfo.fails.mp h with h | ⟨n, i, h1, h2⟩
    · exact Or.inl ⟨_, Or.inl rfl, h⟩
    · exact Or.inl ⟨_, Or.inr ⟨n, h1⟩, h2⟩
  case MX => obtain ⟨a, _, h1, h2⟩ := Mx.fails.mp h; exact Or.inl ⟨_, ⟨a, _, h1, rfl⟩, h2⟩
  case SRV =>
    obtain ⟨a, i1, h3, b, i2, h4, c, _, h5, h2⟩ := Srv.fails.mp h
    exact Or.inl ⟨_, ⟨a, b, c, i1, h3, i2, h4, _, h5, rfl⟩, h2⟩
  case NAPTR =>
    obtain ⟨a, i1, h3, b, i2, h4, f, i3, h5, s, i4, h6, r, _, ⟨h7, hu⟩, h2⟩ := Naptr.fails.mp h
    exact Or.inl ⟨_, ⟨a, b, f, s, r, hu, i1, h3, i2, h4, i3, h5, i4, h6, _, h7, rfl⟩, h2⟩
  case IPSECKEY => exact Or.inl ((IpSecKey.fails (cfg := cfg)).mp h)
  case RRSIG => exact Or.inl (Rrsig.fails.mp h)
  case NSEC =>
    simp only [Nsec.parse, Fails.bind_iff, Fails.pure_iff, and_false, exists_false, or_false] at h
    rcases h with h | ⟨n, j, h1, h2⟩
    · exact Or.inl ⟨_, rfl, h⟩
    · have := extractFqdn_pos h1
      obtain ⟨a, b, ws, w, l, c, e⟩ := (Bitmap.fails_iff this.2).mp h2
      exact Or.inr ⟨a, b, n, ws, w, l, c, j, h1, e⟩
  case CSYNC =>
    simp only [Csync.parse, Fails.bind_iff, Fails.pure_iff, Fails.extractU16_iff, Fails.extractU32_iff,
      Fails.lift_iff, calmly_iff (CsyncFlags.calmly _), extractU16_ok, extractU32_ok, Parser.lift_ok,
      and_false, exists_false, or_false, false_or] at h
    obtain ⟨s, j1, h1, f, j2, h2, _, _, ⟨h3, rfl⟩, h⟩ := h
    obtain ⟨a, b, ws, w, l, c, e⟩ := (Bitmap.fails_iff h2.le).mp h
    obtain ⟨h4, rfl⟩ := CsyncFlags.ofU16_ok.mp h3
    exact Or.inr ⟨a, b, s, _, ws, w, l, h4, c, j1, h1, _, h2, e⟩
  case HIP => exact Or.inl ((Hip.fails (cfg := cfg)).mp h)
  case SVCB =>
    simp only [Svcb.parse, Fails.bind_iff, Fails.pure_iff, Fails.extractU16_iff, extractU16_ok,
      and_false, exists_false, or_false, false_or] at h
    obtain ⟨p, i1, h1, h | ⟨n, j, h2, h⟩⟩ := h
    · exact Or.inl ⟨_, ⟨p, _, h1, rfl⟩, h⟩
    · have := extractFqdn_pos h2
      have := octets_stop h1
      obtain ⟨a, b, ps, q, l, c, e, f⟩ := (Svcb.params_fails_iff (by omega)).mp h
      exact Or.inr ⟨a, b, p, n, ps, q, l, c, e, _, h1, _, h2, f⟩
  case TKEY => exact Or.inl ⟨_, rfl, Tkey.fails.mp h⟩
  case TSIG => exact Or.inl ⟨_, rfl, Tsig.fails.mp h⟩
  case A => exact calm_fails A.calm hk h
  case NULL => exact calm_fails Null.calm hk h
  case WKS => exact calm_fails Wks.calm hk h
  case HINFO => exact calm_fails Hinfo.calm hk h
  case TXT => exact calm_fails Txt.calm hk h
  case AAAA => exact calm_fails Aaaa.calm hk h
  case LOC => exact calm_fails Loc.calm hk h
  case OPT => exact calm_fails Opt.calm hk h
  case APL => exact calm_fails Apl.calm hk h
  case DS => exact calm_fails Ds.calm hk h
  case SSHFP => exact calm_fails Sshfp.calm hk h
  case DNSKEY => exact calm_fails DnsKey.calm hk h
  case DHCID => exact calm_fails Dhcid.calm hk h
  case TLSA => exact calm_fails Tlsa.calm hk h
  case CDS => exact calm_fails Ds.calm hk h
  case CDNSKEY => exact calm_fails DnsKey.calm hk h
  case OPENPGPKEY => exact calm_fails OpenPgpKey.calm hk h
  case EUI48 => exact calm_fails Eui48.calm hk h
  case EUI64 => exact calm_fails Eui64.calm hk h
  case URI => exact calm_fails Uri.calm hk h
  case CAA => exact calm_fails Caa.calm hk h



theorem RecordData.fails_of_tooLong {cfg : Cfg} {t : RecordType} {d : Bytes} {k : Nat}
    (hc : cfg.overflowChecks = true) (h : TooLong Decodes cfg t d k) :
    Fails (RecordData.parse cfg t) d k (some .overflow) := by
  cases t <;> first | exact h.elim | simp only [RecordData.parse, bind_pure_fails]
  case NSEC =>
    obtain ⟨n, ws, w, l, c, j, h1, e⟩ := h
    simp only [Nsec.parse, Fails.bind_iff, Fails.pure_iff, and_false, exists_false, or_false]
    exact Or.inr ⟨n, j, h1, (Bitmap.fails_iff (extractFqdn_pos h1).2).mpr ⟨rfl, hc, ws, w, l, c, e⟩⟩
  case CSYNC =>
    obtain ⟨s, f, ws, w, l, h4, c, j1, h1, j2, h2, e⟩ := h
    simp only [Csync.parse, Fails.bind_iff, Fails.pure_iff, Fails.extractU16_iff, Fails.extractU32_iff,
      Fails.lift_iff, calmly_iff (CsyncFlags.calmly _), extractU16_ok, extractU32_ok, Parser.lift_ok,
      and_false, exists_false, or_false, false_or]
    exact ⟨s, j1, h1, f, j2, h2, ⟨f⟩, j2, ⟨CsyncFlags.ofU16_ok.mpr ⟨h4, rfl⟩, rfl⟩,
      (Bitmap.fails_iff (Octets.le h2)).mpr ⟨rfl, hc, ws, w, l, c, e⟩⟩
  case SVCB =>
    obtain ⟨p, n, ps, q, l, c, e, _, h1, j, h2, f⟩ := h
    simp only [Svcb.parse, Fails.bind_iff, Fails.pure_iff, Fails.extractU16_iff, extractU16_ok,
      and_false, exists_false, or_false, false_or]
    exact ⟨p, _, h1, Or.inr ⟨n, j, h2,
      (Svcb.params_fails_iff (extractFqdn_pos h2).2).mpr ⟨rfl, hc, ps, q, l, c, e, f⟩⟩⟩

end Dns
