import Verif.Lemmas.Safe
import Verif.Spec.Reach

/-! Where the parsers of record data, records and packets fail. -/

namespace Dns
open Spec Buf

variable {P : Option PanicKind → Prop}

/-! ### Conversions of numbers return -/

theorem calmly_ok {α : Type} (a : α) : Calmly P (Res.ok a) := fun _ h => absurd h bad_ne_ok
theorem calmly_err {α : Type} (e : DnsError) : Calmly P (Res.err e : Res α) := fun _ h => absurd h bad_ne_err

/-- Closes `Calmly` goals of functions that are a case distinction. -/
macro "calmly" : tactic => `(tactic|
  repeat' first
    | exact calmly_ok _ | exact calmly_err _
    | split)

theorem CsyncFlags.calmly (v : UInt16) : Calmly P (CsyncFlags.ofU16 v) := by unfold ofU16; calmly
theorem SecAlgorithm.calmly (v : UInt8) : Calmly P (SecAlgorithm.ofU8 v) := by unfold ofU8; calmly
theorem DigestType.calmly (v : UInt8) : Calmly P (DigestType.ofU8 v) := by unfold ofU8; calmly
theorem Algorithm.calmly (v : UInt8) : Calmly P (Algorithm.ofU8 v) := by unfold ofU8; calmly
theorem FingerprintType.calmly (v : UInt8) : Calmly P (FingerprintType.ofU8 v) := by unfold ofU8; calmly
theorem CertUsage.calmly (v : UInt8) : Calmly P (CertUsage.ofU8 v) := by unfold ofU8; calmly
theorem Selector.calmly (v : UInt8) : Calmly P (Selector.ofU8 v) := by unfold ofU8; calmly
theorem MatchingType.calmly (v : UInt8) : Calmly P (MatchingType.ofU8 v) := by unfold ofU8; calmly
theorem IdentifierType.calmly (v : UInt16) : Calmly P (IdentifierType.ofU16 v) := by unfold ofU16; calmly
theorem TkeyMode.calmly (v : UInt16) : Calmly P (TkeyMode.ofU16 v) := by unfold ofU16; calmly
theorem TkeyError.calmly (v : UInt16) : Calmly P (TkeyError.ofU16 v) := by unfold ofU16; calmly
theorem TsigError.calmly (v : UInt16) : Calmly P (TsigError.ofU16 v) := by
  unfold ofU16
  calmly
theorem ParamKey.calmly (v : UInt16) : Calmly P (ParamKey.ofU16 v) := by unfold ofU16; calmly
theorem RecordType.calmly (cfg : Cfg) (v : UInt16) : Calmly P (RecordType.ofU16 cfg v) := by
  unfold ofU16; calmly
theorem QClass.calmly (v : UInt16) : Calmly P (QClass.ofU16 v) := by unfold ofU16; calmly
theorem QType.calmly (cfg : Cfg) (v : UInt16) : Calmly P (QType.ofU16 cfg v) := by
  unfold ofU16; calmly
  · rename_i h; exact (RecordType.calmly (P := fun _ => False) cfg v (some _) h).elim
  · rename_i h; exact (RecordType.calmly (P := fun _ => False) cfg v none h).elim

/-! ### Record data without names -/

theorem octets_stop {d b : Bytes} {i j : Nat} (h : Octets d i b j) : j = i + b.length := by
  obtain ⟨_, _, _, _, h⟩ := h; exact h

theorem A.calm : Calm P A.parse := by unfold A.parse; calm
theorem Null.calm : Calm P Null.parse := by unfold Null.parse; calm
theorem Wks.calm : Calm P Wks.parse := by unfold Wks.parse; calm
theorem Hinfo.calm : Calm P Hinfo.parse := by unfold Hinfo.parse; calm
theorem Aaaa.calm : Calm P Aaaa.parse := by unfold Aaaa.parse; calm
theorem Loc.calm : Calm P Loc.parse := by unfold Loc.parse; calm
theorem Apl.calm : Calm P Apl.parse := by unfold Apl.parse; calm
theorem Ds.calm : Calm P Ds.parse := by
  unfold Ds.parse; calm
  · exact SecAlgorithm.calmly _
  · exact DigestType.calmly _
theorem Sshfp.calm : Calm P Sshfp.parse := by
  unfold Sshfp.parse; calm
  · exact Algorithm.calmly _
  · exact FingerprintType.calmly _
theorem DnsKey.calm : Calm P DnsKey.parse := by
  unfold DnsKey.parse; calm
  exact SecAlgorithm.calmly _
theorem Dhcid.calm : Calm P Dhcid.parse := by
  unfold Dhcid.parse; calm
  exact IdentifierType.calmly _
theorem Tlsa.calm : Calm P Tlsa.parse := by
  unfold Tlsa.parse; calm
  · exact CertUsage.calmly _
  · exact Selector.calmly _
  · exact MatchingType.calmly _
theorem OpenPgpKey.calm : Calm P OpenPgpKey.parse := by unfold OpenPgpKey.parse; calm
theorem Eui48.calm : Calm P Eui48.parse := by unfold Eui48.parse; calm
theorem Eui64.calm : Calm P Eui64.parse := by unfold Eui64.parse; calm
theorem Uri.calm : Calm P Uri.parse := by unfold Uri.parse; calm
theorem Caa.calm : Calm P Caa.parse := by unfold Caa.parse; calm

theorem Txt.calm : Calm P Txt.parse := by
  unfold Txt.parse
  refine .bind (.whileRemaining ?_ ?_) fun _ => .pure _
  · intro s; unfold Txt.step; calm
  · intro s d i s' k h
    simp only [Txt.step, Parser.bind_ok, Parser.pure_ok, extractU8_ok, extractBytes_ok] at h
    obtain ⟨_, _, h1, _, _, ⟨_, h2⟩, _, rfl⟩ := h
    have := octets_stop h1
    have := octets_stop h2
    simp at *; omega

theorem Opt.calm : Calm P Opt.parse := by
  unfold Opt.parse
  refine .bind (.whileRemaining ?_ ?_) fun _ => .pure _
  · intro s; unfold Opt.step; calm
  · intro s d i s' k h
    simp only [Opt.step, Parser.bind_ok, Parser.pure_ok, extractU16_ok, extractBytes_ok] at h
    obtain ⟨_, _, h1, _, _, h3, _, _, ⟨_, h2⟩, _, rfl⟩ := h
    have := octets_stop h1
    have := octets_stop h2
    have := octets_stop h3
    simp [octets16] at *; omega

/-! ### Type bitmaps -/

theorem bind_calmly {α β : Type} {r : Res α} {f : α → Res β} (h1 : Calmly P r)
    (h2 : ∀ a, r = .ok a → Calmly P (f a)) : Calmly P (r >>= f) := by
  cases r with
  | ok a => exact h2 a rfl
  | err e => exact calmly_err e
  | panic k => intro x h; cases x with
    | none => cases h
    | some k' => cases h; exact h1 (some k) rfl
  | hang => intro x h; cases x with
    | none => exact h1 none rfl
    | some k => cases h

theorem addU16_calmly {cfg : Cfg} {a b : Nat}
    (h : 65536 ≤ a + b → cfg.overflowChecks = true → P (some .overflow)) : Calmly P (addU16 cfg a b) := by
  unfold addU16
  split
  · exact calmly_ok _
  · split
    · intro x hx
      cases x with
      | none => cases hx
      | some k => cases hx; exact h (by omega) (by assumption)
    · exact calmly_ok _

/-- A number overflows, in a build that checks. -/
def Overflow (cfg : Cfg) (Q : Prop) (x : Option PanicKind) : Prop :=
  x = some .overflow ∧ cfg.overflowChecks = true ∧ Q

theorem readBit_calmly {cfg : Cfg} {window index i : Nat} {octet : UInt8} {acc : List RecordType}
    (hi : i < 8) : Calmly (Overflow cfg (65536 ≤ 256 * window + 8 * index + 7))
      (Bitmap.readBit cfg window index octet i acc) := by
  unfold Bitmap.readBit
  split
  · refine bind_calmly (addU16_calmly fun h1 h2 => ⟨rfl, h2, by omega⟩) ?_
    intro p hp
    have hp' : p = 256 * window + 8 * index ∨ 65536 ≤ 256 * window + 8 * index := by
      unfold addU16 at hp
      split at hp
      · cases hp; exact Or.inl rfl
      · right; omega
    have hp2 : p ≤ 256 * window + 8 * index := by
      unfold addU16 at hp
      split at hp
      · cases hp; omega
      · split at hp
        · cases hp
        · cases hp; exact Nat.mod_le _ _
    refine bind_calmly (addU16_calmly fun h1 h2 => ⟨rfl, h2, by omega⟩) ?_
    intro q _
    exact bind_calmly (RecordType.calmly _ _) fun _ _ => calmly_ok _
  · exact calmly_ok _

theorem readOctet_calmly {cfg : Cfg} {window index : Nat} {octet : UInt8} :
    ∀ (is : List Nat) (acc : List RecordType), (∀ i ∈ is, i < 8) →
      Calmly (Overflow cfg (65536 ≤ 256 * window + 8 * index + 7)) (Bitmap.readOctet cfg window index octet is acc) := by
  intro is
  induction is with
  | nil => intro acc _; exact calmly_ok _
  | cons i is ih =>
    intro acc h
    unfold Bitmap.readOctet
    exact bind_calmly (readBit_calmly (h i (by simp))) fun _ _ => ih _ fun j hj => h j (by simp [hj])

theorem readWindow_calmly {cfg : Cfg} {window : Nat} :
    ∀ (os : Bytes) (index : Nat) (acc : List RecordType),
      Calmly (Overflow cfg (65536 < 256 * window + 8 * (index + os.length)))
        (Bitmap.readWindow cfg window index os acc) := by
  intro os
  induction os with
  | nil => intro index acc; exact calmly_ok _
  | cons o os ih =>
    intro index acc
    unfold Bitmap.readWindow
    refine bind_calmly ?_ fun a _ => ?_
    · intro x hx
      obtain ⟨h1, h2, h3⟩ := readOctet_calmly _ _ (by decide) x hx
      exact ⟨h1, h2, by simp only [List.length_cons]; omega⟩
    · intro x hx
      obtain ⟨h1, h2, h3⟩ := ih (index + 1) a x hx
      exact ⟨h1, h2, by simp only [List.length_cons]; omega⟩

theorem readStep_pos {cfg : Cfg} {acc acc' : List RecordType} {d : Bytes} {i k : Nat}
    (h : Bitmap.readStep cfg acc d i = (.ok acc', k)) : i < k ∧ k ≤ d.length := by
  simp only [Bitmap.readStep, Parser.bind_ok, Parser.lift_ok, extractU8_ok, extractBytes_ok] at h
  obtain ⟨_, _, h1, _, _, h3, _, _, ⟨_, h2⟩, _, rfl⟩ := h
  have := octets_stop h1
  have := octets_stop h2
  have := octets_stop h3
  have := h2.le
  simp at *; omega

theorem steps_le {σ : Type} {body : σ → Parser σ} {d : Bytes}
    (hadv : ∀ s i s' k, body s d i = (.ok s', k) → i < k ∧ k ≤ d.length) {s s' : σ} {i j : Nat}
    (h : Steps body d s i s' j) : i ≤ j := by
  induction h with
  | done => omega
  | step _ h2 _ ih => have := hadv _ _ _ _ h2; omega

/-! ### SVCB -/

theorem subUsize_even {cfg : Cfg} {len : Nat} (h : len % 2 = 0) (h0 : 0 < len) :
    subUsize cfg len 2 = .ok (len - 2) := by
  unfold subUsize; rw [if_pos (by omega)]

theorem subUsize_calmly {cfg : Cfg} {a b : Nat} (h : cfg.overflowChecks = true → P (some .overflow)) :
    Calmly P (subUsize cfg a b) := by
  unfold subUsize
  split
  · exact calmly_ok _
  · split
    · intro x hx
      cases x with
      | none => cases hx
      | some k => cases hx; exact h (by assumption)
    · exact calmly_ok _

theorem mandatory_fails {cfg : Cfg} {d : Bytes} {x : Option PanicKind} : ∀ (fuel len : Nat)
    (keys : List ParamKey) (i : Nat), i ≤ d.length → d.length < fuel + i →
    Fails (Param.mandatoryLoop cfg fuel len keys) d i x → Overflow cfg (len % 2 = 1) x := by
  intro fuel
  induction fuel with
  | zero => intro len keys i h1 h2; omega
  | succ fuel ih =>
    intro len keys i h1 h2 h
    unfold Param.mandatoryLoop at h
    by_cases h0 : len > 0
    · rw [if_pos h0] at h
      simp only [Fails.bind_iff, Fails.extractU16_iff, false_or, Fails.lift_iff, extractU16_ok,
        Parser.lift_ok] at h
      obtain ⟨k, j, h3, h | ⟨key, _, ⟨h4, rfl⟩, h⟩⟩ := h
      · exact (ParamKey.calmly (P := fun _ => False) k x h).elim
      have h5 := octets_stop h3
      have h6 := h3.le
      simp [octets16] at h5
      by_cases he : len % 2 = 0
      · rw [subUsize_even he h0] at h
        rcases h with h | ⟨len', _, ⟨h7, rfl⟩, h⟩
        · exact absurd h bad_ne_ok
        · cases h7
          obtain ⟨a, b, c⟩ := ih _ _ _ h6 (by omega) h
          omega
      · rcases h with h | ⟨len', _, ⟨h7, rfl⟩, h⟩
        · have := subUsize_calmly (P := Overflow cfg (len % 2 = 1)) (cfg := cfg) (a := len) (b := 2)
            fun hc => ⟨rfl, hc, by omega⟩
          exact this x h
        · obtain ⟨a, b, c⟩ := ih _ _ _ h6 (by omega) h
          exact ⟨a, b, by omega⟩
    · rw [if_neg h0] at h
      exact absurd h bad_ne_ok

theorem alpn_fails {cfg : Cfg} {d : Bytes} {x : Option PanicKind} : ∀ (fuel len : Nat)
    (ids : List Bytes) (i : Nat), i ≤ d.length → d.length < fuel + i →
    Fails (Param.alpnLoop cfg fuel len ids) d i x → Overflow cfg (0 < len) x := by
  intro fuel
  induction fuel with
  | zero => intro len keys i h1 h2; omega
  | succ fuel ih =>
    intro len keys i h1 h2 h
    unfold Param.alpnLoop at h
    by_cases h0 : len > 0
    · rw [if_pos h0] at h
      simp only [Fails.bind_iff, Fails.extractU8_iff, Fails.extractBytes_iff, false_or, Fails.lift_iff,
        extractU8_ok, extractBytes_ok, Parser.lift_ok] at h
      obtain ⟨n, j, h3, b, j2, ⟨h4, h5⟩, h⟩ := h
      have h6 := octets_stop h3
      have h7 := octets_stop h5
      have h8 := h5.le
      simp at h6
      rcases h with h | ⟨len', _, ⟨h9, rfl⟩, h⟩
      · have := subUsize_calmly (P := Overflow cfg (0 < len)) (cfg := cfg) (a := len) (b := n.toNat + 1)
          fun hc => ⟨rfl, hc, h0⟩
        exact this x h
      · obtain ⟨a, b, _⟩ := ih _ _ _ h8 (by omega) h
        exact ⟨a, b, h0⟩
    · rw [if_neg h0] at h
      exact absurd h bad_ne_ok

theorem mandatory_pos {cfg : Cfg} {d : Bytes} : ∀ (fuel len : Nat) (keys l : List ParamKey) (i j : Nat),
    Param.mandatoryLoop cfg fuel len keys d i = (.ok l, j) → i ≤ j := by
  intro fuel
  induction fuel with
  | zero => intro len keys l i j h; simp [Param.mandatoryLoop, Parser.lift] at h
  | succ fuel ih =>
    intro len keys l i j h
    unfold Param.mandatoryLoop at h
    by_cases h0 : len > 0
    · rw [if_pos h0] at h
      simp only [Parser.bind_ok, extractU16_ok, Parser.lift_ok] at h
      obtain ⟨k, j1, h3, _, _, ⟨_, rfl⟩, _, _, ⟨_, rfl⟩, h⟩ := h
      have := octets_stop h3
      have := ih _ _ _ _ _ h
      omega
    · rw [if_neg h0, Parser.pure_ok] at h
      omega

theorem alpn_pos {cfg : Cfg} {d : Bytes} : ∀ (fuel len : Nat) (ids l : List Bytes) (i j : Nat),
    Param.alpnLoop cfg fuel len ids d i = (.ok l, j) → i ≤ j := by
  intro fuel
  induction fuel with
  | zero => intro len keys l i j h; simp [Param.alpnLoop, Parser.lift] at h
  | succ fuel ih =>
    intro len keys l i j h
    unfold Param.alpnLoop at h
    by_cases h0 : len > 0
    · rw [if_pos h0] at h
      simp only [Parser.bind_ok, extractU8_ok, extractBytes_ok, Parser.lift_ok] at h
      obtain ⟨k, j1, h3, _, _, ⟨_, h4⟩, _, _, ⟨_, rfl⟩, h⟩ := h
      have := octets_stop h3
      have := octets_stop h4
      have := ih _ _ _ _ _ h
      omega
    · rw [if_neg h0, Parser.pure_ok] at h
      omega

theorem Param.parseValue_pos {cfg : Cfg} {d : Bytes} {key : ParamKey} {len i j : Nat} {p : Param}
    (h : Param.parseValue cfg key len d i = (.ok p, j)) : i ≤ j := by
  cases key <;> simp only [Param.parseValue, Parser.bind_ok, Parser.pure_ok, extractU16_ok, extractU32_ok,
    extractU128_ok (N := Decodes), extractBytes_ok, Item.At] at h
  · obtain ⟨_, k, h1, _, _, h2, _, rfl⟩ := h
    cases h1; exact mandatory_pos _ _ _ _ _ _ h2
  · obtain ⟨_, k, h1, _, _, h2, _, rfl⟩ := h
    cases h1; exact alpn_pos _ _ _ _ _ _ h2
  · omega
  · obtain ⟨_, _, h1, _, rfl⟩ := h; have := octets_stop h1; omega
  · obtain ⟨_, _, h1, _, rfl⟩ := h; have := octets_stop h1; omega
  · obtain ⟨_, _, ⟨_, h1⟩, _, rfl⟩ := h; have := octets_stop h1; omega
  · obtain ⟨_, _, ⟨_, h1, _⟩, _, rfl⟩ := h; have := octets_stop h1; omega
  · obtain ⟨_, _, ⟨_, h1⟩, _, rfl⟩ := h; have := octets_stop h1; omega
  · omega

theorem Param.parse_pos {cfg : Cfg} {d : Bytes} {i j : Nat} {p : Param}
    (h : Param.parse cfg d i = (.ok p, j)) : i < j := by
  simp only [Param.parse, Parser.bind_ok, extractU16_ok, Parser.lift_ok] at h
  obtain ⟨k, j1, h3, _, _, ⟨_, rfl⟩, _, _, h4, h⟩ := h
  have := octets_stop h3
  have := octets_stop h4
  have := Param.parseValue_pos h
  simp [octets16] at *
  omega

/-- Key numbers of the two parameters that contain lists. -/
theorem ParamKey.ofU16_list {k : UInt16} :
    (ParamKey.ofU16 k = .ok .mandatory → k = 0) ∧ (ParamKey.ofU16 k = .ok .alpn → k = 1) := by
  unfold ParamKey.ofU16
  constructor
  · intro h; split at h <;> first | rfl | (simp at h) | skip
    all_goals (split at h <;> simp at h)
  · intro h; split at h <;> first | rfl | (simp at h) | skip
    all_goals (split at h <;> simp at h)

theorem Param.fails {cfg : Cfg} {d : Bytes} {i : Nat} {x : Option PanicKind}
    (h : Fails (Param.parse cfg) d i x) :
    Overflow cfg (∃ len : UInt16, 0 < len.toNat ∧
      (Octets d i ([0, 0] ++ octets16 len) (i + 4) ∧ len.toNat % 2 = 1 ∨
        Octets d i ([0, 1] ++ octets16 len) (i + 4))) x := by
  simp only [Param.parse, Fails.bind_iff, Fails.extractU16_iff, false_or, Fails.lift_iff, extractU16_ok,
    Parser.lift_ok] at h
  obtain ⟨k, j, h1, h | ⟨key, _, ⟨h2, rfl⟩, len, j2, h3, h⟩⟩ := h
  · exact (ParamKey.calmly (P := fun _ => False) k x h).elim
  have e1 := octets_stop h1
  have e2 := octets_stop h3
  have e3 := h3.le
  simp [octets16] at e1 e2
  have h4 : Octets d i (octets16 k ++ octets16 len) (i + 4) := by
    have := octets_append.mpr ⟨_, h1, h3⟩
    rwa [e2, e1] at this
  cases key <;> simp only [Param.parseValue, Fails.bind_iff, Fails.extractU16_iff, Fails.extractU32_iff,
    Fails.extractBytes_iff, Fails.pure_iff, and_false, exists_false, or_false] at h
  · rcases h with h | ⟨fuel, k', hf, h⟩
    · exact absurd h bad_ne_ok
    · cases hf
      obtain ⟨a, b, c⟩ := mandatory_fails _ _ _ _ e3 (by omega) h
      obtain rfl := ParamKey.ofU16_list.1 h2
      exact ⟨a, b, len, by omega, Or.inl ⟨h4, c⟩⟩
  · rcases h with h | ⟨fuel, k', hf, h⟩
    · exact absurd h bad_ne_ok
    · cases hf
      obtain ⟨a, b, c⟩ := alpn_fails _ _ _ _ e3 (by omega) h
      obtain rfl := ParamKey.ofU16_list.2 h2
      exact ⟨a, b, len, c, Or.inr h4⟩
  · simp only [extractU128, Fails.bind_iff, Fails.extractBytes_iff, Fails.pure_iff, and_false,
      exists_false, or_false] at h

/-! ### Record data with names -/

/-- A conversion of a number does not fail. -/
theorem calmly_iff {α : Type} {r : Res α} (h : Calmly (fun _ => False) r) (x : Option PanicKind) :
    r = bad x ↔ False := ⟨h x, False.elim⟩

theorem rest_iff {d : Bytes} {i : Nat} {x : Option PanicKind} (hi : i ≤ d.length) :
    Fails extractRest d i x ↔ False :=
  ⟨(Calm.extractRest (P := fun _ => False) d i hi).2 x, False.elim⟩

theorem extractU128_iff {d : Bytes} {i : Nat} {x : Option PanicKind} :
    Fails extractU128 d i x ↔ False := by
  simp only [extractU128, Fails.bind_iff, Fails.pure_iff, Fails.extractBytes_iff, and_false, exists_false,
    or_false]

theorem Ns.fails {d : Bytes} {k : Nat} {x : Option PanicKind} :
    Fails Ns.parse d k x ↔ Fails extractFqdn d k x := by
  simp only [Ns.parse, Fails.bind_iff, Fails.pure_iff, and_false, exists_false, or_false]
theorem Cname.fails {d : Bytes} {k : Nat} {x : Option PanicKind} :
    Fails Cname.parse d k x ↔ Fails extractFqdn d k x := by
  simp only [Cname.parse, Fails.bind_iff, Fails.pure_iff, and_false, exists_false, or_false]
theorem Ptr.fails {d : Bytes} {k : Nat} {x : Option PanicKind} :
    Fails Ptr.parse d k x ↔ Fails extractFqdn d k x := by
  simp only [Ptr.parse, Fails.bind_iff, Fails.pure_iff, and_false, exists_false, or_false]
theorem Mx.fails {d : Bytes} {k : Nat} {x : Option PanicKind} :
    Fails Mx.parse d k x ↔ ∃ a i, Octets d k (octets16 a) i ∧ Fails extractFqdn d i x := by
  simp only [Mx.parse, Fails.bind_iff, Fails.pure_iff, Fails.extractU16_iff, extractU16_ok, and_false,
    exists_false, or_false, false_or]
theorem Soa.fails {d : Bytes} {k : Nat} {x : Option PanicKind} :
    Fails Soa.parse d k x ↔ Fails extractFqdn d k x ∨
      ∃ n i, extractFqdn d k = (.ok n, i) ∧ Fails extractFqdn d i x := by
  simp only [Soa.parse, Fails.bind_iff, Fails.pure_iff, Fails.extractU32_iff, and_false,
    exists_false, or_false]
theorem Minfo.fails {d : Bytes} {k : Nat} {x : Option PanicKind} :
    Fails Minfo.parse d k x ↔ Fails extractFqdn d k x ∨
      ∃ n i, extractFqdn d k = (.ok n, i) ∧ Fails extractFqdn d i x := by
  simp only [Minfo.parse, Fails.bind_iff, Fails.pure_iff, and_false, exists_false, or_false]
theorem Srv.fails {d : Bytes} {k : Nat} {x : Option PanicKind} :
    Fails Srv.parse d k x ↔ ∃ a i1, Octets d k (octets16 a) i1 ∧ ∃ b i2, Octets d i1 (octets16 b) i2 ∧
      ∃ c i, Octets d i2 (octets16 c) i ∧ Fails extractFqdn d i x := by
  simp only [Srv.parse, Fails.bind_iff, Fails.pure_iff, Fails.extractU16_iff, extractU16_ok, and_false,
    exists_false, or_false, false_or]
theorem Naptr.fails {d : Bytes} {k : Nat} {x : Option PanicKind} :
    Fails Naptr.parse d k x ↔ ∃ a i1, Octets d k (octets16 a) i1 ∧ ∃ b i2, Octets d i1 (octets16 b) i2 ∧
      ∃ f i3, (f.length < 256 ∧ Octets d i2 (UInt8.ofNat f.length :: f) i3) ∧
      ∃ s i4, (s.length < 256 ∧ Octets d i3 (UInt8.ofNat s.length :: s) i4) ∧
      ∃ r i, ((r.length < 256 ∧ Octets d i4 (UInt8.ofNat r.length :: r) i) ∧ utf8Valid r = true) ∧
        Fails extractFqdn d i x := by
  simp only [Naptr.parse, Fails.bind_iff, Fails.pure_iff, Fails.extractU16_iff, extractU16_ok,
    Fails.extractCharacterString_iff, Fails.extractString_iff, extractCharacterString_ok, extractString_ok,
    and_false, exists_false, or_false, false_or]

theorem Rrsig.fails {cfg : Cfg} {d : Bytes} {k : Nat} {x : Option PanicKind} :
    Fails (Rrsig.parse cfg) d k x ↔ ∃ i, NameField Decodes cfg .RRSIG d k i ∧ Fails extractFqdn d i x := by
  simp only [Rrsig.parse, Fails.bind_iff, Fails.pure_iff, Fails.extractU16_iff, Fails.extractU32_iff,
    Fails.extractU8_iff, extractU16_ok, extractU32_ok, extractU8_ok, Fails.lift_iff, Parser.lift_ok,
    calmly_iff (RecordType.calmly _ _), calmly_iff (SecAlgorithm.calmly _), RecordType.ofU16_ok,
    SecAlgorithm.ofU8_ok, and_false, exists_false, or_false, false_or, NameField, Items.At, Item.At, o16, o8]
  constructor
  · rintro ⟨_, i1, h1, t, _, ⟨⟨h2, rfl⟩, rfl⟩, _, i2, h3, a, _, ⟨rfl, rfl⟩, l, i4, h4, ttl, i5, h5, e, i6, h6,
      ic, i7, h7, tag, i8, h8, h | ⟨n, i9, h9, h⟩⟩
    · exact ⟨i8, ⟨t, a, l, ttl, e, ic, tag, h2, i1, h1, i2, h3, i4, h4, i5, h5, i6, h6, i7, h7, i8, h8, rfl⟩, h⟩
    · exact ((rest_iff (extractFqdn_pos h9).2).mp h).elim
  · rintro ⟨_, ⟨t, a, l, ttl, e, ic, tag, h2, i1, h1, i2, h3, i4, h4, i5, h5, i6, h6, i7, h7, i8, h8, rfl⟩, h⟩
    exact ⟨_, i1, h1, t, _, ⟨⟨h2, rfl⟩, rfl⟩, _, i2, h3, a, _, ⟨rfl, rfl⟩, l, i4, h4, ttl, i5, h5, e, i6, h6,
      ic, i7, h7, tag, i8, h8, Or.inl h⟩

theorem Gateway.fails {t : UInt8} {d : Bytes} {k : Nat} {x : Option PanicKind} :
    Fails (Gateway.parse t) d k x ↔ t = 3 ∧ Fails extractFqdn d k x := by
  unfold Gateway.parse
  split
  all_goals try simp only [Fails.bind_iff, Fails.pure_iff, Fails.extractU8_iff, Fails.extractU32_iff,
    extractU128_iff, and_false, exists_false, or_false]
  · simp
  · simp
  · simp
  · simp
  · rename_i h
    simp only [show ¬ t = 3 from h, false_and, iff_false]
    exact bad_ne_err

theorem IpSecKey.fails {cfg : Cfg} {d : Bytes} {k : Nat} {x : Option PanicKind} :
    Fails IpSecKey.parse d k x ↔ ∃ i, NameField Decodes cfg .IPSECKEY d k i ∧ Fails extractFqdn d i x := by
  simp only [IpSecKey.parse, Fails.bind_iff, Fails.pure_iff,
    Fails.extractU8_iff, extractU8_ok, Fails.lift_iff, Parser.lift_ok, Gateway.fails,
    calmly_iff (Algorithm.calmly _), Algorithm.ofU8_ok, and_false, exists_false, or_false, false_or,
    NameField, Items.At, Item.At, o8]
  constructor
  · rintro ⟨p, i1, h1, t, i2, h2, _, i3, h3, a, _, ⟨rfl, rfl⟩, ⟨rfl, h⟩ | ⟨g, i4, h4, h⟩⟩
    · exact ⟨_, ⟨p, a, i1, h1, i2, h2, _, h3, rfl⟩, h⟩
    · have hb := Gateway.bounded t d i3 h3.le
      rw [h4] at hb
      exact ((rest_iff hb).mp h).elim
  · rintro ⟨_, ⟨p, a, i1, h1, i2, h2, _, h3, rfl⟩, h⟩
    exact ⟨p, i1, h1, 3, i2, h2, _, _, h3, a, _, ⟨rfl, rfl⟩, Or.inl ⟨rfl, h⟩⟩

theorem steps_names {d : Bytes} {s s' : List Fqdn} {i k : Nat} :
    Steps Hip.step d s i s' k ↔ ∃ ns, s' = s ++ ns ∧ Seq extractFqdn d i ns k := by
  have hs : ∀ acc n i k, Hip.step acc d i = (.ok n, k) ↔
      ∃ m, extractFqdn d i = (.ok m, k) ∧ n = acc ++ [m] := by
    intro acc n i k
    simp only [Hip.step, Parser.bind_ok, Parser.pure_ok]
    constructor
    · rintro ⟨m, _, h, rfl, rfl⟩; exact ⟨m, h, rfl⟩
    · rintro ⟨m, h, rfl⟩; exact ⟨m, _, h, rfl, rfl⟩
  constructor
  · intro h
    induction h with
    | done => exact ⟨[], by simp, rfl⟩
    | step h1 h2 _ ih =>
      obtain ⟨ns, rfl, h3⟩ := ih
      obtain ⟨m, h4, rfl⟩ := (hs _ _ _ _).mp h2
      exact ⟨m :: ns, by simp, _, h4, h3⟩
  · rintro ⟨ns, rfl, h⟩
    induction ns generalizing s i with
    | nil => cases h; rw [List.append_nil]; exact .done
    | cons n ns ih =>
      obtain ⟨j, h1, h2⟩ := h
      have := extractFqdn_pos h1
      have h3 := ih (s := s ++ [n]) h2
      rw [List.append_assoc] at h3
      exact .step (by omega) ((hs _ _ _ _).mpr ⟨n, h1, rfl⟩) h3

theorem Hip.servers_fails {d : Bytes} {k : Nat} {x : Option PanicKind} (hk : k ≤ d.length) :
    Fails Hip.parseServers d k x ↔ ∃ (ns : List Fqdn) (i : Nat), Items.At Decodes d k (ns.map .name) i ∧ i < d.length ∧
      Fails extractFqdn d i x := by
  have hadv : ∀ s i s' j, i ≤ d.length → Hip.step s d i = (.ok s', j) → i < j ∧ j ≤ d.length := by
    intro s i s' j _ h
    simp only [Hip.step, Parser.bind_ok, Parser.pure_ok] at h
    obtain ⟨m, _, h, rfl, rfl⟩ := h
    exact extractFqdn_pos h
  have hw : Fails (whileRemaining [] Hip.step) d k x ↔ ∃ (ns : List Fqdn) (i : Nat), Items.At Decodes d k (ns.map .name) i ∧
      i < d.length ∧ Fails extractFqdn d i x := by
    rw [Fails.while_iff hadv hk]
    simp only [steps_names, List.nil_append, Hip.step, Fails.bind_iff, Fails.pure_iff, and_false,
      exists_false, or_false, seq_names]
    constructor
    · rintro ⟨s, i, ⟨ns, rfl, h⟩, h1, h2⟩; exact ⟨_, i, h, h1, h2⟩
    · rintro ⟨s, i, h, h1, h2⟩; exact ⟨s, i, ⟨s, rfl, h⟩, h1, h2⟩
  have hr : remaining d k = (.ok (d.length - k), k) := remaining_ok.mpr ⟨hk, rfl, rfl⟩
  unfold Hip.parseServers
  rw [Fails.bind_iff]
  constructor
  · rintro (h | ⟨n, j, h1, h2⟩)
    · exact ((Calm.remaining (P := fun _ => False) d k hk).2 x h).elim
    · rw [hr] at h1
      cases h1
      by_cases h0 : d.length - k > 0
      · rw [if_pos h0] at h2
        simp only [Fails.bind_iff, Fails.pure_iff, and_false, exists_false, or_false] at h2
        exact hw.mp h2
      · rw [if_neg h0] at h2
        exact (Fails.pure_iff.mp h2).elim
  · intro h
    refine Or.inr ⟨_, _, hr, ?_⟩
    have h0 : d.length - k > 0 := by
      obtain ⟨ns, i, h1, h2, _⟩ := h
      have : Steps Hip.step d [] k ns i := steps_names.mpr ⟨ns, rfl, seq_names.mpr h1⟩
      have := steps_le (fun s i s' j h => hadv s i s' j (by
        simp only [Hip.step, Parser.bind_ok, Parser.pure_ok] at h
        obtain ⟨m, _, h, rfl, rfl⟩ := h
        have := extractFqdn_pos h
        omega) h) this
      omega
    rw [if_pos h0]
    simp only [Fails.bind_iff, Fails.pure_iff, and_false, exists_false, or_false]
    exact hw.mpr h

theorem Hip.fails {cfg : Cfg} {d : Bytes} {k : Nat} {x : Option PanicKind} :
    Fails Hip.parse d k x ↔ ∃ i, NameField Decodes cfg .HIP d k i ∧ Fails extractFqdn d i x := by
  simp only [Hip.parse, Fails.bind_iff, Fails.pure_iff, Fails.extractBytes_iff, Fails.extractU16_iff,
    Fails.extractU8_iff, extractU8_ok, extractU16_ok, extractBytes_ok, Fails.lift_iff, Parser.lift_ok,
    calmly_iff (Algorithm.calmly _), Algorithm.ofU8_ok, and_false, exists_false, or_false, false_or,
    NameField, List.cons_append, List.nil_append, Items.At, Item.At, o8, o16]
  constructor
  · rintro ⟨n, i1, h1, _, i2, h2, a, _, ⟨rfl, rfl⟩, m, i4, h4, hit, i5, ⟨e5, h5⟩, key, i6, ⟨e6, h6⟩, h⟩
    obtain ⟨ns, i, h7, h8, h9⟩ := (Hip.servers_fails h6.le).mp h
    refine ⟨i, ⟨h8, a, hit, key, ns, by have := n.toNat_lt; omega, by have := m.toNat_lt; omega, i1, ?_, i2,
      h2, i4, ?_, i5, h5, i6, h6, h7⟩, h9⟩
    · rw [e5, UInt8.ofNat_toNat]; exact h1
    · rw [e6, UInt16.ofNat_toNat]; exact h4
  · rintro ⟨i, ⟨h8, a, hit, key, ns, ha, hb, i1, h1, i2, h2, i4, h4, i5, h5, i6, h6, h7⟩, h9⟩
    exact ⟨_, i1, h1, _, i2, h2, a, _, ⟨rfl, rfl⟩, _, i4, h4, hit, i5,
      ⟨(UInt8.toNat_ofNat_of_lt' (by simpa using ha)).symm, h5⟩, key, i6,
      ⟨(UInt16.toNat_ofNat_of_lt' (by simpa using hb)).symm, h6⟩,
      (Hip.servers_fails h6.le).mpr ⟨ns, i, h7, h8, h9⟩⟩

theorem Tkey.fails {d : Bytes} {k : Nat} {x : Option PanicKind} :
    Fails Tkey.parse d k x ↔ Fails extractFqdn d k x := by
  simp only [Tkey.parse, Fails.bind_iff, Fails.pure_iff, Fails.extractBytes_iff, Fails.extractU16_iff,
    Fails.extractU32_iff, Fails.lift_iff, calmly_iff (TkeyMode.calmly _), calmly_iff (TkeyError.calmly _),
    and_false, exists_false, or_false]

theorem Tsig.fails {d : Bytes} {k : Nat} {x : Option PanicKind} :
    Fails Tsig.parse d k x ↔ Fails extractFqdn d k x := by
  simp only [Tsig.parse, Fails.bind_iff, Fails.pure_iff, Fails.extractBytes_iff, Fails.extractU16_iff,
    Fails.lift_iff, calmly_iff (TsigError.calmly _), and_false, exists_false, or_false]

theorem bind_pure_fails {α β : Type} {p : Parser α} {f : α → β} {d : Bytes} {k : Nat}
    {x : Option PanicKind} : Fails (p >>= fun a => pure (f a)) d k x ↔ Fails p d k x := by
  simp only [Fails.bind_iff, Fails.pure_iff, and_false, exists_false, or_false]

/-- Record data: a name expected makes the parser fail. -/
theorem RecordData.fails_of_name {cfg : Cfg} {t : RecordType} {d : Bytes} {k i : Nat}
    {x : Option PanicKind} (h1 : NameField Decodes cfg t d k i) (h2 : Fails extractFqdn d i x) :
    Fails (RecordData.parse cfg t) d k x := by
  cases t <;> simp only [RecordData.parse, bind_pure_fails]
  all_goals try exact h1.elim
  case NS => cases h1; exact Ns.fails.mpr h2
  case CNAME => cases h1; exact Cname.fails.mpr h2
  case PTR => cases h1; exact Ptr.fails.mpr h2
  case SOA =>
    rw [Soa.fails]
    rcases h1 with rfl | ⟨n, h1⟩
    · exact Or.inl h2
    · exact Or.inr ⟨n, i, h1, h2⟩
  case MINFO =>
    rw [Minfo.fails]
    rcases h1 with rfl | ⟨n, h1⟩
    · exact Or.inl h2
    · exact Or.inr ⟨n, i, h1, h2⟩
  case MX => obtain ⟨a, _, h1, rfl⟩ := h1; exact Mx.fails.mpr ⟨a, _, h1, h2⟩
  case SRV =>
    obtain ⟨a, b, c, i1, h3, i2, h4, i3, h5, rfl⟩ := h1
    exact Srv.fails.mpr ⟨a, i1, h3, b, i2, h4, c, _, h5, h2⟩
  case NAPTR =>
    obtain ⟨a, b, f, s, r, hu, i1, h3, i2, h4, i3, h5, i4, h6, i5, h7, rfl⟩ := h1
    exact Naptr.fails.mpr ⟨a, i1, h3, b, i2, h4, f, i3, h5, s, i4, h6, r, _, ⟨h7, hu⟩, h2⟩
  case IPSECKEY => exact (IpSecKey.fails (cfg := cfg)).mpr ⟨i, h1, h2⟩
  case RRSIG => exact Rrsig.fails.mpr ⟨i, h1, h2⟩
  case NSEC =>
    cases h1
    unfold Nsec.parse
    exact Fails.bind_iff.mpr (Or.inl h2)
  case HIP => exact (Hip.fails (cfg := cfg)).mpr ⟨i, h1, h2⟩
  case SVCB =>
    obtain ⟨a, _, h1, rfl⟩ := h1
    unfold Svcb.parse
    exact Fails.bind_iff.mpr (Or.inr ⟨a, _, extractU16_ok.mpr h1, Fails.bind_iff.mpr (Or.inl h2)⟩)
  case TKEY => cases h1; exact Tkey.fails.mpr h2
  case TSIG => cases h1; exact Tsig.fails.mpr h2

theorem calm_fails {α : Type} {p : Parser α} (h : Calm (fun _ => False) p) {d : Bytes} {k : Nat}
    (hk : k ≤ d.length) {x : Option PanicKind} {Q : Prop} (hf : Fails p d k x) : Q :=
  ((h d k hk).2 x hf).elim

/-! ### Questions, records, packets -/

theorem Question.fails {cfg : Cfg} {d : Bytes} {k : Nat} {x : Option PanicKind} :
    Fails (Question.parse cfg) d k x ↔ Fails extractFqdn d k x := by
  have hc : ∀ (v : UInt16) (j : Nat) (f : QClass → Question),
      Fails (Parser.lift (QClass.ofU16 v) >>= fun c => pure (f c)) d j x ↔ False := by
    intro v j f
    rw [bind_pure_fails, Fails.lift_iff, calmly_iff (QClass.calmly _)]
  simp only [Question.parse, Fails.bind_iff, Fails.extractU16_iff, Fails.lift_iff,
    calmly_iff (QType.calmly _ _), false_or]
  constructor
  · rintro (h | ⟨n, i1, _, t, i2, _, t', i3, _, v, i4, _, h⟩)
    · exact h
    · exfalso
      split at h
      · split at h <;> exact (hc _ _ _).mp h
      · exact (hc _ _ _).mp h
  · exact Or.inl

theorem parseClass_calm {cfg : Cfg} : Calm P (ResourceRecord.parseClass cfg) := by
  unfold ResourceRecord.parseClass; calm

theorem class_field (cfg : Cfg) (v : UInt16) : ∃ c f, classOk c ∧ ClassField cfg (classNumber c) f v := by
  obtain ⟨h1, h2⟩ := RecordClass.ofU16_eq.mp (rfl : RecordClass.ofU16 v = _)
  exact ⟨_, _, h1, h2, rfl⟩

/-- A record fails in its name or in its data. -/
theorem ResourceRecord.fails {cfg : Cfg} {d : Bytes} {i : Nat} {x : Option PanicKind} :
    Fails (ResourceRecord.parse cfg) d i x ↔ Fails extractFqdn d i x ∨
      ∃ name t cls ttl len k, Readable cfg t ∧ Items.At Decodes d i (headItems name t cls ttl len) k ∧
        k + len.toNat ≤ d.length ∧ Fails (RecordData.parse cfg t) (d.take (k + len.toNat)) k x := by
  simp only [ResourceRecord.parse, Fails.bind_iff, Fails.extractU16_iff, Fails.extractU32_iff,
    Fails.advance_iff, Fails.pure_iff, Fails.lift_iff, calmly_iff (RecordType.calmly _ _), Parser.lift_ok,
    RecordType.ofU16_ok, extractU16_ok, extractU32_ok, Fails.withSubBuffer_iff, false_or, and_false,
    exists_false, or_false, headItems, Items.At, Item.At, o16]
  apply or_congr Iff.rfl
  constructor
  · rintro ⟨n, k1, h1, _, k2, h2, t, _, ⟨⟨h3, rfl⟩, rfl⟩, h | ⟨⟨c, f⟩, k3, h4, ttl, k4, h5, len, k5, h6, h7, h8⟩⟩
    · exact ((parseClass_calm (P := fun _ => False) d _ h2.le).2 x h).elim
    · obtain ⟨_, v, _, h4⟩ := ResourceRecord.parseClass_ok.mp h4
      rw [Nat.add_comm] at h7 h8
      exact ⟨n, t, v, ttl, len, k5, h3, ⟨k1, h1, k2, h2, k3, h4, k4, h5, k5, h6, rfl⟩, h7, h8⟩
  · rintro ⟨n, t, v, ttl, len, _, h3, ⟨k1, h1, k2, h2, k3, h4, k4, h5, k5, h6, rfl⟩, h7, h8⟩
    obtain ⟨c, f, hc, hf⟩ := class_field cfg v
    rw [Nat.add_comm] at h7 h8
    exact ⟨n, k1, h1, _, k2, h2, t, _, ⟨⟨h3, rfl⟩, rfl⟩, Or.inr ⟨(c, f), k3,
      ResourceRecord.parseClass_ok.mpr ⟨hc, v, hf, h4⟩, ttl, k4, h5, len, _, h6, h7, h8⟩⟩

theorem listAt_append {α : Type} {R : Nat → α → Nat → Prop} {xs ys : List α} {i j : Nat} :
    ListAt R i (xs ++ ys) j ↔ ∃ k, ListAt R i xs k ∧ ListAt R k ys j := by
  induction xs generalizing i with
  | nil => simp [ListAt]
  | cons x xs ih =>
    simp only [List.cons_append, ListAt, ih]
    constructor
    · rintro ⟨k, h1, m, h2, h3⟩; exact ⟨m, ⟨k, h1, h2⟩, h3⟩
    · rintro ⟨m, ⟨k, h1, h2⟩, h3⟩; exact ⟨k, h1, m, h2, h3⟩

/-- The sections of records follow each other. -/
theorem sections_iff {R : Nat → ResourceRecord → Nat → Prop} {F : Nat → Prop} {a b c i : Nat} :
    ((∃ xs k, xs.length < a ∧ ListAt R i xs k ∧ F k) ∨
      ∃ xs k, (xs.length = a ∧ ListAt R i xs k) ∧
        ((∃ ys m, ys.length < b ∧ ListAt R k ys m ∧ F m) ∨
          ∃ ys m, (ys.length = b ∧ ListAt R k ys m) ∧ ∃ zs n, zs.length < c ∧ ListAt R m zs n ∧ F n)) ↔
    ∃ xs k, xs.length < a + b + c ∧ ListAt R i xs k ∧ F k := by
  constructor
  · rintro (⟨xs, k, h1, h2, h3⟩ | ⟨xs, k, ⟨h1, h2⟩, ⟨ys, m, h3, h4, h5⟩ | ⟨ys, m, ⟨h3, h4⟩, zs, n, h5, h6, h7⟩⟩)
    · exact ⟨xs, k, by omega, h2, h3⟩
    · exact ⟨xs ++ ys, m, by simp; omega, listAt_append.mpr ⟨k, h2, h4⟩, h5⟩
    · exact ⟨xs ++ ys ++ zs, n, by simp; omega,
        listAt_append.mpr ⟨m, listAt_append.mpr ⟨k, h2, h4⟩, h6⟩, h7⟩
  · rintro ⟨xs, k, h1, h2, h3⟩
    by_cases ha : xs.length < a
    · exact Or.inl ⟨xs, k, ha, h2, h3⟩
    · rw [← List.take_append_drop a xs] at h2
      obtain ⟨j, h4, h5⟩ := listAt_append.mp h2
      refine Or.inr ⟨xs.take a, j, ⟨by simp; omega, h4⟩, ?_⟩
      by_cases hb : (xs.drop a).length < b
      · exact Or.inl ⟨xs.drop a, k, hb, h5, h3⟩
      · rw [← List.take_append_drop b (xs.drop a)] at h5
        obtain ⟨m, h6, h7⟩ := listAt_append.mp h5
        refine Or.inr ⟨_, m, ⟨by simp at hb ⊢; omega, h6⟩, _, k, ?_, h7, h3⟩
        simp at hb ⊢; omega

theorem header_calm : Calm P Header.parse := by unfold Header.parse; calm

/-- A packet fails in a question, or in a record. -/
theorem Packet.fails {cfg : Cfg} {d : Bytes} {x : Option PanicKind} :
    Fails (Packet.parseBuf cfg) d 0 x ↔
      (∃ i, AtQuestion (QuestionAt Decodes cfg d) Decodes d i ∧ Fails extractFqdn d i x) ∨
      (∃ i, AtRecord (QuestionAt Decodes cfg d) (RecordAtWith (ParsedData cfg) Decodes cfg d) Decodes d i ∧
        Fails (ResourceRecord.parse cfg) d i x) := by
  simp only [Packet.parseBuf, Fails.bind_iff, Fails.pure_iff, and_false, exists_false, or_false,
    Fails.times_iff, seq_times, seq_listAt (fun i x j => Question.parse_ok),
    seq_listAt (fun i x j => ResourceRecord.parse_ok), Header.parse_ok (N := Decodes), sections_iff,
    Question.fails]
  constructor
  · rintro (h | ⟨h, i0, h1, ⟨qs, i, h2, h3, h4⟩ | ⟨qs, i1, ⟨h2, h3⟩, rs, i, h4, h5, h6⟩⟩)
    · exact ((header_calm (P := fun _ => False) d 0 (Nat.zero_le _)).2 x h).elim
    · exact Or.inl ⟨i, ⟨h, qs, i0, h1, h2, h3⟩, h4⟩
    · exact Or.inr ⟨i, ⟨h, qs, rs, i0, i1, h1, h2, h3, h4, h5⟩, h6⟩
  · rintro (⟨i, ⟨h, qs, i0, h1, h2, h3⟩, h4⟩ | ⟨i, ⟨h, qs, rs, i0, i1, h1, h2, h3, h4, h5⟩, h6⟩)
    · exact Or.inr ⟨h, i0, h1, Or.inl ⟨qs, i, h2, h3, h4⟩⟩
    · exact Or.inr ⟨h, i0, h1, Or.inr ⟨qs, i1, ⟨h2, h3⟩, rs, i, h4, h5, h6⟩⟩

end Dns
