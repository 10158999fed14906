import Verif.Spec.Errors
import Verif.Lemmas.SafeRData
import Verif.Lemmas.BitmapParse
import Verif.Props.Codes

/-! Which errors the parsers return. -/

namespace Dns
open Spec Buf

variable {α β σ : Type}

/-- On the data `d`, the parser only returns errors with `Q`. -/
def Blames (Q : DnsError → Prop) (d : Bytes) (p : Parser α) : Prop := ∀ i e j, p d i = (.err e, j) → Q e

/-- The conversion only returns errors with `Q`. -/
def Blame (Q : DnsError → Prop) (r : Res α) : Prop := ∀ e, r = .err e → Q e

section
variable {Q : DnsError → Prop} {d : Bytes}

theorem blame_ok (a : α) : Blame Q (Res.ok a) := fun _ h => nomatch h
theorem blame_panic (k : PanicKind) : Blame Q (Res.panic k : Res α) := fun _ h => nomatch h
theorem blame_hang : Blame Q (Res.hang : Res α) := fun _ h => nomatch h
theorem blame_err {e : DnsError} (h : Q e) : Blame Q (Res.err e : Res α) := fun _ h' => by cases h'; exact h

theorem Blame.bind {r : Res α} {f : α → Res β} (h : Blame Q r) (hf : ∀ a, r = .ok a → Blame Q (f a)) :
    Blame Q (r >>= f) := by
  intro e he
  cases r with
  | ok a => exact hf a rfl e he
  | err x => cases he; exact h _ rfl
  | panic k => cases he
  | hang => cases he

namespace Blames

theorem pure (a : α) : Blames Q d (Pure.pure a : Parser α) := by
  intro i e j h; rw [Parser.pure_apply] at h; cases h
theorem lift {r : Res α} (h : Blame Q r) : Blames Q d (Parser.lift r) := by
  intro i e j h'; rw [Parser.lift_apply] at h'; cases h'; exact h e rfl
theorem fail {e : DnsError} (h : Q e) : Blames Q d (Parser.fail e : Parser α) := by
  intro i e j h'; rw [Parser.fail_apply] at h'; cases h'; exact h

theorem bind {p : Parser α} {f : α → Parser β} (hp : Blames Q d p)
    (hf : ∀ a, (∃ i j, p d i = (.ok a, j)) → Blames Q d (f a)) : Blames Q d (p >>= f) := by
  intro i e j h
  rw [Parser.bind_apply] at h
  rcases hx : p d i with ⟨r, k⟩
  rw [hx] at h
  cases r with
  | ok a => exact hf a ⟨i, k, hx⟩ _ _ _ h
  | err x => cases h; exact hp _ _ _ hx
  | panic x => cases h
  | hang => cases h

theorem ite {c : Prop} [Decidable c] {p q : Parser α} (hp : Blames Q d p) (hq : Blames Q d q) :
    Blames Q d (if c then p else q) := by split <;> assumption

theorem times {p : Parser α} (h : Blames Q d p) : ∀ n, Blames Q d (Parser.times n p)
  | 0 => pure _
  | n + 1 => h.bind fun _ _ => (times h n).bind fun _ _ => pure _

theorem remaining : Blames Q d remaining := by
  intro i e j h; unfold Buf.remaining at h; split at h <;> cases h

theorem dataLen : Blames Q d Param.dataLen := by
  intro i e j h; unfold Param.dataLen at h; cases h

theorem whileFuel {b : σ → Parser σ} (h : ∀ s, Blames Q d (b s)) :
    ∀ fuel s, Blames Q d (whileRemainingFuel b fuel s)
  | 0, _ => lift blame_hang
  | fuel + 1, s => by
    unfold whileRemainingFuel
    exact remaining.bind fun _ _ => ite ((h s).bind fun s' _ => whileFuel h fuel s') (pure _)

theorem «while» {b : σ → Parser σ} (s : σ) (h : ∀ s, Blames Q d (b s)) :
    Blames Q d (whileRemaining s b) := fun i => whileFuel h _ _ i

section
variable (hl : Q .lengthViolation)
include hl

theorem setPosition (n : Nat) : Blames Q d (setPosition n) := by
  intro i e j h
  unfold Buf.setPosition at h
  split at h <;> cases h; exact hl
theorem advance (n : Nat) : Blames Q d (advance n) := by
  intro i e j h
  unfold Buf.advance at h
  split at h <;> cases h; exact hl
theorem extractBytes (n : Nat) : Blames Q d (extractBytes n) := by
  intro i e j h
  unfold Buf.extractBytes at h
  split at h <;> cases h; exact hl
theorem extractU8 : Blames Q d extractU8 := (extractBytes hl _).bind fun _ _ => pure _
theorem extractU16 : Blames Q d extractU16 := (extractBytes hl _).bind fun _ _ => pure _
theorem extractU32 : Blames Q d extractU32 := (extractBytes hl _).bind fun _ _ => pure _
theorem extractU128 : Blames Q d extractU128 := (extractBytes hl _).bind fun _ _ => pure _
theorem extractRest : Blames Q d extractRest := remaining.bind fun _ _ => extractBytes hl _
theorem extractCharacterString : Blames Q d extractCharacterString :=
  (extractU8 hl).bind fun _ _ => extractBytes hl _
theorem extractString : Blames Q d extractString :=
  (extractCharacterString hl).bind fun _ _ => ite (pure _) (fail hl)

theorem withSub (n : Nat) {p : Parser α} (h : ∀ n, Blames Q (d.take n) p) :
    Blames Q d (withSubBuffer n p) := by
  intro i e j h'
  unfold withSubBuffer at h'
  split at h'
  · cases h'; exact hl
  · rcases hx : p (d.take (n + i)) i with ⟨r, k⟩
    rw [hx] at h'
    cases r with
    | err x => cases h'; exact h _ _ _ _ hx
    | _ => cases h'

theorem fqdnLoop (hp : Q .unresolveableCompressionPointer) :
    ∀ (fuel : Nat) (s : FqdnState) (e : DnsError) (j : Nat), fqdnLoop d fuel s = some (.err e, j) → Q e
  | 0, _, _, _, h => by cases h
  | fuel + 1, s, e, j, h => by
    unfold Buf.fqdnLoop at h
    split at h
    · rename_i r hr
      cases h
      unfold fqdnStep at hr
      split at hr
      · cases hr
      · simp only at hr
        repeat' split at hr
        all_goals first | (cases hr; done) | (cases hr; assumption)
    · exact fqdnLoop hp fuel _ e j h

theorem extractFqdn (hp : Q .unresolveableCompressionPointer) : Blames Q d extractFqdn := by
  intro i e j h
  unfold Buf.extractFqdn at h
  split at h
  · rename_i r hr
    cases h
    exact fqdnLoop hl hp _ _ _ _ hr
  · cases h
end

end Blames
end

/-! ### Numbers read are in the message -/

theorem has8_of {d : Bytes} {v : UInt8} (h : ∃ i j, extractU8 d i = (.ok v, j)) : Has8 d v := by
  obtain ⟨i, j, h⟩ := h
  obtain ⟨pre, post, h, -, -⟩ := extractU8_ok.mp h
  unfold Has8
  rw [h]; simp

theorem has16_of {d : Bytes} {v : UInt16} (h : ∃ i j, extractU16 d i = (.ok v, j)) : Has16 d v := by
  obtain ⟨i, j, h⟩ := h
  obtain ⟨pre, post, h, -, -⟩ := extractU16_ok.mp h
  exact ⟨pre, post, h⟩

theorem Has8.of_take {d : Bytes} {n : Nat} {v : UInt8} (h : Has8 (d.take n) v) : Has8 d v :=
  List.mem_of_mem_take h
theorem Has16.of_take {d : Bytes} {n : Nat} {v : UInt16} (h : Has16 (d.take n) v) : Has16 d v := by
  obtain ⟨pre, post, h⟩ := h
  refine ⟨pre, post ++ d.drop n, ?_⟩
  rw [← List.append_assoc, ← h, List.take_append_drop]
theorem HasBit.of_take {d : Bytes} {n : Nat} {v : UInt16} (h : HasBit (d.take n) v) : HasBit d v := by
  obtain ⟨pre, post, w, map, m, h, h'⟩ := h
  refine ⟨pre, post ++ d.drop n, w, map, m, ?_, h'⟩
  rw [← List.append_assoc, ← h, List.take_append_drop]

/-- What is proved of the errors: the message has the number, and it is not the number of a code, except
for the errors with wrong names. -/
def Blamed (cfg : Cfg) (d : Bytes) (e : DnsError) : Prop := Carries d e ∧ (NotACode cfg e ∨ Misnamed e)

theorem Blamed.of_take {cfg : Cfg} {d : Bytes} {n : Nat} {e : DnsError} (h : Blamed cfg (d.take n) e) :
    Blamed cfg d e := by
  refine ⟨?_, h.2⟩
  replace h := h.1
  cases e
  case invalidClass => obtain ⟨v, h, h'⟩ := h; exact ⟨v, Has16.of_take h, h'⟩
  case invalidType => exact h.imp Has16.of_take HasBit.of_take
  all_goals first | exact trivial | exact h.elim | exact Has8.of_take h | exact Has16.of_take h

theorem blamed_length (cfg : Cfg) (d : Bytes) : Blamed cfg d .lengthViolation := ⟨trivial, .inl trivial⟩
theorem blamed_pointer (cfg : Cfg) (d : Bytes) : Blamed cfg d .unresolveableCompressionPointer :=
  ⟨trivial, .inl trivial⟩

/-! ### Conversions -/

section
variable {cfg : Cfg} {d : Bytes}

/-- Closes the goals of the conversions of numbers. -/
macro "blame" h:term : tactic => `(tactic|
  (split <;> first
    | exact blame_ok _
    | (refine blame_err ⟨$h, ?_⟩
       first
       | (left; intro a hn; cases a <;> simp_all [← UInt8.toNat_inj, ← UInt16.toNat_inj, fingerprintNumber,
           certUsageNumber, selectorNumber, matchingNumber, identifierNumber, algorithmNumber, digestNumber,
           secAlgorithmNumber]; done))))

theorem FingerprintType.blame {v : UInt8} (h : Has8 d v) : Blame (Blamed cfg d) (FingerprintType.ofU8 v) := by
  unfold ofU8; blame h
theorem CertUsage.blame {v : UInt8} (h : Has8 d v) : Blame (Blamed cfg d) (CertUsage.ofU8 v) := by
  unfold ofU8; blame h
theorem SecAlgorithm.blame {v : UInt8} (h : Has8 d v) : Blame (Blamed cfg d) (SecAlgorithm.ofU8 v) := by
  unfold ofU8; blame h
theorem DigestType.blame {v : UInt8} (h : Has8 d v) : Blame (Blamed cfg d) (DigestType.ofU8 v) := by
  unfold ofU8; blame h
theorem Algorithm.blame {v : UInt8} (h : Has8 d v) : Blame (Blamed cfg d) (Algorithm.ofU8 v) := by
  unfold ofU8; blame h
theorem IdentifierType.blame {v : UInt16} (h : Has16 d v) : Blame (Blamed cfg d) (IdentifierType.ofU16 v) := by
  unfold ofU16; blame h

theorem ne16 {v : UInt16} {n : Nat} (hn : n < 65536) (h : v ≠ UInt16.ofNat n) : v.toNat ≠ n := by
  intro h'
  apply h
  rw [← UInt16.toNat_inj, UInt16.toNat_ofNat_of_lt' (by simpa [UInt16.size] using hn)]
  exact h'

theorem Selector.blame {v : UInt8} (h : Has8 d v) : Blame (Blamed cfg d) (Selector.ofU8 v) := by
  unfold ofU8
  split <;> first
    | exact blame_ok _
    | (refine blame_err ⟨h, .inr (.inl fun a hn => ?_)⟩
       cases a <;> simp_all [← UInt8.toNat_inj, selectorNumber])
theorem MatchingType.blame {v : UInt8} (h : Has8 d v) : Blame (Blamed cfg d) (MatchingType.ofU8 v) := by
  unfold ofU8
  split <;> first
    | exact blame_ok _
    | (refine blame_err ⟨h, .inr (.inr fun a hn => ?_)⟩
       cases a <;> simp_all [← UInt8.toNat_inj, matchingNumber])
theorem TsigError.blame {v : UInt16} (h : Has16 d v) : Blame (Blamed cfg d) (TsigError.ofU16 v) := by
  unfold ofU16
  split <;> first
    | exact blame_ok _
    | (refine blame_err ⟨h, .inr fun a hn => ?_⟩
       cases a <;> simp_all [← UInt16.toNat_inj, tsigErrorNumber])
theorem TkeyMode.blame {v : UInt16} (h : Has16 d v) : Blame (Blamed cfg d) (TkeyMode.ofU16 v) := by
  unfold ofU16
  split <;> try exact blame_ok _
  split
  · exact blame_ok _
  · refine blame_err ⟨h, .inl ?_⟩
    show v = 0 ∨ v = 65535
    rename_i h1 h2 h3 h4 h5 h6
    have k1 := ne16 (n := 1) (by decide) h1
    have k2 := ne16 (n := 2) (by decide) h2
    have k3 := ne16 (n := 3) (by decide) h3
    have k4 := ne16 (n := 4) (by decide) h4
    have k5 := ne16 (n := 5) (by decide) h5
    have := v.toNat_lt
    simp only [UInt16.le_iff_toNat_le, UInt16.reduceToNat] at h6
    simp only [← UInt16.toNat_inj, UInt16.reduceToNat]
    omega
theorem TkeyError.blame {v : UInt16} (h : Has16 d v) : Blame (Blamed cfg d) (TkeyError.ofU16 v) := by
  unfold ofU16
  split <;> try exact blame_ok _
  split
  · exact blame_ok _
  · refine blame_err ⟨h, .inl ?_⟩
    show 22 ≤ v.toNat
    rename_i h0 h1 h2 h3 h4 h5 h6 h7
    have k0 := ne16 (n := 0) (by decide) h0
    have k1 := ne16 (n := 16) (by decide) h1
    have k2 := ne16 (n := 17) (by decide) h2
    have k3 := ne16 (n := 18) (by decide) h3
    have k4 := ne16 (n := 19) (by decide) h4
    have k5 := ne16 (n := 20) (by decide) h5
    have k6 := ne16 (n := 21) (by decide) h6
    simp only [UInt16.le_iff_toNat_le, UInt16.reduceToNat] at h7
    omega
theorem ParamKey.blame {v : UInt16} (h : Has16 d v) : Blame (Blamed cfg d) (ParamKey.ofU16 v) := by
  unfold ofU16
  split <;> try exact blame_ok _
  split
  · exact blame_ok _
  · refine blame_err ⟨h, .inl ?_⟩
    show 7 ≤ v.toNat ∧ v.toNat < 65280
    rename_i h0 h1 h2 h3 h4 h5 h6 h7 h8
    have k0 := ne16 (n := 0) (by decide) h0
    have k1 := ne16 (n := 1) (by decide) h1
    have k2 := ne16 (n := 2) (by decide) h2
    have k3 := ne16 (n := 3) (by decide) h3
    have k4 := ne16 (n := 4) (by decide) h4
    have k5 := ne16 (n := 5) (by decide) h5
    have k6 := ne16 (n := 6) (by decide) h6
    have k7 := ne16 (n := 65535) (by decide) h7
    have := v.toNat_lt
    simp only [UInt16.le_iff_toNat_le, UInt16.reduceToNat] at h8
    omega
theorem CsyncFlags.blame {v : UInt16} (h : Has16 d v) : Blame (Blamed cfg d) (CsyncFlags.ofU16 v) := by
  unfold ofU16
  split
  · refine blame_err ⟨h, .inl ?_⟩
    show 4 ≤ v.toNat
    rename_i hv
    by_contra h4
    apply hv
    have : v.toNat = 0 ∨ v.toNat = 1 ∨ v.toNat = 2 ∨ v.toNat = 3 := by omega
    rcases this with h | h | h | h
    · rw [show v = 0 from UInt16.toNat_inj.mp h]; rfl
    · rw [show v = 1 from UInt16.toNat_inj.mp h]; rfl
    · rw [show v = 2 from UInt16.toNat_inj.mp h]; rfl
    · rw [show v = 3 from UInt16.toNat_inj.mp h]; rfl
  · exact blame_ok _

theorem RecordType.not_a_code {n : UInt16} {e : DnsError} (h : RecordType.ofU16 cfg n = .err e) :
    e = .invalidType n ∧ (NotACode cfg e ∨ Misnamed e) := by
  have he : e = .invalidType n := by
    unfold ofU16 at h
    split at h <;> first | cases h; rfl | (split at h <;> cases h; rfl) | cases h
  subst he
  refine ⟨rfl, ?_⟩
  by_cases h59 : n = 59
  · exact .inr (.inl h59)
  by_cases h60 : n = 60
  · exact .inr (.inr h60)
  left
  intro t ht hn
  have : n = t.toU16 := by
    rw [← UInt16.toNat_inj, (C39_type_numbers t .ANY .IN).1, hn]
  subst this
  have hr : Readable cfg t := by
    refine ⟨?_, ?_, ht⟩
    · rintro rfl; exact h59 rfl
    · rintro rfl; exact h60 rfl
  rw [C39_type_round_trip_partial cfg t hr] at h
  cases h

theorem RecordType.blame {v : UInt16} (h : Has16 d v ∨ HasBit d v) :
    Blame (Blamed cfg d) (RecordType.ofU16 cfg v) := by
  intro e he
  obtain ⟨rfl, h'⟩ := RecordType.not_a_code he
  exact ⟨h, h'⟩

theorem QType.blame {v : UInt16} (h : Has16 d v) : Blame (Blamed cfg d) (QType.ofU16 cfg v) := by
  unfold ofU16
  split <;> try exact blame_ok _
  split <;> first | exact blame_ok _ | exact blame_panic _ | exact blame_hang | skip
  rename_i he
  exact blame_err (RecordType.blame (.inl h) _ he)

theorem QClass.blame {v w : UInt16} (h : Has16 d v) (hw : w.toNat % 32768 = v.toNat % 32768) :
    Blame (Blamed cfg d) (QClass.ofU16 w) := by
  intro e he
  have hm : (w &&& 0x7FFF).toNat = v.toNat % 32768 := by
    rw [UInt16.toNat_and, ← hw]
    exact Nat.and_two_pow_sub_one_eq_mod w.toNat 15
  unfold ofU16 at he
  split at he <;> cases he
  rename_i h1 h2 h3 h4 h5 h6
  refine ⟨⟨v, h, hm⟩, .inl ?_⟩
  intro c hc
  cases c
  · exact ne16 (n := 1) (by decide) h1 hc.symm
  · exact ne16 (n := 2) (by decide) h2 hc.symm
  · exact ne16 (n := 3) (by decide) h3 hc.symm
  · exact ne16 (n := 4) (by decide) h4 hc.symm
  · exact ne16 (n := 254) (by decide) h5 hc.symm
  · exact ne16 (n := 255) (by decide) h6 hc.symm

/-! ### Type bitmaps -/

theorem foldRes_blame {σ τ : Type} {Q : DnsError → Prop} {g : σ → τ → Res σ} : ∀ (xs : List τ) (s : σ),
    (∀ s, ∀ x ∈ xs, Blame Q (g s x)) → Blame Q (foldRes g s xs)
  | [], _, _ => blame_ok _
  | x :: xs, s, h => (h s x (by simp)).bind fun s' _ => foldRes_blame xs s' fun s y hy => h s y (by simp [hy])

theorem Bitmap.readStep_blames (acc : List RecordType) : Blames (Blamed cfg d) d (Bitmap.readStep cfg acc) := by
  intro i e j h
  unfold Bitmap.readStep at h
  rw [Parser.bind_apply] at h
  rcases h1 : extractU8 d i with ⟨r, k1⟩
  rw [h1] at h
  cases r with
  | err x => cases h; exact Blames.extractU8 (blamed_length cfg d) _ _ _ h1
  | panic x => cases h
  | hang => cases h
  | ok w =>
  simp only at h
  rw [Parser.bind_apply] at h
  rcases h2 : extractU8 d k1 with ⟨r, k2⟩
  rw [h2] at h
  cases r with
  | err x => cases h; exact Blames.extractU8 (blamed_length cfg d) _ _ _ h2
  | panic x => cases h
  | hang => cases h
  | ok n =>
  simp only at h
  rw [Parser.bind_apply] at h
  rcases h3 : extractBytes n.toNat d k2 with ⟨r, k3⟩
  rw [h3] at h
  cases r with
  | err x => cases h; exact Blames.extractBytes (blamed_length cfg d) _ _ _ _ h3
  | panic x => cases h
  | hang => cases h
  | ok map =>
  simp only at h
  rw [Parser.lift_apply, readWindow_eq _ _ w.toNat_lt] at h
  obtain ⟨hl, h3⟩ := extractBytes_ok.mp h3
  have hw := (extractU8_ok.mp h1)
  have hn := (extractU8_ok.mp h2)
  have hall : Octets d i ([w, n] ++ map) k3 := by
    exact octets_append.mpr ⟨k2, octets_append (b := [w]) (c := [n]) |>.mpr ⟨k1, hw, hn⟩, h3⟩
  obtain ⟨pre, post, hd, -, -⟩ := hall
  have hb : Blame (Blamed cfg d) (foldRes (insertBit cfg) acc (windowBits w.toNat 0 map)) := by
    refine foldRes_blame _ _ fun s p hp => ?_
    unfold insertBit
    split
    · refine Blame.bind (RecordType.blame (.inr ?_)) fun _ _ => blame_ok _
      refine ⟨pre, post, w, map, p, ?_, ?_, ?_, ?_⟩
      · rw [hd, hl]; simp
      · rw [hl]; exact n.toNat_lt
      · obtain ⟨k, b, octet, h1, h2, h3, h4⟩ := mem_windowBits.mp hp
        exact ⟨k, b, octet, h1, h2, h3, by simpa using h4⟩
      · rw [UInt16.toNat_ofNat_of_lt' (Nat.mod_lt _ (by decide))]
    · exact blame_panic _
  cases hx : foldRes (insertBit cfg) acc (windowBits w.toNat 0 map) with
  | err x => rw [hx] at h; cases h; exact hb _ hx
  | ok _ => rw [hx] at h; cases h
  | panic _ => rw [hx] at h; cases h
  | hang => rw [hx] at h; cases h

theorem Bitmap.blames : Blames (Blamed cfg d) d (Bitmap.parse cfg) :=
  Blames.while _ fun acc => Bitmap.readStep_blames acc

/-! ### Record data -/

/-- Closes `Blames` goals of parsers composed from the primitives. -/
macro "blames" : tactic => `(tactic|
  repeat' first
    | with_reducible exact Blames.pure _
    | with_reducible exact Blames.remaining
    | with_reducible exact Blames.dataLen
    | with_reducible exact Blames.extractU8 (blamed_length _ _)
    | with_reducible exact Blames.extractU16 (blamed_length _ _)
    | with_reducible exact Blames.extractU32 (blamed_length _ _)
    | with_reducible exact Blames.extractU128 (blamed_length _ _)
    | with_reducible exact Blames.extractRest (blamed_length _ _)
    | with_reducible exact Blames.extractBytes (blamed_length _ _) _
    | with_reducible exact Blames.extractCharacterString (blamed_length _ _)
    | with_reducible exact Blames.extractString (blamed_length _ _)
    | with_reducible exact Blames.setPosition (blamed_length _ _) _
    | with_reducible exact Blames.advance (blamed_length _ _) _
    | with_reducible exact Blames.extractFqdn (blamed_length _ _) (blamed_pointer _ _)
    | with_reducible exact Bitmap.blames
    | (with_reducible refine Blames.lift ?_
       first
       | with_reducible exact FingerprintType.blame (has8_of (by assumption))
       | with_reducible exact CertUsage.blame (has8_of (by assumption))
       | with_reducible exact SecAlgorithm.blame (has8_of (by assumption))
       | with_reducible exact DigestType.blame (has8_of (by assumption))
       | with_reducible exact Algorithm.blame (has8_of (by assumption))
       | with_reducible exact Selector.blame (has8_of (by assumption))
       | with_reducible exact MatchingType.blame (has8_of (by assumption))
       | with_reducible exact IdentifierType.blame (has16_of (by assumption))
       | with_reducible exact TkeyMode.blame (has16_of (by assumption))
       | with_reducible exact TkeyError.blame (has16_of (by assumption))
       | with_reducible exact TsigError.blame (has16_of (by assumption))
       | with_reducible exact ParamKey.blame (has16_of (by assumption))
       | with_reducible exact CsyncFlags.blame (has16_of (by assumption))
       | with_reducible exact RecordType.blame (.inl (has16_of (by assumption)))
       | with_reducible exact QType.blame (has16_of (by assumption)))
    | with_reducible refine Blames.ite ?_ ?_
    | with_reducible refine Blames.bind ?_ (fun _ _ => ?_)
    | with_reducible refine Blames.while _ (fun _ => ?_))

theorem Apl.blames : Blames (Blamed cfg d) d Apl.parse := by
  unfold Apl.parse
  refine Blames.bind (Blames.extractU16 (blamed_length _ _)) fun f hf => ?_
  blames
  split
  · blames
  · blames
  · rename_i h1 h2
    exact Blames.fail ⟨has16_of hf, .inl ⟨h1, h2⟩⟩

theorem Gateway.blames {t : UInt8} (ht : Has8 d t) : Blames (Blamed cfg d) d (Gateway.parse t) := by
  unfold Gateway.parse
  split <;> try (blames; done)
  rename_i h0 h1 h2 h3
  refine Blames.fail ⟨ht, .inl ?_⟩
  show 4 ≤ t.toNat
  simp only [← UInt8.toNat_inj, imp_false, UInt8.reduceToNat] at h0 h1 h2 h3
  omega

theorem Dhcid.blames : Blames (Blamed cfg d) d Dhcid.parse := by
  unfold Dhcid.parse
  refine Blames.bind (Blames.extractU16 (blamed_length _ _)) fun c hc =>
    Blames.bind (Blames.lift (IdentifierType.blame (has16_of hc))) fun _ _ =>
    Blames.bind (Blames.extractU8 (blamed_length _ _)) fun t ht => ?_
  split
  · rename_i h1
    exact Blames.fail ⟨has8_of ht, .inr h1⟩
  · blames

theorem subUsize_blame {Q : DnsError → Prop} (a b : Nat) : Blame Q (subUsize cfg a b) := by
  unfold subUsize
  split
  · exact blame_ok _
  · split
    · exact blame_panic _
    · exact blame_ok _

theorem Param.mandatory_blames : ∀ fuel len keys,
    Blames (Blamed cfg d) d (Param.mandatoryLoop cfg fuel len keys)
  | 0, _, _ => Blames.lift blame_hang
  | fuel + 1, len, keys => by
    unfold Param.mandatoryLoop
    split
    · blames
      · exact Blames.lift (subUsize_blame _ _)
      · exact Param.mandatory_blames fuel _ _
    · blames

theorem Param.alpn_blames : ∀ fuel len keys, Blames (Blamed cfg d) d (Param.alpnLoop cfg fuel len keys)
  | 0, _, _ => Blames.lift blame_hang
  | fuel + 1, len, keys => by
    unfold Param.alpnLoop
    split
    · blames
      · exact Blames.lift (subUsize_blame _ _)
      · exact Param.alpn_blames fuel _ _
    · blames

theorem Param.blames : Blames (Blamed cfg d) d (Param.parse cfg) := by
  unfold Param.parse
  blames
  unfold Param.parseValue
  split <;> blames
  · exact Param.mandatory_blames _ _ _
  · exact Param.alpn_blames _ _ _

theorem Svcb.blames : Blames (Blamed cfg d) d (Svcb.parse cfg) := by
  unfold Svcb.parse
  blames
  unfold Svcb.step
  blames
  exact Blames.withSub (blamed_length _ _) _ fun n i e j h => (Param.blames i e j h).of_take

theorem RecordData.blames (t : RecordType) : Blames (Blamed cfg d) d (RecordData.parse cfg t) := by
  cases t
  case APL => exact Apl.blames.bind fun _ _ => Blames.pure _
  case DHCID => exact Dhcid.blames.bind fun _ _ => Blames.pure _
  case SVCB => exact Svcb.blames.bind fun _ _ => Blames.pure _
  case IPSECKEY =>
    refine Blames.bind ?_ fun _ _ => Blames.pure _
    unfold IpSecKey.parse
    blames
    exact Gateway.blames (has8_of (by assumption))
  case CAA =>
    refine Blames.bind ?_ fun _ _ => Blames.pure _
    unfold Caa.parse
    blames
    exact Blames.fail ⟨trivial, .inl trivial⟩
  all_goals
    refine Blames.bind ?_ fun _ _ => Blames.pure _
    first
    | unfold A.parse | unfold Ns.parse | unfold Cname.parse | unfold Soa.parse | unfold Null.parse
    | unfold Wks.parse | unfold Ptr.parse | unfold Hinfo.parse | unfold Minfo.parse | unfold Mx.parse
    | unfold Txt.parse Txt.step | unfold Aaaa.parse | unfold Loc.parse | unfold Srv.parse | unfold Naptr.parse
    | unfold Opt.parse Opt.step | unfold Ds.parse | unfold Sshfp.parse | unfold Rrsig.parse | unfold Nsec.parse
    | unfold DnsKey.parse | unfold Tlsa.parse | unfold Hip.parse Hip.parseServers Hip.step
    | unfold OpenPgpKey.parse | unfold Csync.parse | unfold Eui48.parse | unfold Eui64.parse | unfold Tkey.parse
    | unfold Tsig.parse | unfold Uri.parse
    blames

/-! ### Messages -/

theorem and_7fff (v : UInt16) : (v &&& ~~~0x8000).toNat % 32768 = v.toNat % 32768 := by
  have : (v &&& ~~~0x8000).toNat = v.toNat % 2 ^ 15 := by
    rw [UInt16.toNat_and]
    exact Nat.and_two_pow_sub_one_eq_mod v.toNat 15
  omega

theorem Question.blames : Blames (Blamed cfg d) d (Question.parse cfg) := by
  unfold Question.parse
  blames
  · exact Blames.lift (QClass.blame (has16_of (by assumption)) (and_7fff _))
  · exact Blames.lift (QClass.blame (has16_of (by assumption)) rfl)
  · exact Blames.lift (QClass.blame (has16_of (by assumption)) rfl)

theorem ResourceRecord.blames : Blames (Blamed cfg d) d (ResourceRecord.parse cfg) := by
  unfold ResourceRecord.parse ResourceRecord.parseClass
  blames
  exact Blames.withSub (blamed_length _ _) _ fun n i e j h => (RecordData.blames _ i e j h).of_take

theorem Packet.blames : Blames (Blamed cfg d) d (Packet.parseBuf cfg) := by
  unfold Packet.parseBuf Header.parse
  blames
  · exact Question.blames.times _
  all_goals exact ResourceRecord.blames.times _

end
end Dns
