import Verif.Spec.Canonical
import Verif.Spec.Svcb
import Verif.Props.Svcb
import Verif.Props.RData
import Verif.Props.Dnssec
import Verif.Lemmas.Parsed

/-! C69: CSYNC flags.  C70: printed digests.  C75: the orders of SVCB parameters.  C78: legal SVCB records. -/

namespace Dns
open Spec Buf

/-! ## C69 -/

/-- The calls that change the flags of a CSYNC record. -/
inductive CsyncCall where
  | setImmediate (b : Bool)
  | setSoaMinimum (b : Bool)

/-- What a call does. -/
def CsyncCall.run (f : CsyncFlags) : CsyncCall → CsyncFlags
  | .setImmediate b => f.setImmediate b
  | .setSoaMinimum b => f.setSoaMinimum b

/-- The argument of the last call of `set_immediate`, `init` if there is none. -/
def lastImmediate (init : Bool) (cs : List CsyncCall) : Bool :=
  cs.foldl (fun v c => match c with | .setImmediate b => b | .setSoaMinimum _ => v) init

/-- The argument of the last call of `set_soa_minimum`, `init` if there is none. -/
def lastSoaMinimum (init : Bool) (cs : List CsyncCall) : Bool :=
  cs.foldl (fun v c => match c with | .setSoaMinimum b => b | .setImmediate _ => v) init

theorem u16_and_ne (x : UInt16) (k : Nat) (m : UInt16) (hm : m.toNat = 2 ^ k) :
    (x &&& m != 0) = x.toNat.testBit k := by
  have h0 : (x &&& m = 0) ↔ x.toNat.testBit k = false := by
    rw [← UInt16.toNat_inj, UInt16.toNat_and, hm, Nat.and_two_pow]
    show (x.toNat.testBit k).toNat * 2 ^ k = 0 ↔ _
    have := Nat.two_pow_pos k
    cases x.toNat.testBit k <;> simp
  cases hb : x.toNat.testBit k
  · simp [h0.mpr hb]
  · have : x &&& m ≠ 0 := fun e => by rw [h0.mp e] at hb; cases hb
    simp [this]

theorem CsyncFlags.immediate_eq (f : CsyncFlags) : f.immediate = f.bits.toNat.testBit 0 :=
  u16_and_ne f.bits 0 1 rfl

theorem CsyncFlags.soaMinimum_eq (f : CsyncFlags) : f.soaMinimum = f.bits.toNat.testBit 1 :=
  u16_and_ne f.bits 1 2 rfl

theorem testBit_one (n : Nat) : Nat.testBit 1 n = decide (n = 0) := by
  rw [show (1 : Nat) = 2 ^ 0 from rfl, Nat.testBit_two_pow]
  simp [eq_comm]

theorem testBit_two (n : Nat) : Nat.testBit 2 n = decide (n = 1) := by
  rw [show (2 : Nat) = 2 ^ 1 from rfl, Nat.testBit_two_pow]
  simp [eq_comm]

theorem u16_clear (x : UInt16) (k : Nat) (m : UInt16) (hm : m.toNat = 2 ^ k) (n : Nat) :
    (x &&& ~~~m).toNat.testBit n = (x.toNat.testBit n && decide (n ≠ k)) := by
  rw [UInt16.toNat_and, Nat.testBit_and]
  by_cases hn : n < 16
  · have : (~~~m).toNat.testBit n = decide (n ≠ k) := by
      have h1 : (~~~m).toNat = 2 ^ 16 - (m.toNat + 1) := by
        rw [UInt16.toNat_not]; show 65536 - 1 - m.toNat = 65536 - (m.toNat + 1); omega
      have h2 : m.toNat < 2 ^ 16 := m.toNat_lt
      rw [h1, Nat.testBit_two_pow_sub_succ h2, hm, Nat.testBit_two_pow]
      simp [hn, eq_comm]
    rw [this]
  · have : x.toNat.testBit n = false :=
      Nat.testBit_lt_two_pow (Nat.lt_of_lt_of_le x.toNat_lt (Nat.pow_le_pow_right (by decide) (by omega)))
    rw [this]; simp

theorem CsyncFlags.setImmediate_bits (f : CsyncFlags) (b : Bool) (n : Nat) :
    (f.setImmediate b).bits.toNat.testBit n = if n = 0 then b else f.bits.toNat.testBit n := by
  unfold CsyncFlags.setImmediate
  cases b
  · show (f.bits &&& ~~~1).toNat.testBit n = _
    rw [u16_clear f.bits 0 1 rfl]
    by_cases h : n = 0 <;> simp [h]
  · show (f.bits ||| 1).toNat.testBit n = _
    rw [UInt16.toNat_or, Nat.testBit_or]
    show (_ || Nat.testBit 1 n) = _
    rw [testBit_one]
    by_cases h : n = 0 <;> simp [h]

theorem CsyncFlags.setSoaMinimum_bits (f : CsyncFlags) (b : Bool) (n : Nat) :
    (f.setSoaMinimum b).bits.toNat.testBit n = if n = 1 then b else f.bits.toNat.testBit n := by
  unfold CsyncFlags.setSoaMinimum
  cases b
  · show (f.bits &&& ~~~2).toNat.testBit n = _
    rw [u16_clear f.bits 1 2 rfl]
    by_cases h : n = 1 <;> simp [h]
  · show (f.bits ||| 2).toNat.testBit n = _
    rw [UInt16.toNat_or, Nat.testBit_or]
    show (_ || Nat.testBit 2 n) = _
    rw [testBit_two]
    by_cases h : n = 1 <;> simp [h]

/-- C69: after every history of calls, each flag is what was set last (what it was before if it was not
set), and no other bit of the field has changed. -/
theorem C69_history (f : CsyncFlags) (cs : List CsyncCall) :
    (cs.foldl CsyncCall.run f).immediate = lastImmediate f.immediate cs ∧
    (cs.foldl CsyncCall.run f).soaMinimum = lastSoaMinimum f.soaMinimum cs ∧
    ∀ n, 2 ≤ n → (cs.foldl CsyncCall.run f).bits.toNat.testBit n = f.bits.toNat.testBit n := by
  induction cs generalizing f with
  | nil => exact ⟨rfl, rfl, fun _ _ => rfl⟩
  | cons c cs ih =>
    obtain ⟨h1, h2, h3⟩ := ih (c.run f)
    cases c with
    | setImmediate b =>
      have e1 : (f.setImmediate b).immediate = b := by
        rw [CsyncFlags.immediate_eq, CsyncFlags.setImmediate_bits, if_pos rfl]
      have e2 : (f.setImmediate b).soaMinimum = f.soaMinimum := by
        rw [CsyncFlags.soaMinimum_eq, CsyncFlags.setImmediate_bits, if_neg (by decide), CsyncFlags.soaMinimum_eq]
      refine ⟨h1.trans ?_, h2.trans ?_, fun n hn => (h3 n hn).trans ?_⟩
      · show lastImmediate (f.setImmediate b).immediate cs = lastImmediate b cs
        rw [e1]
      · show lastSoaMinimum (f.setImmediate b).soaMinimum cs = lastSoaMinimum f.soaMinimum cs
        rw [e2]
      · show (f.setImmediate b).bits.toNat.testBit n = _
        rw [CsyncFlags.setImmediate_bits, if_neg (by omega)]
    | setSoaMinimum b =>
      have e1 : (f.setSoaMinimum b).soaMinimum = b := by
        rw [CsyncFlags.soaMinimum_eq, CsyncFlags.setSoaMinimum_bits, if_pos rfl]
      have e2 : (f.setSoaMinimum b).immediate = f.immediate := by
        rw [CsyncFlags.immediate_eq, CsyncFlags.setSoaMinimum_bits, if_neg (by decide), CsyncFlags.immediate_eq]
      refine ⟨h1.trans ?_, h2.trans ?_, fun n hn => (h3 n hn).trans ?_⟩
      · show lastImmediate (f.setSoaMinimum b).immediate cs = lastImmediate f.immediate cs
        rw [e2]
      · show lastSoaMinimum (f.setSoaMinimum b).soaMinimum cs = lastSoaMinimum b cs
        rw [e1]
      · show (f.setSoaMinimum b).bits.toNat.testBit n = _
        rw [CsyncFlags.setSoaMinimum_bits, if_neg (by omega)]

example : ([.setImmediate true, .setSoaMinimum true, .setImmediate false] : List CsyncCall).foldl
    CsyncCall.run CsyncFlags.new = ⟨2⟩ := by decide

theorem two_bits (n : Nat) (h : n < 4) :
    n = (if n.testBit 0 then 1 else 0) + (if n.testBit 1 then 2 else 0) := by
  rcases n with _ | _ | _ | _ | n
  · decide
  · decide
  · decide
  · decide
  · omega

theorem small_of_bits {n : Nat} (h : ∀ k, 2 ≤ k → n.testBit k = false) : n < 4 := by
  apply Nat.lt_of_not_le
  intro hle
  have := Nat.exists_ge_and_testBit_of_ge_two_pow (n := 2) (x := n) hle
  obtain ⟨i, hi, ht⟩ := this
  rw [h i hi] at ht
  cases ht

/-- C69: flags that start from `new()` or from the wire are written as 1 for `immediate` plus 2 for
`soaminimum` (RFC 7477, section 2.1.1.2), after every history of calls. -/
theorem C69_wire (f : CsyncFlags) (cs : List CsyncCall)
    (hf : f = CsyncFlags.new ∨ ∃ v, CsyncFlags.ofU16 v = .ok f) :
    (cs.foldl CsyncCall.run f).bits.toNat =
      (if lastImmediate f.immediate cs then 1 else 0) + (if lastSoaMinimum f.soaMinimum cs then 2 else 0) := by
  have h4 : f.bits.toNat < 4 := by
    rcases hf with rfl | ⟨v, hv⟩
    · decide
    · unfold CsyncFlags.ofU16 at hv
      split at hv
      · cases hv
      · next h =>
        cases hv
        have h := of_not_not h
        rw [← UInt16.toNat_inj, UInt16.toNat_and] at h
        have h : v.toNat &&& 0xFFFC = 0 := h
        apply small_of_bits
        intro k hk
        by_cases h16 : k < 16
        · have hb := congrArg (fun x => Nat.testBit x k) h
          rw [Nat.testBit_and, Nat.zero_testBit] at hb
          have : Nat.testBit 0xFFFC k = true := by
            have e : (0xFFFC : Nat) = 2 ^ 16 - (3 + 1) := rfl
            rw [e, Nat.testBit_two_pow_sub_succ (by decide)]
            have e3 : Nat.testBit 3 k = false := Nat.testBit_lt_two_pow
              (Nat.lt_of_lt_of_le (by decide : 3 < 2 ^ 2) (Nat.pow_le_pow_right (by decide) hk))
            simp [h16, e3]
          rw [this, Bool.and_true] at hb
          exact hb
        · exact Nat.testBit_lt_two_pow
            (Nat.lt_of_lt_of_le v.toNat_lt (Nat.pow_le_pow_right (by decide) (by omega)))
  obtain ⟨h1, h2, h3⟩ := C69_history f cs
  have hlt : (cs.foldl CsyncCall.run f).bits.toNat < 4 := by
    apply small_of_bits
    intro k hk
    rw [h3 k hk]
    exact Nat.testBit_lt_two_pow (Nat.lt_of_lt_of_le h4 (Nat.pow_le_pow_right (n := 2) (i := 2) (by decide) hk))
  rw [two_bits _ hlt, ← CsyncFlags.immediate_eq, ← CsyncFlags.soaMinimum_eq, h1, h2]
example := C69_wire .new [.setImmediate true, .setSoaMinimum true, .setImmediate false] (.inl rfl)

/-- C69: flags made by `new()` are those that were set, after every history of calls; no flag is set at the start. -/
theorem C69_new (cs : List CsyncCall) :
    (cs.foldl CsyncCall.run CsyncFlags.new).immediate = lastImmediate false cs ∧
    (cs.foldl CsyncCall.run CsyncFlags.new).soaMinimum = lastSoaMinimum false cs ∧
    (cs.foldl CsyncCall.run CsyncFlags.new).bits.toNat =
      (if lastImmediate false cs then 1 else 0) + (if lastSoaMinimum false cs then 2 else 0) := by
  have h1 := C69_history CsyncFlags.new cs
  have h2 := C69_wire CsyncFlags.new cs (.inl rfl)
  have e1 : CsyncFlags.new.immediate = false := by decide
  have e2 : CsyncFlags.new.soaMinimum = false := by decide
  rw [e1, e2] at h1 h2
  exact ⟨h1.1, h1.2.1, h2⟩

/-- C69: flags that are read are those of the field: bit 0 is `immediate`, bit 1 is `soaminimum`; a field with any other
bit is refused. -/
theorem C69_read (v : UInt16) :
    (∀ f, CsyncFlags.ofU16 v = .ok f → f.immediate = v.toNat.testBit 0 ∧ f.soaMinimum = v.toNat.testBit 1 ∧
      v.toNat < 4) ∧
    (4 ≤ v.toNat → CsyncFlags.ofU16 v = .err (.invalidCsyncFlag v)) := by
  refine ⟨fun f hf => ?_, fun h => ?_⟩
  · have hw := C69_wire f [] (.inr ⟨v, hf⟩)
    have hb : f.bits = v := by
      unfold CsyncFlags.ofU16 at hf
      split at hf
      · cases hf
      · cases hf; rfl
    rw [CsyncFlags.immediate_eq, CsyncFlags.soaMinimum_eq, hb]
    rw [List.foldl_nil, hb] at hw
    refine ⟨rfl, rfl, ?_⟩
    split at hw <;> split at hw <;> omega
  · by_contra hn
    have hk : CsyncFlags.ofU16 v = .ok ⟨v⟩ := by
      unfold CsyncFlags.ofU16 at hn ⊢
      split
      · rename_i h1; exact absurd (if_pos h1) hn
      · rfl
    have hw : v.toNat = _ := C69_wire ⟨v⟩ [] (.inr ⟨v, hk⟩)
    split at hw <;> split at hw <;> omega

example : [CsyncCall.setImmediate true, .setSoaMinimum true, .setImmediate false].foldl CsyncCall.run CsyncFlags.new =
    ⟨2⟩ := by decide

example : CsyncFlags.ofU16 3 = .ok ⟨3⟩ ∧ CsyncFlags.ofU16 4 = .err (.invalidCsyncFlag 4) := by decide

/-! ## C70 -/

theorem hexDigest_eq (r : Ds) : r.hexDigest =
    r.digest.flatMap (fun b => [Ds.hexDigit (b.toNat / 16), Ds.hexDigit (b.toNat % 16)]) := by
  unfold Ds.hexDigest
  have : ∀ (l acc : Bytes), l.foldl (fun out b => out ++ [Ds.hexDigit (b.toNat / 16), Ds.hexDigit (b.toNat % 16)]) acc =
      acc ++ l.flatMap (fun b => [Ds.hexDigit (b.toNat / 16), Ds.hexDigit (b.toNat % 16)]) := by
    intro l
    induction l with
    | nil => simp
    | cons b l ih => intro acc; rw [List.foldl_cons, ih]; simp
  simpa using this r.digest []

theorem hexDigit_index : ∀ n < 16, hexDigits.idxOf? (Ds.hexDigit n) = some n := by decide

theorem hexDigit_mem : ∀ n < 16, Ds.hexDigit n ∈ hexDigits := by decide

/-- C70: the text of a digest has two of the digits 0-9, A-F for each octet, and reading the pairs of
digits gives the digest back. -/
theorem C70_hex (r : Ds) : r.hexDigest.length = 2 * r.digest.length ∧ (∀ c ∈ r.hexDigest, c ∈ hexDigits) ∧
    unhex r.hexDigest = some r.digest := by
  rw [hexDigest_eq]
  induction r.digest with
  | nil => exact ⟨rfl, by simp, rfl⟩
  | cons b l ih =>
    obtain ⟨h1, h2, h3⟩ := ih
    have hb := b.toNat_lt
    have ha : b.toNat / 16 < 16 := by omega
    have hm : b.toNat % 16 < 16 := Nat.mod_lt _ (by decide)
    rw [List.flatMap_cons]
    refine ⟨?_, ?_, ?_⟩
    · rw [List.length_append, h1]; simp; omega
    · intro c hc
      rcases List.mem_append.mp hc with hc | hc
      · simp only [List.mem_cons, List.not_mem_nil, or_false] at hc
        rcases hc with rfl | rfl
        · exact hexDigit_mem _ ha
        · exact hexDigit_mem _ hm
      · exact h2 c hc
    · show unhex (_ :: _ :: _) = _
      simp only [unhex, List.nil_append, List.append_eq, hexDigit_index _ ha, hexDigit_index _ hm, h3]
      show some (UInt8.ofNat (16 * (b.toNat / 16) + b.toNat % 16) :: l) = some (b :: l)
      rw [Nat.div_add_mod]
      simp

/-- C70: different digests have different texts. -/
theorem C70_injective (r s : Ds) (h : r.hexDigest = s.hexDigest) : r.digest = s.digest := by
  have h1 := (C70_hex r).2.2
  rw [h, (C70_hex s).2.2] at h1
  exact (Option.some.inj h1).symm

example : Ds.hexDigest ⟨1, .ED25519, .SHA256, [0x0A, 0xFF]⟩ = [0x30, 0x41, 0x46, 0x46] := by decide +kernel

/-! ## C75 -/

/-- C75 (partial): keys that are read from the wire compare equal exactly if they are equal, and are
ordered by their numbers.  What is missing: keys made by hand (false, see the counterexample). -/
theorem C75_keys_partial (v w : UInt16) (a b : ParamKey) (ha : ParamKey.ofU16 v = .ok a)
    (hb : ParamKey.ofU16 w = .ok b) : (a.ord = b.ord ↔ a = b) ∧ (a.ord < b.ord ↔ v.toNat < w.toNat) := by
  obtain ⟨h1, _⟩ := ParamKey.ofU16_sound ha
  obtain ⟨h2, _⟩ := ParamKey.ofU16_sound hb
  have e1 : v.toNat = paramKeyNumber a := by
    rw [h1, UInt16.toNat_ofNat_of_lt' (paramKeyNumber_lt a)]
  have e2 : w.toNat = paramKeyNumber b := by
    rw [h2, UInt16.toNat_ofNat_of_lt' (paramKeyNumber_lt b)]
  rw [ParamKey.ord_eq, ParamKey.ord_eq, ← e1, ← e2]
  refine ⟨⟨fun h => ?_, fun h => ?_⟩, Iff.rfl⟩
  · have := UInt16.toNat_inj.mp h
    subst this
    rw [ha] at hb
    exact Res.ok.inj hb
  · subst h
    rw [e1, e2]

example : ParamKey.ofU16 1 = .ok .alpn ∧ ParamKey.ofU16 65281 = .ok (.private 65281) := by decide

/-- C75 (partial): the parameters of a record that was read compare equal only if they are equal. -/
theorem C75_params_partial (cfg : Cfg) (d : Bytes) (i j : Nat) (r : Svcb)
    (h : Svcb.parse cfg d i = (.ok r, j)) :
    ∀ p ∈ r.params, ∀ q ∈ r.params, p.ord = q.ord → p = q := by
  obtain ⟨_, k, ps, _, _, hp⟩ := C45_parsed cfg d i j r h
  intro p hp1 q hq1 e
  rw [Param.ord_eq, Param.ord_eq] at e
  have h1 := (hp p).mp hp1
  have h2 := (hp q).mp hq1
  rw [e] at h1
  rw [h1] at h2
  exact Option.some.inj h2
example : ∀ p ∈ [Param.port 53, .ech [7]], ∀ q ∈ [Param.port 53, .ech [7]], p.ord = q.ord → p = q :=
  C75_params_partial ⟨true, true, true⟩ [0, 1, 0, 0, 3, 0, 2, 0, 53, 0, 5, 0, 1, 7] 0 14 ⟨1, [], [.port 53, .ech [7]]⟩
    (by decide +kernel)

/-- C75 is false: `Private(1)` and `Alpn` are different keys that compare equal, two ports are different
parameters that compare equal, and so adding the second one to a set has no effect. -/
theorem C75_counterexample :
    ParamKey.private 1 ≠ .alpn ∧ (ParamKey.private 1).ord = ParamKey.alpn.ord ∧
    Param.port 1 ≠ .port 2 ∧ (Param.port 1).ord = (Param.port 2).ord ∧
    btInsert Param.ord (.port 2) [.port 1] = [.port 1] ∧
    btInsert Param.ord (.private 1 [9]) [.alpn [[104, 50]]] = [.alpn [[104, 50]]] := by decide

/-! ## C78 -/

theorem keyListOctets_cons (k : Nat) (ks : List Nat) :
    keyListOctets (k :: ks) = octets16 (UInt16.ofNat k) ++ keyListOctets ks := rfl

theorem keyListOctets_inj : ∀ {a b : List Nat}, (∀ m ∈ a, m < 65536) → (∀ m ∈ b, m < 65536) →
    keyListOctets a = keyListOctets b → a = b := by
  intro a
  induction a with
  | nil =>
    intro b _ _ h
    cases b with
    | nil => rfl
    | cons y ys => cases h
  | cons x xs ih =>
    intro b ha hb h
    cases b with
    | nil => cases h
    | cons y ys =>
      rw [keyListOctets_cons, keyListOctets_cons] at h
      obtain ⟨h1, h2⟩ := octets16_inj h
      have h1 := congrArg UInt16.toNat h1
      rw [UInt16.toNat_ofNat_of_lt' (ha x List.mem_cons_self),
        UInt16.toNat_ofNat_of_lt' (hb y List.mem_cons_self)] at h1
      rw [h1, ih (fun m hm => ha m (List.mem_cons_of_mem _ hm)) (fun m hm => hb m (List.mem_cons_of_mem _ hm)) h2]

/-- The key with a number. -/
theorem key_exists {k : Nat} (h : KnownKey k) : ∃ c, keyOk c ∧ paramKeyNumber c = k := by
  rcases h with h | ⟨h1, h2⟩
  · rcases k with _ | _ | _ | _ | _ | _ | _ | k
    · exact ⟨.mandatory, trivial, rfl⟩
    · exact ⟨.alpn, trivial, rfl⟩
    · exact ⟨.noDefaultAlpn, trivial, rfl⟩
    · exact ⟨.port, trivial, rfl⟩
    · exact ⟨.ipV4Hint, trivial, rfl⟩
    · exact ⟨.ech, trivial, rfl⟩
    · exact ⟨.ipV6Hint, trivial, rfl⟩
    · omega
  · by_cases h : k = 65535
    · exact ⟨.invalid, trivial, h.symm⟩
    · have e : (UInt16.ofNat k).toNat = k := UInt16.toNat_ofNat_of_lt' (by simp [UInt16.size]; omega)
      refine ⟨.private (UInt16.ofNat k), ?_, e⟩
      show 65280 ≤ (UInt16.ofNat k).toNat ∧ (UInt16.ofNat k).toNat ≤ 65534
      rw [e]; omega

theorem keyOk_known {c : ParamKey} (h : keyOk c) : KnownKey (paramKeyNumber c) := by
  cases c with
  | «private» n =>
    obtain ⟨h1, h2⟩ := h
    exact Or.inr ⟨h1, by show n.toNat ≤ 65535; omega⟩
  | invalid => exact Or.inr ⟨by decide, by decide⟩
  | _ => exact Or.inl (by decide)

theorem keys_exist : ∀ {ks : List Nat}, (∀ m ∈ ks, KnownKey m) →
    ∃ cs : List ParamKey, (∀ c ∈ cs, keyOk c) ∧ cs.map paramKeyNumber = ks
  | [], _ => ⟨[], by simp, rfl⟩
  | k :: ks, h => by
    obtain ⟨c, h1, h2⟩ := key_exists (h k List.mem_cons_self)
    obtain ⟨cs, h3, h4⟩ := keys_exist (fun m hm => h m (List.mem_cons_of_mem _ hm))
    refine ⟨c :: cs, ?_, by rw [List.map_cons, h2, h4]⟩
    intro x hx
    rcases List.mem_cons.mp hx with rfl | hx
    · exact h1
    · exact h3 x hx

theorem mandatory_octets (cs : List ParamKey) :
    Items.octets (paramValue (.mandatory cs)) = keyListOctets (cs.map paramKeyNumber) := by
  simp only [paramValue, Items.octets, keyListOctets, List.map_map]
  rfl

theorem alpn_octets (ids : List Bytes) : Items.octets (paramValue (.alpn ids)) = idListOctets ids := by
  simp only [paramValue, Items.octets, idListOctets, List.map_map]
  rfl

theorem param_exists {k : Nat} {v : Bytes} (hl : LegalParam k v) (hs : SupportedParam k v) :
    ∃ p, paramOk p ∧ paramPair p = (k, v) := by
  obtain ⟨h0, h1, h2, h3, _, _⟩ := hl
  obtain ⟨hk, s0, s4, s6, s9⟩ := hs
  obtain ⟨c, hc, rfl⟩ := key_exists hk
  cases c with
  | mandatory =>
    obtain ⟨_, ks, rfl, h5, h6⟩ := h0 rfl
    obtain ⟨cs, h7, rfl⟩ := keys_exist (s0 rfl ks (fun m hm => (h6 m hm).2) rfl)
    refine ⟨.mandatory cs, ⟨h7, List.pairwise_map.mp h5⟩, ?_⟩
    rw [paramPair, mandatory_octets]
    rfl
  | alpn =>
    obtain ⟨_, ids, rfl, h5⟩ := h1 rfl
    exact ⟨.alpn ids, fun a ha => (h5 a ha).2, by rw [paramPair, alpn_octets]; rfl⟩
  | noDefaultAlpn =>
    rw [h2 rfl]
    exact ⟨.noDefaultAlpn, trivial, rfl⟩
  | port =>
    have hv := h3 rfl
    refine ⟨.port (UInt16.ofNat (ofBE v)), trivial, ?_⟩
    have hb : ofBE v < 2 ^ 16 := by have := ofBE_lt v; rw [hv] at this; simpa using this
    have e : octets16 (UInt16.ofNat (ofBE v)) = v := by
      rw [← u16be_eq, u16be, UInt16.toNat_ofNat_of_lt' hb, ← hv, toBE_ofBE]
    show (_, octets16 (UInt16.ofNat (ofBE v)) ++ []) = _
    rw [e, List.append_nil]
    rfl
  | ipV4Hint =>
    have hv := s4 rfl
    refine ⟨.ipV4Hint (UInt32.ofNat (ofBE v)), trivial, ?_⟩
    have hb : ofBE v < 2 ^ 32 := by have := ofBE_lt v; rw [hv] at this; simpa using this
    have e : octets32 (UInt32.ofNat (ofBE v)) = v := by
      rw [← u32be_eq, u32be, UInt32.toNat_ofNat_of_lt' hb, ← hv, toBE_ofBE]
    show (_, octets32 (UInt32.ofNat (ofBE v)) ++ []) = _
    rw [e, List.append_nil]
    rfl
  | ech =>
    refine ⟨.ech v, trivial, ?_⟩
    show (_, v ++ []) = _
    rw [List.append_nil]
    rfl
  | ipV6Hint =>
    have hv := s6 rfl
    refine ⟨.ipV6Hint (BitVec.ofNat 128 (ofBE v)), trivial, ?_⟩
    have hb : ofBE v < 2 ^ 128 := by
      have := ofBE_lt v; rw [hv] at this; exact Nat.lt_of_lt_of_eq this (by norm_num)
    have e : Item.octets (.num 16 (BitVec.ofNat 128 (ofBE v)).toNat) = v := by
      rw [BitVec.toNat_ofNat, Nat.mod_eq_of_lt hb, Item.octets, ← toBE_eq_map, ← hv, toBE_ofBE]
    show (_, Item.octets (.num 16 (BitVec.ofNat 128 (ofBE v)).toNat) ++ []) = _
    rw [e, List.append_nil]
    rfl
  | «private» n =>
    refine ⟨.private n v, hc, ?_⟩
    show (_, v ++ []) = _
    rw [List.append_nil]
    rfl
  | invalid =>
    rw [s9 rfl]
    exact ⟨.invalid, trivial, rfl⟩

theorem params_exist : ∀ {kvs : List (Nat × Bytes)}, (∀ kv ∈ kvs, LegalParam kv.1 kv.2 ∧ SupportedParam kv.1 kv.2) →
    ∃ ps : List Param, (∀ p ∈ ps, paramOk p) ∧ ps.map paramPair = kvs
  | [], _ => ⟨[], by simp, rfl⟩
  | kv :: kvs, h => by
    obtain ⟨h1, h2⟩ := h kv List.mem_cons_self
    obtain ⟨p, h3, h4⟩ := param_exists h1 h2
    obtain ⟨ps, h5, h6⟩ := params_exist (fun x hx => h x (List.mem_cons_of_mem _ hx))
    refine ⟨p :: ps, ?_, by rw [List.map_cons, h4, h6]⟩
    intro x hx
    rcases List.mem_cons.mp hx with rfl | hx
    · exact h3
    · exact h5 x hx

/-- Keys inside `mandatory` were accepted by `ofU16`. -/
theorem mandatory_keys {cfg : Cfg} {d : Bytes} : ∀ (fuel len : Nat) (acc keys : List ParamKey) (i j : Nat),
    Param.mandatoryLoop cfg fuel len acc d i = (.ok keys, j) → (∀ k ∈ acc, keyOk k) → ∀ k ∈ keys, keyOk k := by
  intro fuel
  induction fuel with
  | zero => intro len acc keys i j h; cases h
  | succ fuel ih =>
    intro len acc keys i j h ha
    rw [Param.mandatoryLoop] at h
    split at h
    · simp only [Parser.bind_ok, Parser.lift_ok] at h
      obtain ⟨v, _, _, k, _, ⟨h2, _⟩, _, _, _, h4⟩ := h
      refine ih _ _ _ _ _ h4 ?_
      intro x hx
      rcases mem_btInsert_sub hx with rfl | hx
      · exact (ParamKey.ofU16_sound h2).2
      · exact ha x hx
    · simp only [Parser.pure_ok] at h
      obtain ⟨rfl, _⟩ := h
      exact ha

theorem param_supported {cfg : Cfg} {d : Bytes} {i j : Nat} {p : Param}
    (h : Param.parse cfg d i = (.ok p, j)) : SupportedParam (paramPair p).1 (paramPair p).2 := by
  unfold Param.parse at h
  simp only [Parser.bind_ok, Parser.lift_ok] at h
  obtain ⟨k, m1, h1, key, m2, ⟨h2, hm⟩, len, m3, h3, h4⟩ := h
  obtain ⟨_, hok⟩ := ParamKey.ofU16_sound h2
  have hk := keyOk_known hok
  cases key <;> simp only [Param.parseValue, Parser.bind_ok, Parser.pure_ok] at h4
  case mandatory =>
    obtain ⟨f, m, h5, keys, m2, h6, rfl, rfl⟩ := h4
    refine ⟨hk, fun _ ks hks e => ?_, fun e => ?_, fun e => ?_, fun e => ?_⟩
    · have hall := mandatory_keys _ _ _ _ _ _ h6 (by simp)
      rw [paramPair, mandatory_octets] at e
      have := keyListOctets_inj (by
        intro m hm
        obtain ⟨c, _, rfl⟩ := List.mem_map.mp hm
        exact paramKeyNumber_lt c) hks e
      subst this
      intro m hm
      obtain ⟨c, hc, rfl⟩ := List.mem_map.mp hm
      exact keyOk_known (hall c hc)
    all_goals cases e
  case alpn =>
    obtain ⟨f, m, h5, keys, m2, h6, rfl, rfl⟩ := h4
    exact ⟨hk, (fun e => by cases e), (fun e => by cases e), (fun e => by cases e), (fun e => by cases e)⟩
  case noDefaultAlpn =>
    obtain ⟨rfl, rfl⟩ := h4
    exact ⟨hk, (fun e => by cases e), (fun e => by cases e), (fun e => by cases e), (fun e => by cases e)⟩
  case invalid =>
    obtain ⟨rfl, rfl⟩ := h4
    exact ⟨hk, (fun e => by cases e), (fun e => by cases e), (fun e => by cases e), fun _ => rfl⟩
  case port =>
    obtain ⟨x, m, h5, rfl, rfl⟩ := h4
    exact ⟨hk, (fun e => by cases e), (fun e => by cases e), (fun e => by cases e), (fun e => by cases e)⟩
  case ipV4Hint =>
    obtain ⟨x, m, h5, rfl, rfl⟩ := h4
    exact ⟨hk, (fun e => by cases e), fun _ => rfl, (fun e => by cases e), (fun e => by cases e)⟩
  case ipV6Hint =>
    obtain ⟨x, m, h5, rfl, rfl⟩ := h4
    exact ⟨hk, (fun e => by cases e), (fun e => by cases e), fun _ => by simp [paramPair, paramValue, Items.octets, Item.octets],
      (fun e => by cases e)⟩
  case ech =>
    obtain ⟨x, m, h5, rfl, rfl⟩ := h4
    exact ⟨hk, (fun e => by cases e), (fun e => by cases e), (fun e => by cases e), (fun e => by cases e)⟩
  case «private» =>
    obtain ⟨x, m, h5, rfl, rfl⟩ := h4
    rename_i n _
    obtain ⟨o1, o2⟩ := hok
    have hn : ∀ c : Nat, c < 65280 ∨ c = 65535 → (paramPair (.private n x)).1 ≠ c := by
      intro c hc e
      have e : n.toNat = c := e
      omega
    exact ⟨hk, (fun e => (hn _ (by simp) e).elim), (fun e => (hn _ (by simp) e).elim),
      (fun e => (hn _ (by simp) e).elim), (fun e => (hn _ (by simp) e).elim)⟩

/-- C78 (partial): a SVCB record that is legal by RFC 9460 is read with exactly its priority, target, keys
and values if and only if all its parameters are supported: the keys 0 to 6 and the private ones, hints
with one address, and no value for the reserved key 65535.  What is missing: the other legal records (see
the counterexample). -/
theorem C78_legal_partial (cfg : Cfg) (d : Bytes) (i j : Nat) (priority : UInt16) (target : Fqdn)
    (kvs : List (Nat × Bytes)) (hl : LegalSvcb kvs)
    (h : Items.At LegalName d i (svcbItems priority target kvs) j) :
    (∃ r, RecordData.parse cfg .SVCB d i = (.ok (.SVCB r), j) ∧ r.priority = priority ∧
      r.targetName = target ∧ r.params.map paramPair = kvs) ↔
    ∀ kv ∈ kvs, SupportedParam kv.1 kv.2 := by
  constructor
  · rintro ⟨r, h1, _, _, rfl⟩
    have h2 : Svcb.parse cfg d i = (.ok r, j) := by
      simp only [RecordData.parse, Parser.bind_ok, Parser.pure_ok] at h1
      obtain ⟨x, k, h3, h4, rfl⟩ := h1
      cases h4
      exact h3
    obtain ⟨_, k, ps, _, h5, h6⟩ := C45_parsed cfg d i j r h2
    intro kv hkv
    obtain ⟨p, hp, rfl⟩ := List.mem_map.mp hkv
    have hmem := List.mem_of_find?_eq_some ((h6 p).mp hp)
    obtain ⟨a, b, hab⟩ := listAt_mem h5 hmem
    exact param_supported hab
  · intro hs
    obtain ⟨ps, h1, rfl⟩ := params_exist (fun kv hkv => ⟨(hl.2 kv hkv).2, hs kv hkv⟩)
    refine ⟨⟨priority, target, ps⟩, ?_, rfl, rfl, rfl⟩
    refine C37_parse_complete_partial cfg d i j (.SVCB ⟨priority, target, ps⟩) _ (fun _ => by simp)
      (fun _ e => by cases e) (fun _ _ e => by cases e) ⟨rfl, ?_, h1⟩ ?_
    · exact (List.pairwise_map (R := fun a b : Nat × Bytes => a.1 < b.1)).mp hl.1
    · rw [svcbItems, List.flatMap_map] at h
      exact h

/-- C78: a record with a mandatory list, an ALPN identifier, a port, an IPv4 hint and a private key. -/
example : LegalSvcb [(0, [0, 3]), (1, [2, 104, 50]), (3, [0, 80]), (4, [1, 2, 3, 4]), (65281, [7])] ∧
    Items.At LegalName ([0, 1, 0, 0, 0, 0, 2, 0, 3, 0, 1, 0, 3, 2, 104, 50, 0, 3, 0, 2, 0, 80, 0, 4, 0, 4,
      1, 2, 3, 4, 0xFF, 1, 0, 1, 7] : Bytes) 0
      (svcbItems 1 [] [(0, [0, 3]), (1, [2, 104, 50]), (3, [0, 80]), (4, [1, 2, 3, 4]), (65281, [7])]) 35 := by
  refine ⟨⟨by decide, ?_⟩, ?_⟩
  · intro kv hkv
    simp only [List.mem_cons, List.not_mem_nil, or_false] at hkv
    rcases hkv with rfl | rfl | rfl | rfl | rfl
    · exact ⟨by decide, fun _ => ⟨by decide, [3], by decide, by decide, by decide⟩, (fun e => by cases e),
        (fun e => by cases e), (fun e => by cases e), (fun e => by cases e), (fun e => by cases e)⟩
    · exact ⟨by decide, (fun e => by cases e), fun _ => ⟨by decide, [[104, 50]], by decide, by decide⟩,
        (fun e => by cases e), (fun e => by cases e), (fun e => by cases e), (fun e => by cases e)⟩
    · exact ⟨by decide, (fun e => by cases e), (fun e => by cases e), (fun e => by cases e), fun _ => rfl,
        (fun e => by cases e), (fun e => by cases e)⟩
    · exact ⟨by decide, (fun e => by cases e), (fun e => by cases e), (fun e => by cases e),
        (fun e => by cases e), fun _ => by decide, (fun e => by cases e)⟩
    · exact ⟨by decide, (fun e => by cases e), (fun e => by cases e), (fun e => by cases e),
        (fun e => by cases e), (fun e => by cases e), (fun e => by cases e)⟩
  · refine ⟨2, ⟨[], _, rfl, rfl, rfl⟩, 3, .root rfl, 5, ⟨[0, 1, 0], _, rfl, rfl, rfl⟩,
      9, ⟨by decide, [0, 1, 0, 0, 0], _, rfl, rfl, rfl⟩,
      11, ⟨[0, 1, 0, 0, 0, 0, 2, 0, 3], _, rfl, rfl, rfl⟩,
      16, ⟨by decide, [0, 1, 0, 0, 0, 0, 2, 0, 3, 0, 1], _, rfl, rfl, rfl⟩,
      18, ⟨[0, 1, 0, 0, 0, 0, 2, 0, 3, 0, 1, 0, 3, 2, 104, 50], _, rfl, rfl, rfl⟩,
      22, ⟨by decide, [0, 1, 0, 0, 0, 0, 2, 0, 3, 0, 1, 0, 3, 2, 104, 50, 0, 3], _, rfl, rfl, rfl⟩,
      24, ⟨[0, 1, 0, 0, 0, 0, 2, 0, 3, 0, 1, 0, 3, 2, 104, 50, 0, 3, 0, 2, 0, 80], _, rfl, rfl, rfl⟩,
      30, ⟨by decide, [0, 1, 0, 0, 0, 0, 2, 0, 3, 0, 1, 0, 3, 2, 104, 50, 0, 3, 0, 2, 0, 80, 0, 4], _, rfl, rfl, rfl⟩,
      32, ⟨[0, 1, 0, 0, 0, 0, 2, 0, 3, 0, 1, 0, 3, 2, 104, 50, 0, 3, 0, 2, 0, 80, 0, 4, 0, 4, 1, 2, 3, 4], _, rfl, rfl, rfl⟩,
      35, ⟨by decide, [0, 1, 0, 0, 0, 0, 2, 0, 3, 0, 1, 0, 3, 2, 104, 50, 0, 3, 0, 2, 0, 80, 0, 4, 0, 4, 1, 2, 3, 4, 0xFF, 1],
        [], rfl, rfl, rfl⟩, 35, ⟨rfl, rfl⟩, rfl⟩

/-- C78 is false for legal records with two addresses in a hint (RFC 9460, section 7.3: "one or more"),
which are refused or read as something else, and for legal records with a key the crate does not know
(`dohpath`, key 7, RFC 9461), which are refused although RFC 9460 has such keys kept as opaque values. -/
theorem C78_counterexample (cfg : Cfg) :
    LegalSvcb [(4, [1, 2, 3, 4, 0, 2, 0, 0])] ∧ LegalSvcb [(7, [47])] ∧
    RecordData.parse cfg .SVCB ([0, 1, 0, 0, 4, 0, 8, 1, 2, 3, 4, 0, 2, 0, 0] : Bytes) 0 =
      (.ok (.SVCB ⟨1, [], [.noDefaultAlpn, .ipV4Hint 0x01020304]⟩), 15) ∧
    RecordData.parse cfg .SVCB ([0, 1, 0, 0, 7, 0, 1, 47] : Bytes) 0 = (.err (.invalidSvcbParam 7), 3) := by
  refine ⟨⟨by decide, ?_⟩, ⟨by decide, ?_⟩, ?_⟩
  · intro kv hkv
    simp only [List.mem_cons, List.not_mem_nil, or_false] at hkv
    subst hkv
    exact ⟨by decide, (fun e => by cases e), (fun e => by cases e), (fun e => by cases e),
        (fun e => by cases e), fun _ => by decide, (fun e => by cases e)⟩
  · intro kv hkv
    simp only [List.mem_cons, List.not_mem_nil, or_false] at hkv
    subst hkv
    exact ⟨by decide, (fun e => by cases e), (fun e => by cases e), (fun e => by cases e),
        (fun e => by cases e), (fun e => by cases e), (fun e => by cases e)⟩
  · obtain ⟨a, b, c⟩ := cfg
    cases a <;> cases b <;> cases c <;> decide +kernel

end Dns
