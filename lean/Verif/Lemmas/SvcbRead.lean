import Verif.Lemmas.RDataWrite

/-! SVCB records in the format of RFC 9460 are read. -/

namespace Dns
open Spec Buf

theorem btInsert_last {α : Type} (key : α → Nat) (x : α) (l : List α) (h : ∀ y ∈ l, key y < key x) :
    btInsert key x l = l ++ [x] := by
  induction l with
  | nil => rfl
  | cons y ys ih =>
    have h1 := h y List.mem_cons_self
    rw [btInsert, if_neg (by omega), if_pos h1, ih (fun z hz => h z (List.mem_cons_of_mem _ hz))]
    rfl

theorem paramKeyNumber_lt (k : ParamKey) : paramKeyNumber k < 65536 := by
  cases k <;> simp [paramKeyNumber]
  exact UInt16.toNat_lt _

theorem ParamKey.ord_eq (k : ParamKey) : k.ord = paramKeyNumber k := by
  rw [ParamKey.ord, ParamKey.toU16_eq, UInt16.toNat_ofNat_of_lt' (paramKeyNumber_lt k)]

theorem ParamKey.ofU16_number {k : ParamKey} (h : keyOk k) :
    ParamKey.ofU16 (UInt16.ofNat (paramKeyNumber k)) = .ok k := by
  cases k with
  | «private» n =>
    simp only [paramKeyNumber, UInt16.ofNat_toNat]
    obtain ⟨h1, h2⟩ := h
    have ne : ∀ m : Nat, m < 65280 → n ≠ UInt16.ofNat m := by
      rintro m hm rfl
      rw [UInt16.toNat_ofNat_of_lt' (by simp [UInt16.size]; omega)] at h1
      omega
    have ne2 : n ≠ 65535 := by rintro rfl; simp at h2
    unfold ParamKey.ofU16
    split
    · exact absurd rfl (ne 0 (by omega))
    · exact absurd rfl (ne 1 (by omega))
    · exact absurd rfl (ne 2 (by omega))
    · exact absurd rfl (ne 3 (by omega))
    · exact absurd rfl (ne 4 (by omega))
    · exact absurd rfl (ne 5 (by omega))
    · exact absurd rfl (ne 6 (by omega))
    · exact absurd rfl ne2
    · rw [if_pos]
      constructor
      · rw [UInt16.le_iff_toNat_le]; exact h1
      · rw [UInt16.le_iff_toNat_le]; exact h2
  | _ => rfl

theorem mandatory_read (cfg : Cfg) (d : Bytes) : ∀ (keys acc : List ParamKey) (i j fuel : Nat),
    (∀ k ∈ keys, keyOk k) → (acc ++ keys).Pairwise (fun a b => paramKeyNumber a < paramKeyNumber b) →
    Octets d i (Items.octets (keys.map (fun k => o16 (paramKeyNumber k)))) j → keys.length < fuel →
    Param.mandatoryLoop cfg fuel (2 * keys.length) acc d i = (.ok (acc ++ keys), j) := by
  intro keys
  induction keys with
  | nil =>
    intro acc i j fuel _ _ h hf
    obtain ⟨fuel, rfl⟩ : ∃ f, fuel = f + 1 := ⟨fuel - 1, by omega⟩
    have := h.end_eq
    simp only [Param.mandatoryLoop]
    simp [Items.octets] at this
    simp [this]
    rfl
  | cons k ks ih =>
    intro acc i j fuel hk hs h hf
    obtain ⟨fuel, rfl⟩ : ∃ f, fuel = f + 1 := ⟨fuel - 1, by omega⟩
    rw [List.map_cons, octets_cons, octets_append] at h
    obtain ⟨m, h1, h2⟩ := h
    have hs' : (acc ++ [k] ++ ks).Pairwise (fun a b => paramKeyNumber a < paramKeyNumber b) := by
      simpa using hs
    have hins : btInsert ParamKey.ord k acc = acc ++ [k] := by
      apply btInsert_last
      intro y hy
      rw [ParamKey.ord_eq, ParamKey.ord_eq]
      exact (List.pairwise_append.mp hs).2.2 y hy k List.mem_cons_self
    have hl : 2 * (k :: ks).length = 2 * ks.length + 2 := by simp; omega
    rw [Param.mandatoryLoop, hl, if_pos (by omega), Parser.bind_ok]
    refine ⟨UInt16.ofNat (paramKeyNumber k), m, extractU16_ok.mpr h1, ?_⟩
    rw [Parser.bind_ok]
    refine ⟨k, m, Parser.lift_ok.mpr ⟨ParamKey.ofU16_number (hk k List.mem_cons_self), rfl⟩, ?_⟩
    rw [Parser.bind_ok]
    refine ⟨2 * ks.length, m, Parser.lift_ok.mpr ⟨?_, rfl⟩, ?_⟩
    · unfold subUsize; rw [if_pos (by omega)]; rfl
    · rw [hins, ih (acc ++ [k]) m j fuel (fun x hx => hk x (List.mem_cons_of_mem _ hx)) hs' h2
        (by simp at hf; omega)]
      simp

theorem alpn_read (cfg : Cfg) (d : Bytes) : ∀ (ids acc : List Bytes) (i j fuel : Nat),
    (∀ a ∈ ids, a.length < 256) →
    Octets d i (Items.octets (ids.map .str)) j → ids.length < fuel →
    Param.alpnLoop cfg fuel (Items.octets (ids.map .str)).length acc d i = (.ok (acc ++ ids), j) := by
  intro ids
  induction ids with
  | nil =>
    intro acc i j fuel _ h hf
    obtain ⟨fuel, rfl⟩ : ∃ f, fuel = f + 1 := ⟨fuel - 1, by omega⟩
    have := h.end_eq
    simp only [Param.alpnLoop]
    simp [Items.octets] at this
    simp [this, Items.octets]
    rfl
  | cons a as ih =>
    intro acc i j fuel hk h hf
    obtain ⟨fuel, rfl⟩ : ∃ f, fuel = f + 1 := ⟨fuel - 1, by omega⟩
    have ha := hk a List.mem_cons_self
    have hn : (UInt8.ofNat a.length).toNat = a.length := UInt8.toNat_ofNat_of_lt' ha
    have hl : (Items.octets ((a :: as).map .str)).length
        = (Items.octets (as.map .str)).length + (a.length + 1) := by
      rw [List.map_cons, octets_cons, List.length_append]; simp [Item.octets]; omega
    rw [List.map_cons, octets_cons, octets_append] at h
    obtain ⟨m, h1, h2⟩ := h
    rw [Item.octets] at h1
    obtain ⟨m1, h3, h4⟩ := octets_append.mp (show Octets d i ([UInt8.ofNat a.length] ++ a) m from h1)
    rw [hl, Param.alpnLoop, if_pos (by omega), Parser.bind_ok]
    refine ⟨UInt8.ofNat a.length, m1, extractU8_ok.mpr h3, ?_⟩
    rw [Parser.bind_ok]
    refine ⟨a, m, extractBytes_ok.mpr ⟨hn.symm, h4⟩, ?_⟩
    rw [Parser.bind_ok]
    refine ⟨(Items.octets (as.map .str)).length, m, Parser.lift_ok.mpr ⟨?_, rfl⟩, ?_⟩
    · rw [hn]; unfold subUsize; rw [if_pos (by omega)]
      congr 1
      omega
    · rw [ih (acc ++ [a]) m j fuel (fun x hx => hk x (List.mem_cons_of_mem _ hx)) h2
        (by simp at hf; omega)]
      simp

theorem keyOk_key {p : Param} (h : paramOk p) : keyOk p.key := by
  cases p with
  | «private» n b => exact h
  | _ => trivial

theorem octets_keys_length (keys : List ParamKey) :
    (Items.octets (keys.map (fun k => o16 (paramKeyNumber k)))).length = 2 * keys.length := by
  induction keys with
  | nil => rfl
  | cons k ks ih =>
    rw [List.map_cons, octets_cons, List.length_append, ih]
    simp [Item.octets, o16, octets16]; omega

theorem octets_strs_length (ids : List Bytes) : ids.length ≤ (Items.octets (ids.map .str)).length := by
  induction ids with
  | nil => simp
  | cons k ks ih =>
    rw [List.map_cons, octets_cons, List.length_append]
    simp [Item.octets]; omega

theorem Param.parseValue_complete (cfg : Cfg) {d : Bytes} {i j : Nat} {p : Param} (hp : paramOk p)
    (h : Octets d i (Items.octets (paramValue p)) j) :
    Param.parseValue cfg p.key (Items.octets (paramValue p)).length d i = (.ok p, j) := by
  have hend := h.end_eq
  have hle := h.le
  cases p with
  | mandatory keys =>
    simp only [Param.key, Param.parseValue, paramValue] at *
    rw [Parser.bind_ok]
    refine ⟨d.length, i, rfl, ?_⟩
    rw [Parser.bind_ok]
    rw [octets_keys_length] at *
    refine ⟨keys, j, ?_, rfl⟩
    have := mandatory_read cfg d keys [] i j (d.length + 1) hp.1 (by simpa using hp.2) h (by omega)
    simpa using this
  | alpn ids =>
    simp only [Param.key, Param.parseValue, paramValue] at *
    rw [Parser.bind_ok]
    refine ⟨d.length, i, rfl, ?_⟩
    rw [Parser.bind_ok]
    refine ⟨ids, j, ?_, rfl⟩
    have hl := octets_strs_length ids
    have := alpn_read cfg d ids [] i j (d.length + 1) hp h (by omega)
    simpa using this
  | noDefaultAlpn =>
    simp [paramValue, Items.octets] at hend
    subst hend; rfl
  | invalid =>
    simp [paramValue, Items.octets] at hend
    subst hend; rfl
  | port x =>
    simp only [Param.key, Param.parseValue]
    rw [Parser.bind_ok]
    refine ⟨x, j, extractU16_ok.mpr ?_, rfl⟩
    simpa [paramValue, Items.octets, Item.octets] using h
  | ipV4Hint x =>
    simp only [Param.key, Param.parseValue]
    rw [Parser.bind_ok]
    refine ⟨x, j, extractU32_ok.mpr ?_, rfl⟩
    simpa [paramValue, Items.octets, Item.octets] using h
  | ech b =>
    simp only [Param.key, Param.parseValue]
    rw [Parser.bind_ok]
    simp only [paramValue, Items.octets, Item.octets, List.map_cons, List.map_nil, List.flatten_cons,
      List.flatten_nil, List.append_nil] at h ⊢
    exact ⟨b, j, extractBytes_ok.mpr ⟨rfl, h⟩, rfl⟩
  | ipV6Hint x =>
    simp only [Param.key, Param.parseValue]
    rw [Parser.bind_ok]
    simp only [paramValue, Items.octets, List.map_cons, List.map_nil, List.flatten_cons,
      List.flatten_nil, List.append_nil] at h ⊢
    refine ⟨x, j, (extractU128_ok (N := Decodes)).mpr ⟨_, h, by simp [Item.octets], ?_⟩, rfl⟩
    rw [Item.octets, ← toBE_eq_map]
    exact toBE_value 16 _ (by have := x.isLt; norm_num at this ⊢; omega)
  | «private» n b =>
    simp only [Param.key, Param.parseValue]
    rw [Parser.bind_ok]
    simp only [paramValue, Items.octets, Item.octets, List.map_cons, List.map_nil, List.flatten_cons,
      List.flatten_nil, List.append_nil] at h ⊢
    exact ⟨b, j, extractBytes_ok.mpr ⟨rfl, h⟩, rfl⟩

/-- A parameter in the format of the RFC is read. -/
theorem Param.parse_complete (cfg : Cfg) {N : NameRel} {d : Bytes} {i j : Nat} {p : Param} (hp : paramOk p)
    (h : Items.At N d i (paramItems p) j) : Param.parse cfg d i = (.ok p, j) := by
  obtain ⟨k, h1, m, ⟨hl, h2⟩, rfl⟩ := h
  obtain ⟨m1, h3, h4⟩ := octets_append.mp h2
  unfold Param.parse
  rw [Parser.bind_ok]
  refine ⟨_, k, extractU16_ok.mpr h1, ?_⟩
  rw [Parser.bind_ok]
  refine ⟨p.key, k, Parser.lift_ok.mpr ⟨ParamKey.ofU16_number (keyOk_key hp), rfl⟩, ?_⟩
  rw [Parser.bind_ok]
  refine ⟨_, m1, extractU16_ok.mpr h3, ?_⟩
  rw [UInt16.toNat_ofNat_of_lt' (by simpa [UInt16.size] using hl)]
  exact Param.parseValue_complete cfg hp h4

theorem Svcb.step_ok {cfg : Cfg} {d : Bytes} {i k : Nat} {acc acc' : List Param} :
    Svcb.step cfg acc d i = (.ok acc', k) ↔ i ≤ d.length ∧ k ≤ d.length ∧
      ∃ p, Param.parse cfg d i = (.ok p, k) ∧ acc' = btInsert Param.ord p acc := by
  unfold Svcb.step
  simp only [Parser.bind_ok, remaining_ok, withSubBuffer_ok, Parser.pure_ok]
  constructor
  · rintro ⟨n, m, ⟨h1, rfl, rfl⟩, ⟨p, e⟩, _, ⟨h2, rfl, h3⟩, _, m2, h4, rfl, rfl⟩
    rw [Nat.sub_add_cancel h1, List.take_length] at h3
    unfold setPosition at h4
    split at h4
    · simp at h4
    · simp only [Prod.mk.injEq, true_and] at h4
      subst h4
      exact ⟨h1, by omega, p, h3, rfl⟩
  · rintro ⟨h1, h2, p, h3, rfl⟩
    refine ⟨_, i, ⟨h1, rfl, rfl⟩, (p, k), i, ⟨by omega, rfl, ?_⟩, (), k, ?_, rfl, rfl⟩
    · rw [show d.length - i + i = d.length by omega, List.take_length]; exact h3
    · unfold setPosition
      rw [if_neg (by simpa using h2)]

theorem paramItems_end {N : NameRel} {d : Bytes} {i j : Nat} {p : Param}
    (h : Items.At N d i (paramItems p) j) : i + 4 ≤ j ∧ j ≤ d.length := by
  obtain ⟨k, h1, m, ⟨hl, h2⟩, rfl⟩ := h
  have h1' : Octets d i (octets16 (UInt16.ofNat (paramKeyNumber p.key))) k := h1
  have e1 := h1'.end_eq
  have e2 := h2.end_eq
  have e3 := h2.le
  simp only [List.length_append, octets16_length] at e1 e2
  omega

theorem Svcb.loop_complete (cfg : Cfg) {N : NameRel} (d : Bytes) :
    ∀ (ps acc : List Param) (i fuel : Nat),
    (∀ p ∈ ps, paramOk p) →
    (acc ++ ps).Pairwise (fun a b => paramKeyNumber a.key < paramKeyNumber b.key) →
    Items.At N d i (ps.flatMap paramItems) d.length → d.length < i + fuel →
    whileRemainingFuel (Svcb.step cfg) fuel acc d i = (.ok (acc ++ ps), d.length) := by
  intro ps
  induction ps with
  | nil =>
    intro acc i fuel _ _ h hf
    obtain rfl : i = d.length := h
    obtain ⟨fuel, rfl⟩ : ∃ f, fuel = f + 1 := ⟨fuel - 1, by omega⟩
    rw [whileRemainingFuel_succ]
    simp
  | cons p ps ih =>
    intro acc i fuel hk hs h hf
    rw [List.flatMap_cons, itemsAt_append] at h
    obtain ⟨k, h1, h2⟩ := h
    have he := paramItems_end h1
    have hs' : (acc ++ [p] ++ ps).Pairwise (fun a b => paramKeyNumber a.key < paramKeyNumber b.key) := by
      simpa using hs
    have hins : btInsert Param.ord p acc = acc ++ [p] := by
      apply btInsert_last
      intro y hy
      simp only [Param.ord, ParamKey.ord_eq]
      exact (List.pairwise_append.mp hs).2.2 y hy p List.mem_cons_self
    obtain ⟨fuel, rfl⟩ : ∃ f, fuel = f + 1 := ⟨fuel - 1, by omega⟩
    rw [whileRemainingFuel_succ, if_pos (by omega), if_pos (by omega), Parser.bind_ok]
    refine ⟨acc ++ [p], k, Svcb.step_ok.mpr ⟨by omega, by omega, p,
      Param.parse_complete cfg (hk p List.mem_cons_self) h1, hins.symm⟩, ?_⟩
    rw [ih (acc ++ [p]) k fuel (fun q hq => hk q (List.mem_cons_of_mem _ hq)) hs' h2 (by omega)]
    simp

/-- A SVCB record in the format of the RFC is read. -/
theorem Svcb.parse_complete {cfg : Cfg} {d : Bytes} {i j : Nat} {r : Svcb} {its : List Item}
    (hr : RData cfg (.SVCB r) its) (h : Items.At Decodes d i its j) :
    Svcb.parse cfg d i = (.ok r, j) := by
  obtain ⟨rfl, hs, hk⟩ := hr
  rw [eof_append, itemsAt_append] at h
  obtain ⟨⟨k, ⟨k1, h1, k2, h2, rfl⟩, h3⟩, rfl⟩ := h
  unfold Svcb.parse
  rw [Parser.bind_ok]
  refine ⟨r.priority, k1, extractU16_ok.mpr h1, ?_⟩
  rw [Parser.bind_ok]
  refine ⟨r.targetName, k2, h2, ?_⟩
  rw [Parser.bind_ok]
  refine ⟨r.params, d.length, ?_, rfl⟩
  have := Svcb.loop_complete cfg d r.params [] k2 (d.length + 1) hk (by simpa using hs) h3 (by omega)
  simpa [whileRemaining] using this

end Dns
