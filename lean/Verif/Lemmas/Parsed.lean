import Verif.Lemmas.SvcbRead
import Verif.Lemmas.PacketWrite
import Verif.Props.NameDecode

/-
What is read can be written: the fields of a parsed packet fit into the wire format.
-/

namespace Dns
open Spec Buf

theorem itemsAt_mem {N : NameRel} {d : Bytes} : ∀ {its : List Item} {i j : Nat} {it : Item},
    Items.At N d i its j → it ∈ its → ∃ a b, Item.At N d a it b := by
  intro its
  induction its with
  | nil => intro i j it _ h; cases h
  | cons x xs ih =>
    rintro i j it ⟨k, h1, h2⟩ hm
    rcases List.mem_cons.mp hm with rfl | hm
    · exact ⟨_, _, h1⟩
    · exact ih h2 hm

theorem name_mem {d : Bytes} {its : List Item} {i j : Nat} {n : Fqdn}
    (h : Items.At Decodes d i its j) (hm : Item.name n ∈ its) : NameOk 191 n := by
  obtain ⟨a, b, h⟩ := itemsAt_mem h hm
  intro l hl
  have := C57_label_bounded d a b n h l hl
  exact ⟨this.1, this.2.1⟩

theorem str_mem {N : NameRel} {d : Bytes} {its : List Item} {i j : Nat} {s : Bytes}
    (h : Items.At N d i its j) (hm : Item.str s ∈ its) : s.length < 256 := by
  obtain ⟨a, b, h⟩ := itemsAt_mem h hm
  exact h.1

theorem str16_mem {N : NameRel} {d : Bytes} {its : List Item} {i j : Nat} {s : Bytes}
    (h : Items.At N d i its j) (hm : Item.str16 s ∈ its) : s.length < 65536 := by
  obtain ⟨a, b, h⟩ := itemsAt_mem h hm
  exact h.1

theorem num_mem {N : NameRel} {d : Bytes} {its : List Item} {i j k v : Nat}
    (h : Items.At N d i its j) (hm : Item.num k v ∈ its) : v < 256 ^ k := by
  obtain ⟨a, b, c, h1, rfl, rfl⟩ := itemsAt_mem h hm
  rw [valueOf_eq]
  exact ofBE_lt c

/-! ## SVCB -/

theorem ParamKey.ofU16_ok {v : UInt16} {k : ParamKey} (h : ParamKey.ofU16 v = .ok k) : keyOk k := by
  unfold ParamKey.ofU16 at h
  split at h
  case h_9 =>
    split at h
    · rename_i h'
      cases h
      exact ⟨UInt16.le_iff_toNat_le.mp h'.1, UInt16.le_iff_toNat_le.mp h'.2⟩
    · cases h
  all_goals cases h; trivial

theorem mandatory_parsed {cfg : Cfg} {d : Bytes} : ∀ (fuel len : Nat) (acc keys : List ParamKey) (i j : Nat),
    paramOk (.mandatory acc) → Param.mandatoryLoop cfg fuel len acc d i = (.ok keys, j) →
    paramOk (.mandatory keys) := by
  intro fuel
  induction fuel with
  | zero => intro len acc keys i j _ h; cases h
  | succ fuel ih =>
    intro len acc keys i j ha h
    rw [Param.mandatoryLoop] at h
    split at h
    · simp only [Parser.bind_ok, Parser.lift_ok] at h
      obtain ⟨_, _, _, k, _, ⟨hk, _⟩, _, _, _, h⟩ := h
      refine ih _ _ _ _ _ ⟨?_, ?_⟩ h
      · intro x hx
        rcases mem_btInsert_sub hx with rfl | hx
        · exact ParamKey.ofU16_ok hk
        · exact ha.1 x hx
      · have := sorted_btInsert (key := ParamKey.ord) k (l := acc) (by simpa only [ParamKey.ord_eq] using ha.2)
        simpa only [ParamKey.ord_eq] using this
    · rw [Parser.pure_ok] at h
      obtain ⟨rfl, _⟩ := h
      exact ha

theorem alpn_parsed {cfg : Cfg} {d : Bytes} : ∀ (fuel len : Nat) (acc ids : List Bytes) (i j : Nat),
    paramOk (.alpn acc) → Param.alpnLoop cfg fuel len acc d i = (.ok ids, j) → paramOk (.alpn ids) := by
  intro fuel
  induction fuel with
  | zero => intro len acc keys i j _ h; cases h
  | succ fuel ih =>
    intro len acc keys i j ha h
    rw [Param.alpnLoop] at h
    split at h
    · simp only [Parser.bind_ok, Parser.lift_ok, extractBytes_ok] at h
      obtain ⟨n, _, _, b, _, ⟨hb, _⟩, _, _, _, h⟩ := h
      refine ih _ _ _ _ _ ?_ h
      intro x hx
      rcases List.mem_append.mp hx with hx | hx
      · exact ha x hx
      · rw [List.mem_singleton.mp hx, hb]; exact n.toNat_lt
    · rw [Parser.pure_ok] at h
      obtain ⟨rfl, _⟩ := h
      exact ha

theorem Param.parsed {cfg : Cfg} {d : Bytes} {i j : Nat} {p : Param}
    (h : Param.parse cfg d i = (.ok p, j)) : paramOk p := by
  unfold Param.parse at h
  simp only [Parser.bind_ok, Parser.lift_ok] at h
  obtain ⟨_, _, _, key, _, ⟨hk, _⟩, _, _, _, h⟩ := h
  have hk := ParamKey.ofU16_ok hk
  cases key <;> simp only [Param.parseValue, Parser.bind_ok, Parser.pure_ok] at h
  case mandatory =>
    obtain ⟨_, _, _, keys, _, h1, rfl, _⟩ := h
    exact mandatory_parsed _ _ _ _ _ _ ⟨by simp, by simp⟩ h1
  case alpn =>
    obtain ⟨_, _, _, keys, _, h1, rfl, _⟩ := h
    exact alpn_parsed _ _ _ _ _ _ (by simp [paramOk]) h1
  case noDefaultAlpn => obtain ⟨rfl, _⟩ := h; trivial
  case invalid => obtain ⟨rfl, _⟩ := h; trivial
  all_goals obtain ⟨_, _, _, rfl, _⟩ := h; trivial

theorem length_btInsert {α : Type} (key : α → Nat) (a : α) (l : List α) : (btInsert key a l).length ≤ l.length + 1 := by
  induction l with
  | nil => simp [btInsert]
  | cons x l ih =>
    rw [btInsert]
    split
    · simp
    · split
      · simp only [List.length_cons]; omega
      · simp

theorem mandatory_span {cfg : Cfg} {d : Bytes} : ∀ (fuel len : Nat) (acc keys : List ParamKey) (i j : Nat),
    Param.mandatoryLoop cfg fuel len acc d i = (.ok keys, j) → i + 2 * keys.length ≤ j + 2 * acc.length := by
  intro fuel
  induction fuel with
  | zero => intro len acc keys i j h; cases h
  | succ fuel ih =>
    intro len acc keys i j h
    rw [Param.mandatoryLoop] at h
    split at h
    · simp only [Parser.bind_ok, Parser.lift_ok, extractU16_ok] at h
      obtain ⟨_, _, h1, k, _, ⟨_, rfl⟩, _, _, ⟨_, rfl⟩, h⟩ := h
      have h2 := ih _ _ _ _ _ h
      have h3 := length_btInsert ParamKey.ord k acc
      have h4 := h1.end_eq
      simp only [octets16, List.length_cons, List.length_nil] at h4
      omega
    · rw [Parser.pure_ok] at h
      obtain ⟨rfl, rfl⟩ := h
      omega

theorem alpn_span {cfg : Cfg} {d : Bytes} : ∀ (fuel len : Nat) (acc ids : List Bytes) (i j : Nat),
    Param.alpnLoop cfg fuel len acc d i = (.ok ids, j) →
    i + (Items.octets (ids.map .str)).length ≤ j + (Items.octets (acc.map .str)).length := by
  intro fuel
  induction fuel with
  | zero => intro len acc ids i j h; cases h
  | succ fuel ih =>
    intro len acc ids i j h
    rw [Param.alpnLoop] at h
    split at h
    · simp only [Parser.bind_ok, Parser.lift_ok, extractBytes_ok, extractU8_ok] at h
      obtain ⟨n, _, h1, b, _, ⟨_, h2⟩, _, _, ⟨_, rfl⟩, h⟩ := h
      have h3 := ih _ _ _ _ _ h
      have h4 := h1.end_eq
      have h5 := h2.end_eq
      simp only [Items.octets, Item.octets, List.map_append, List.map_cons, List.map_nil, List.flatten_append, List.flatten_cons, List.flatten_nil, List.length_append,
        List.length_cons, List.length_nil] at h3 h4 ⊢
      omega
    · rw [Parser.pure_ok] at h
      obtain ⟨rfl, rfl⟩ := h
      omega

theorem Param.size_read {cfg : Cfg} {d : Bytes} {i j : Nat} {p : Param} (h : Param.parse cfg d i = (.ok p, j)) :
    i + 4 + (Items.octets (paramValue p)).length ≤ j := by
  unfold Param.parse at h
  simp only [Parser.bind_ok, Parser.lift_ok, extractU16_ok] at h
  obtain ⟨_, _, h1, key, _, ⟨_, rfl⟩, _, _, h2, h⟩ := h
  have h3 := h1.end_eq
  have h4 := h2.end_eq
  simp only [octets16, List.length_cons, List.length_nil] at h3 h4
  cases key <;> simp only [Param.parseValue, Parser.bind_ok, Parser.pure_ok, Param.dataLen, Prod.mk.injEq, Res.ok.injEq] at h
  case mandatory =>
    obtain ⟨_, _, ⟨rfl, rfl⟩, keys, _, h5, rfl, rfl⟩ := h
    have h6 := mandatory_span _ _ _ _ _ _ h5
    have h7 : (Items.octets (paramValue (.mandatory keys))).length = 2 * keys.length := by
      clear h5 h6
      induction keys with
      | nil => rfl
      | cons k keys ih =>
        simp only [paramValue, Items.octets, List.map_cons, List.flatten_cons, List.length_append, List.length_cons, o16, Item.octets, octets16, List.length_nil] at ih ⊢
        omega
    rw [h7]
    simp only [List.length_nil] at h6
    omega
  case alpn =>
    obtain ⟨_, _, ⟨rfl, rfl⟩, ids, _, h5, rfl, rfl⟩ := h
    have h6 := alpn_span _ _ _ _ _ _ h5
    simp only [paramValue, List.map_nil, Items.octets, List.flatten_nil, List.length_nil] at h6 ⊢
    omega
  case noDefaultAlpn => obtain ⟨rfl, rfl⟩ := h; simp [paramValue, Items.octets]; omega
  case invalid => obtain ⟨rfl, rfl⟩ := h; simp [paramValue, Items.octets]; omega
  case port =>
    obtain ⟨_, _, h5, rfl, rfl⟩ := h
    have := (extractU16_ok.mp h5).end_eq
    simp [paramValue, Items.octets, Item.octets, octets16] at this ⊢; omega
  case ipV4Hint =>
    obtain ⟨_, _, h5, rfl, rfl⟩ := h
    have := (extractU32_ok.mp h5).end_eq
    simp [paramValue, Items.octets, Item.octets, octets32] at this ⊢; omega
  case ipV6Hint =>
    obtain ⟨a, _, h5, rfl, rfl⟩ := h
    unfold extractU128 at h5
    simp only [Parser.bind_ok, Parser.pure_ok, extractBytes_ok] at h5
    obtain ⟨b, _, ⟨h6, h7⟩, _, rfl⟩ := h5
    have := h7.end_eq
    have h8 : (Items.octets (paramValue (.ipV6Hint a))).length = 16 := by
      simp [paramValue, Items.octets, Item.octets]
    omega
  all_goals
    obtain ⟨_, _, h5, rfl, rfl⟩ := h
    have := (extractBytes_ok.mp h5).2.end_eq
    simp [paramValue, Items.octets, Item.octets] at this ⊢; omega

theorem Svcb.parsed {cfg : Cfg} {d : Bytes} {i j : Nat} {r : Svcb}
    (h : Svcb.parse cfg d i = (.ok r, j)) (hd : d.length < i + 65536) : NameOk 191 r.targetName ∧
      r.params.Pairwise (fun a b => paramKeyNumber a.key < paramKeyNumber b.key) ∧
      ∀ p ∈ r.params, ParamFits p := by
  unfold Svcb.parse at h
  simp only [Parser.bind_ok, Parser.pure_ok] at h
  obtain ⟨_, _, h1, n, k, h2, ps, _, h3, rfl, _⟩ := h
  have hk : i ≤ k := by
    have := (extractU16_ok.mp h1).end_eq
    have := (C11_consumes_in_place _ _ _ _ h2).1
    omega
  refine ⟨?_, ?_⟩
  · intro l hl
    have := C57_label_bounded d _ _ n h2 l hl
    exact ⟨this.1, this.2.1⟩
  · have h3 := loop_of_fuel _ _ _ _ _ h3
    have key : ∀ {s s' : List Param} {m j : Nat}, Loop (Svcb.step cfg) d s m s' j → i ≤ m →
        (s.Pairwise (fun a b => paramKeyNumber a.key < paramKeyNumber b.key) ∧ ∀ p ∈ s, ParamFits p) →
        (s'.Pairwise (fun a b => paramKeyNumber a.key < paramKeyNumber b.key) ∧ ∀ p ∈ s', ParamFits p) := by
      intro s s' m j hl
      induction hl with
      | done => exact fun _ => id
      | step h1 h2 _ ih =>
        intro hm hs
        obtain ⟨_, hk, p, hp, rfl⟩ := Svcb.step_ok.mp h2
        have hsize := Param.size_read hp
        refine ih (by omega) ?_
        constructor
        · have := sorted_btInsert (key := Param.ord) p (l := _) (by simpa only [Param.ord, ParamKey.ord_eq] using hs.1)
          simpa only [Param.ord, ParamKey.ord_eq] using this
        · intro x hx
          rcases mem_btInsert_sub hx with rfl | hx
          · exact ⟨Param.parsed hp, by omega⟩
          · exact hs.2 x hx
    exact key h3 hk ⟨by simp, by simp⟩

theorem lastValue_mem (kvs : List (UInt16 × Bytes)) (k : UInt16) :
    (k, lastValue kvs k) ∈ kvs ∨ lastValue kvs k = [] := by
  induction kvs using List.reverseRecOn with
  | nil => exact Or.inr rfl
  | append_singleton kvs kv ih =>
    obtain ⟨k', v⟩ := kv
    rw [lastValue_snoc]
    split
    · rename_i h; subst h; simp
    · rcases ih with ih | ih
      · exact Or.inl (List.mem_append_left _ ih)
      · exact Or.inr ih

/-! ## Record data, questions, records, packets -/

theorem lossy_ne_nil {b : Bytes} (h : b ≠ []) : utf8Lossy b ≠ [] := by
  fun_induction utf8Lossy b <;> simp_all

theorem RecordData.parsed {cfg : Cfg} {t : RecordType} {d : Bytes} {i j : Nat} {r : RecordData}
    (h : RecordData.parse cfg t d i = (.ok r, j)) (hd : d.length < i + 65536) (hf : TextFits r) : Writable cfg 191 r := by
  cases r
  case SVCB r =>
    have ht := RecordData.parse_type h
    subst ht
    simp only [RecordData.type, RecordData.parse, Parser.bind_ok, Parser.pure_ok] at h
    obtain ⟨r', _, h, h', _⟩ := h
    cases h'
    exact Svcb.parsed h hd
  case SSHFP => trivial
  case APL => trivial
  case IPSECKEY r =>
    by_cases hg : r.gateway = .none
    · simp [Writable, hg]
    · obtain ⟨_, its, rfl, h⟩ := (RecordData.parse_ok (r := .IPSECKEY r) hg).mp h
      obtain ⟨_, _, g, _⟩ := r
      cases g with
      | domain n => exact name_mem h (by simp [gatewayItems])
      | _ => trivial
  case TXT r =>
    obtain ⟨_, its, ⟨ws, rfl, h2⟩, h⟩ := (RecordData.parse_ok (by trivial)).mp h
    intro s hs
    refine ⟨hf s hs, ?_⟩
    rw [h2] at hs
    obtain ⟨w, _, rfl⟩ := List.mem_map.mp hs
    exact utf8Lossy_isUtf8 w
  case CAA r =>
    obtain ⟨_, its, ⟨fl, tag, rfl, h2, _, h3⟩, h⟩ := (RecordData.parse_ok (by trivial)).mp h
    refine ⟨?_, hf, ?_⟩
    · rw [h3]; exact lossy_ne_nil h2
    · rw [h3]; exact utf8Lossy_isUtf8 tag
  case OPT r =>
    obtain ⟨_, its, ⟨kvs, rfl, h2⟩, h⟩ := (RecordData.parse_ok (by trivial)).mp h
    refine ⟨?_, ?_⟩
    · rw [h2, mapOf, List.map_map]
      have : (Prod.fst ∘ fun k => (k, lastValue kvs k)) = id := rfl
      rw [this, List.map_id]
      exact nodup_eraseDups _
    · intro o ho
      rw [h2, mapOf] at ho
      obtain ⟨k, hk, rfl⟩ := List.mem_map.mp ho
      rcases lastValue_mem kvs k with hv | hv
      · exact str16_mem h (by simp only [optionItems, List.mem_append, List.mem_flatMap]
                              exact Or.inl ⟨_, hv, by simp⟩)
      · simp [hv]
  case NAPTR r =>
    obtain ⟨_, its, ⟨fl, rfl, h2, h3⟩, h⟩ := (RecordData.parse_ok (by trivial)).mp h
    refine ⟨?_, str_mem h (by simp), str_mem h (by simp), (utf8Valid_iff _).mp h3, name_mem h (by simp)⟩
    rw [h2]
    exact Nat.lt_of_le_of_lt (List.length_filterMap_le _ _) (str_mem h (by simp))
  case RRSIG r =>
    obtain ⟨_, its, ⟨h1, rfl⟩, h⟩ := (RecordData.parse_ok (by trivial)).mp h
    exact ⟨h1, name_mem h (by simp)⟩
  case NSEC r =>
    obtain ⟨_, its, ⟨ws, rfl, h2⟩, h⟩ := (RecordData.parse_ok (by trivial)).mp h
    exact ⟨name_mem h (by simp), h2.sorted, h2.known⟩
  case CSYNC r =>
    obtain ⟨_, its, ⟨ws, rfl, h1, h2⟩, h⟩ := (RecordData.parse_ok (by trivial)).mp h
    exact ⟨h1, h2.sorted, h2.known⟩
  case HIP r =>
    obtain ⟨_, its, ⟨h1, h2, h3, rfl⟩, h⟩ := (RecordData.parse_ok (by trivial)).mp h
    exact ⟨h1, h2, h3, fun n hn => name_mem h (by simp [hn])⟩
  case TKEY r =>
    obtain ⟨_, its, ⟨h1, h2, rfl⟩, h⟩ := (RecordData.parse_ok (by trivial)).mp h
    exact ⟨name_mem h (by simp), h1, h2, str16_mem h (by simp), str16_mem h (by simp)⟩
  case TSIG r =>
    obtain ⟨_, its, rfl, h⟩ := (RecordData.parse_ok (by trivial)).mp h
    exact ⟨name_mem h (by simp), num_mem (k := 6) h (by simp), str16_mem h (by simp), str16_mem h (by simp)⟩
  case HINFO r =>
    obtain ⟨_, its, rfl, h⟩ := (RecordData.parse_ok (by trivial)).mp h
    exact ⟨str_mem h (by simp), str_mem h (by simp)⟩
  case SOA r =>
    obtain ⟨_, its, rfl, h⟩ := (RecordData.parse_ok (by trivial)).mp h
    exact ⟨name_mem h (by simp), name_mem h (by simp)⟩
  case MINFO r =>
    obtain ⟨_, its, rfl, h⟩ := (RecordData.parse_ok (by trivial)).mp h
    exact ⟨name_mem h (by simp), name_mem h (by simp)⟩
  all_goals first
    | trivial
    | obtain ⟨_, its, rfl, h⟩ := (RecordData.parse_ok (by trivial)).mp h
      exact name_mem h (by simp)

theorem listAt_mem {α : Type} {R : Nat → α → Nat → Prop} : ∀ {xs : List α} {i j : Nat} {x : α},
    ListAt R i xs j → x ∈ xs → ∃ a b, R a x b := by
  intro xs
  induction xs with
  | nil => intro i j x _ h; cases h
  | cons y ys ih =>
    rintro i j x ⟨k, h1, h2⟩ hm
    rcases List.mem_cons.mp hm with rfl | hm
    · exact ⟨_, _, h1⟩
    · exact ih h2 hm

theorem Packet.parsed {cfg : Cfg} {d : Bytes} {p : Packet} (h : Packet.parse cfg d = .ok p)
    (hf : ∀ r ∈ records p, Rewritable cfg r) : PacketOk cfg 191 p ∧ CountsOk p := by
  obtain ⟨e, h1, h2, h3, h4, i1, i2, i3, i4, _, hq, ha, hu, hd⟩ := Packet.parse_ok.mp h
  refine ⟨⟨?_, ?_, ?_, ?_, ?_, ?_⟩, h1.symm, h2.symm, h3.symm, h4.symm⟩
  · intro q hm
    obtain ⟨a, b, h5, v, ⟨_, h6⟩, h7⟩ := listAt_mem hq hm
    refine ⟨name_mem h7 (by simp), h5, ?_⟩
    intro h8
    rw [h6] at h8
    exact (Bool.and_eq_true_iff.mp h8).1
  · intro r hm
    have : ∃ a b, RecordAtWith (ParsedData cfg) Decodes cfg d a r b := by
      simp only [records, List.mem_append] at hm
      rcases hm with (hm | hm) | hm
      · exact listAt_mem ha hm
      · exact listAt_mem hu hm
      · exact listAt_mem hd hm
    obtain ⟨a, b, h5, h6, v, len, k, ⟨h7, h8⟩, h9, hj, _, e, h10⟩ := this
    obtain ⟨f1, f2⟩ := hf r hm
    refine ⟨name_mem h9 (by simp [recordHead]), h5, RecordData.parse_type h10, h6, by omega, ?_,
      RecordData.parsed h10 (by have := len.toNat_lt; simp only [List.length_take]; omega) f1, f2⟩
    intro h11
    rw [h8] at h11
    exact (Bool.and_eq_true_iff.mp h11).1
  all_goals have := p.header.quesCount.toNat_lt
  all_goals have := p.header.ansCount.toNat_lt
  all_goals have := p.header.authCount.toNat_lt
  all_goals have := p.header.addCount.toNat_lt
  all_goals omega

end Dns
