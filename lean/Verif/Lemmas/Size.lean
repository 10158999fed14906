import Verif.Spec.Size
import Verif.Props.Limits
import Verif.Lemmas.Parsed
import Verif.Lemmas.Bounded

/-! Record data are not larger than the octets they are read from, apart from names. -/

namespace Dns
open Spec Buf

theorem utf8Lossy_length : ∀ b : Bytes, (utf8Lossy b).length ≤ 3 * b.length := by
  intro b
  induction b using utf8Lossy.induct with
  | case1 => simp [utf8Lossy]
  | case2 b bs k h ih =>
    rw [utf8Lossy, h]
    simp only [List.length_cons, List.length_append, List.length_take, List.length_drop] at ih ⊢
    omega
  | case3 b bs k h ih =>
    rw [utf8Lossy, h]
    simp only [List.length_cons, List.length_drop] at ih ⊢
    omega

/-- The fewest octets an item takes. -/
def Item.weight : Item → Nat
  | .u8 _ => 1
  | .u16 _ => 2
  | .u32 _ => 4
  | .num k _ => k
  | .name _ => 1
  | .raw b => b.length
  | .str b => 1 + b.length
  | .str16 b => 2 + b.length
  | .rest b => b.length
  | .eof => 0

def Items.weight (its : List Item) : Nat := (its.map Item.weight).sum

theorem Items.weight_cons (it : Item) (its : List Item) :
    Items.weight (it :: its) = Item.weight it + Items.weight its := rfl

theorem Items.weight_append (a b : List Item) : Items.weight (a ++ b) = Items.weight a + Items.weight b := by
  simp [Items.weight]

theorem item_weight {d : Bytes} {i j : Nat} {it : Item} (h : it.At Decodes d i j) : i + Item.weight it ≤ j := by
  cases it
  case num k v => obtain ⟨b, h1, h2, _⟩ := h; have := (octets_iff.mp h1).1; simp only [Item.weight]; omega
  case name n => have := codeName_end_le (extractFqdn_ok.mp h); simp only [Item.weight]; omega
  case str b => have := (octets_iff.mp h.2).1; simp only [Item.weight, List.length_cons] at this ⊢; omega
  case str16 b =>
    have := (octets_iff.mp h.2).1
    simp only [Item.weight, List.length_append, octets16, List.length_cons, List.length_nil] at this ⊢; omega
  case rest b => have := (octets_iff.mp h.1).1; simp only [Item.weight]; omega
  case eof => have := h.2; simp only [Item.weight]; omega
  all_goals have := (octets_iff.mp h).1; simp [Item.weight, octets16, octets32] at this ⊢; omega

theorem items_weight {d : Bytes} : ∀ {its : List Item} {i j : Nat}, Items.At Decodes d i its j →
    i + Items.weight its ≤ j
  | [], i, j, h => by cases h; simp [Items.weight]
  | it :: its, i, j, ⟨k, h1, h2⟩ => by
    have := item_weight h1
    have := items_weight h2
    rw [Items.weight_cons]
    omega

theorem items_names {d : Bytes} : ∀ {its : List Item} {i j : Nat}, Items.At Decodes d i its j →
    ∀ n, Item.name n ∈ its → ∃ a b, extractFqdn d a = (.ok n, b)
  | [], _, _, _, n, hn => by simp at hn
  | it :: its, i, j, ⟨k, h1, h2⟩, n, hn => by
    rcases List.mem_cons.mp hn with rfl | hn
    · exact ⟨i, k, h1⟩
    · exact items_names h2 n hn

theorem windows_weight (ws : List (UInt8 × Bytes)) :
    Items.weight (windowItems ws) = (ws.map (fun w => 2 + w.2.length)).sum := by
  induction ws with
  | nil => rfl
  | cons w ws ih =>
    simp only [windowItems, Items.weight, List.flatMap_cons, List.map_append, List.sum_append, List.map_cons,
      List.sum_cons, List.map_nil, List.sum_nil, Item.weight] at ih ⊢
    omega

theorem types_length {cfg : Cfg} {ws : List (UInt8 × Bytes)} {types : List RecordType} (h : TypesOf cfg ws types) :
    types.length ≤ 8 * (ws.map (fun w => 2 + w.2.length)).sum := by
  let all : List Nat := ws.flatMap (fun w => (List.range (8 * w.2.length)).map (fun x => (256 * w.1.toNat + x) % 65536))
  have h1 : (types.map typeNumber).Nodup := by
    rw [List.nodup_iff_pairwise_ne, List.pairwise_map]
    exact h.sorted.imp (fun h => Nat.ne_of_lt h)
  have h2 : types.map typeNumber ⊆ all := by
    intro x hx
    obtain ⟨t, ht, rfl⟩ := List.mem_map.mp hx
    obtain ⟨w, hw, m, ⟨k, b, o, hk, hb, _, rfl⟩, e⟩ := (h.bits (typeNumber t)).mpr ⟨t, ht, rfl⟩
    refine List.mem_flatMap.mpr ⟨w, hw, List.mem_map.mpr ⟨8 * k + b, ?_, ?_⟩⟩
    · have := (List.getElem?_eq_some_iff.mp hk).1
      exact List.mem_range.mpr (by omega)
    · rw [e, Nat.add_assoc]
  have h3 := (List.subperm_of_subset h1 h2).length_le
  have h4 : all.length ≤ 8 * (ws.map (fun w => 2 + w.2.length)).sum := by
    simp only [all, List.length_flatMap, List.length_map, List.length_range]
    clear h h1 h2 h3 all
    induction ws with
    | nil => simp
    | cons w ws ih => simp only [List.map_cons, List.sum_cons]; omega
  rw [List.length_map] at h3
  omega

theorem mapOf_subperm (kvs : List (UInt16 × Bytes)) : (mapOf kvs).Subperm kvs := by
  have h1 : (mapOf kvs).Nodup := by
    unfold mapOf
    exact (nodup_eraseDups _).map (fun a b h => (Prod.mk.inj h).1)
  refine List.subperm_of_subset h1 ?_
  intro x hx
  obtain ⟨k, hk, rfl⟩ := List.mem_map.mp hx
  have hk := List.mem_eraseDups.mp hk
  obtain ⟨⟨k', v⟩, hkv, rfl⟩ := List.mem_map.mp hk
  have : ∀ l : List (UInt16 × Bytes), (k', v) ∈ l → ∃ v', l.lookup k' = some v' ∧ (k', v') ∈ l := by
    intro l
    induction l with
    | nil => intro h; simp at h
    | cons y l ih =>
      intro h
      rw [List.lookup_cons]
      split
      · rename_i hb
        rw [beq_iff_eq] at hb
        exact ⟨y.2, rfl, by rw [hb]; simp⟩
      · rename_i hb
        rcases List.mem_cons.mp h with rfl | h
        · simp at hb
        · obtain ⟨v', h1, h2⟩ := ih h
          exact ⟨v', h1, List.mem_cons_of_mem _ h2⟩
  obtain ⟨v', h1, h2⟩ := this kvs.reverse (List.mem_reverse.mpr hkv)
  unfold lastValue
  rw [h1]
  exact List.mem_reverse.mp h2

theorem sum_subperm {α : Type} (f : α → Nat) {l m : List α} (h : l.Subperm m) : (l.map f).sum ≤ (m.map f).sum := by
  obtain ⟨k, h1, h2⟩ := h
  rw [← (h1.map f).sum_eq]
  clear h1
  induction h2 with
  | slnil => simp
  | cons _ _ ih => simp; omega
  | cons_cons _ _ ih => simp; omega

theorem options_size (kvs : List (UInt16 × Bytes)) :
    ((mapOf kvs).map (fun x => x.2.length)).sum + (mapOf kvs).length ≤ Items.weight (optionItems kvs) := by
  have h1 := sum_subperm (fun x => x.2.length) (mapOf_subperm kvs)
  have h2 := (mapOf_subperm kvs).length_le
  have h3 : (kvs.map (fun x => x.2.length)).sum + kvs.length ≤ Items.weight (optionItems kvs) := by
    clear h1 h2
    induction kvs with
    | nil => simp
    | cons w ws ih =>
      simp only [optionItems, Items.weight, List.flatMap_cons, List.map_append, List.sum_append, List.map_cons,
        List.sum_cons, List.map_nil, List.sum_nil, Item.weight, List.length_cons] at ih ⊢
      omega
  omega

theorem strs_size (ws : List Bytes) :
    ((ws.map utf8Lossy).map List.length).sum + ws.length ≤ 3 * Items.weight (ws.map .str) := by
  induction ws with
  | nil => simp
  | cons w ws ih =>
    have := utf8Lossy_length w
    simp only [List.map_cons, List.sum_cons, List.length_cons, Items.weight_cons, Item.weight]
    omega

theorem names_weight (ns : List Fqdn) : Items.weight (ns.map .name) = ns.length := by
  induction ns with
  | nil => rfl
  | cons n ns ih => simp only [List.map_cons, Items.weight_cons, Item.weight, ih, List.length_cons]; omega

/-- Exact data: size, number of names, and the names are items. -/
theorem rdata_size {cfg : Cfg} {r : RecordData} {its : List Item} (hx : Exact r) (h : RData cfg r its) :
    rdataSize r ≤ 8 * Items.weight its ∧ (rdataNames r).length ≤ Items.weight its ∧
      ∀ n ∈ rdataNames r, Item.name n ∈ its := by
  cases r
  case SSHFP => cases hx
  case APL => cases hx
  case SVCB => cases hx
  case TXT r =>
    obtain ⟨ws, rfl, e⟩ := h
    have := strs_size ws
    refine ⟨?_, by simp [rdataNames], by simp [rdataNames]⟩
    simp only [rdataSize, rdataStrings, rdataElements, e, Items.weight_append, List.length_map]
    omega
  case OPT r =>
    obtain ⟨kvs, rfl, e⟩ := h
    have := options_size kvs
    refine ⟨?_, by simp [rdataNames], by simp [rdataNames]⟩
    simp only [rdataSize, rdataStrings, rdataElements, e, Items.weight_append, List.map_map] at this ⊢
    have e2 : (List.length ∘ Prod.snd : UInt16 × Bytes → Nat) = fun x => x.2.length := rfl
    rw [e2]
    omega
  case NSEC r =>
    obtain ⟨ws, rfl, e⟩ := h
    have := types_length e
    rw [← windows_weight] at this
    refine ⟨?_, ?_, ?_⟩
    · simp only [rdataSize, rdataStrings, rdataElements, Items.weight_append, Items.weight_cons,
        List.map_nil, List.sum_nil, List.cons_append]
      omega
    · simp only [rdataNames, Items.weight_append, Items.weight_cons, Item.weight, List.cons_append, List.length_cons,
        List.length_nil]
      omega
    · simp [rdataNames]
  case CSYNC r =>
    obtain ⟨ws, rfl, _, e⟩ := h
    have := types_length e
    rw [← windows_weight] at this
    refine ⟨?_, by simp [rdataNames], by simp [rdataNames]⟩
    simp only [rdataSize, rdataStrings, rdataElements, Items.weight_append,
      List.map_nil, List.sum_nil]
    omega
  case HIP r =>
    obtain ⟨_, _, _, rfl⟩ := h
    refine ⟨?_, ?_, ?_⟩
    · simp only [rdataSize, rdataStrings, rdataElements, Items.weight_append, Items.weight_cons, Item.weight, o8, o16,
        List.map_cons, List.map_nil, List.sum_cons, List.sum_nil]
      omega
    · simp only [rdataNames, Items.weight_append, names_weight]
      omega
    · intro n hn
      simp only [rdataNames] at hn
      simp only [List.mem_append, List.mem_map]
      exact .inl (.inr ⟨n, hn, rfl⟩)
  case IPSECKEY r =>
    cases h
    refine ⟨?_, ?_, ?_⟩
    · simp only [rdataSize, rdataStrings, rdataElements, Items.weight_append, Items.weight_cons, Item.weight, o8,
        List.map_cons, List.map_nil, List.sum_cons, List.sum_nil]
      omega
    · cases hg : r.gateway <;> simp [rdataNames, hg, gatewayItems, Items.weight, Item.weight]
    · intro n hn
      simp only [rdataNames] at hn
      cases hg : r.gateway <;> rw [hg] at hn <;> simp at hn
      subst hn
      simp [gatewayItems]
  case NAPTR r =>
    obtain ⟨fl, rfl, e, _⟩ := h
    have : r.flags.length ≤ fl.length := by rw [e]; exact List.length_filterMap_le _ _
    refine ⟨?_, ?_, ?_⟩
    · simp only [rdataSize, rdataStrings, rdataElements, Items.weight, Item.weight,
        List.map_cons, List.map_nil, List.sum_cons, List.sum_nil]
      omega
    · simp [rdataNames, Items.weight, Item.weight]; omega
    · simp [rdataNames]
  case CAA r =>
    obtain ⟨flags, tag, rfl, _, _, e⟩ := h
    have := utf8Lossy_length tag
    refine ⟨?_, by simp [rdataNames], by simp [rdataNames]⟩
    simp only [rdataSize, rdataStrings, rdataElements, Items.weight, Item.weight, e,
      List.map_cons, List.map_nil, List.sum_cons, List.sum_nil]
    omega
  case DNSKEY r =>
    obtain ⟨flags, rfl, _⟩ := h
    refine ⟨?_, by simp [rdataNames], by simp [rdataNames]⟩
    simp only [rdataSize, rdataStrings, rdataElements, Items.weight, Item.weight, o8,
      List.map_cons, List.map_nil, List.sum_cons, List.sum_nil]
    omega
  case CDNSKEY r =>
    obtain ⟨flags, rfl, _⟩ := h
    refine ⟨?_, by simp [rdataNames], by simp [rdataNames]⟩
    simp only [rdataSize, rdataStrings, rdataElements, Items.weight, Item.weight, o8,
      List.map_cons, List.map_nil, List.sum_cons, List.sum_nil]
    omega
  case RRSIG r =>
    obtain ⟨_, rfl⟩ := h
    refine ⟨?_, by simp [rdataNames, Items.weight, Item.weight, o8, o16]; omega, by simp [rdataNames, o8, o16]⟩
    simp only [rdataSize, rdataStrings, rdataElements, Items.weight, Item.weight, o8, o16,
      List.map_cons, List.map_nil, List.sum_cons, List.sum_nil]
    omega
  case TKEY r =>
    obtain ⟨_, _, rfl⟩ := h
    refine ⟨?_, by simp [rdataNames, Items.weight, Item.weight, o16], by simp [rdataNames, o16]⟩
    simp only [rdataSize, rdataStrings, rdataElements, Items.weight, Item.weight, o16,
      List.map_cons, List.map_nil, List.sum_cons, List.sum_nil]
    omega
  case TSIG r =>
    cases h
    refine ⟨?_, by simp [rdataNames, Items.weight, Item.weight, o16], by simp [rdataNames, o16]⟩
    simp only [rdataSize, rdataStrings, rdataElements, Items.weight, Item.weight, o16,
      List.map_cons, List.map_nil, List.sum_cons, List.sum_nil]
    omega
  all_goals
    cases h
    refine ⟨?_, ?_, by simp [rdataNames, dsItems, o8, o16]⟩
    · simp only [rdataSize, rdataStrings, rdataElements, Items.weight, Item.weight, dsItems, o8, o16,
        List.map_cons, List.map_nil, List.sum_cons, List.sum_nil]
      omega
    · simp only [rdataNames, Items.weight, Item.weight, dsItems, o8, o16, List.length_cons, List.length_nil,
        List.map_cons, List.map_nil, List.sum_cons, List.sum_nil]
      omega

theorem sum_btInsert {α : Type} (key : α → Nat) (f : α → Nat) (a : α) (l : List α) :
    ((btInsert key a l).map f).sum ≤ f a + (l.map f).sum := by
  induction l with
  | nil => simp [btInsert]
  | cons y l ih =>
    unfold btInsert
    split
    · simp
    · split
      · simp only [List.map_cons, List.sum_cons] at ih ⊢; omega
      · simp only [List.map_cons, List.sum_cons]; omega

/-- Size of a SVCB parameter. -/
def paramSize (p : Param) : Nat := 1 + paramElements p + ((paramStrings p).map List.length).sum

theorem mandatory_size {cfg : Cfg} {d : Bytes} : ∀ (fuel len : Nat) (acc keys : List ParamKey) (i j : Nat),
    Param.mandatoryLoop cfg fuel len acc d i = (.ok keys, j) → keys.length + i ≤ acc.length + j := by
  intro fuel
  induction fuel with
  | zero => intro len acc keys i j h; simp [Param.mandatoryLoop, Parser.lift] at h
  | succ fuel ih =>
    intro len acc keys i j h
    unfold Param.mandatoryLoop at h
    split at h
    · simp only [Parser.bind_ok, Parser.lift_ok] at h
      obtain ⟨v, k, h1, _, _, ⟨_, rfl⟩, _, _, ⟨_, rfl⟩, h2⟩ := h
      have h1 := (octets_iff.mp (extractU16_ok.mp h1)).1
      have h2 := ih _ _ _ _ _ h2
      have h3 := sum_btInsert ParamKey.ord (fun _ => 1) ‹_› acc
      simp [octets16] at h1 h3
      omega
    · rw [Parser.pure_ok] at h
      obtain ⟨rfl, rfl⟩ := h
      omega

theorem alpn_size {cfg : Cfg} {d : Bytes} : ∀ (fuel len : Nat) (acc ids : List Bytes) (i j : Nat),
    Param.alpnLoop cfg fuel len acc d i = (.ok ids, j) →
      ids.length + (ids.map List.length).sum + i ≤ acc.length + (acc.map List.length).sum + j := by
  intro fuel
  induction fuel with
  | zero => intro len acc keys i j h; simp [Param.alpnLoop, Parser.lift] at h
  | succ fuel ih =>
    intro len acc keys i j h
    unfold Param.alpnLoop at h
    split at h
    · simp only [Parser.bind_ok, Parser.lift_ok] at h
      obtain ⟨v, k, h1, b, _, h3, _, _, ⟨_, rfl⟩, h2⟩ := h
      have h1 := (octets_iff.mp (extractU8_ok.mp h1)).1
      have h3 := (octets_iff.mp (extractBytes_ok.mp h3).2).1
      have h2 := ih _ _ _ _ _ h2
      simp at h1 h2 h3
      omega
    · rw [Parser.pure_ok] at h
      obtain ⟨rfl, rfl⟩ := h
      omega

theorem Param.size {cfg : Cfg} {d : Bytes} {i j : Nat} {p : Param} (h : Param.parse cfg d i = (.ok p, j)) :
    paramSize p + i ≤ j := by
  unfold Param.parse at h
  simp only [Parser.bind_ok, Parser.lift_ok] at h
  obtain ⟨v, k1, h1, key, _, ⟨hk, rfl⟩, len, k2, h2, h⟩ := h
  have h1 := (octets_iff.mp (extractU16_ok.mp h1)).1
  have h2 := (octets_iff.mp (extractU16_ok.mp h2)).1
  simp [octets16] at h1 h2
  cases key <;> simp only [Param.parseValue, Parser.bind_ok, Parser.pure_ok] at h
  case mandatory =>
    obtain ⟨_, _, h0, keys, _, h3, rfl, rfl⟩ := h
    cases h0
    have := mandatory_size _ _ _ _ _ _ h3
    simp [paramSize, paramElements, paramStrings] at this ⊢
    omega
  case alpn =>
    obtain ⟨_, _, h0, keys, _, h3, rfl, rfl⟩ := h
    cases h0
    have := alpn_size _ _ _ _ _ _ h3
    simp [paramSize, paramElements, paramStrings] at this ⊢
    omega
  case noDefaultAlpn => obtain ⟨rfl, rfl⟩ := h; simp [paramSize, paramElements, paramStrings]; omega
  case invalid => obtain ⟨rfl, rfl⟩ := h; simp [paramSize, paramElements, paramStrings]; omega
  case port =>
    obtain ⟨_, _, h3, rfl, rfl⟩ := h
    have h3 := (octets_iff.mp (extractU16_ok.mp h3)).1
    simp [paramSize, paramElements, paramStrings] at h3 ⊢; omega
  case ipV4Hint =>
    obtain ⟨_, _, h3, rfl, rfl⟩ := h
    have h3 := (octets_iff.mp (extractU32_ok.mp h3)).1
    simp [paramSize, paramElements, paramStrings] at h3 ⊢; omega
  case ipV6Hint =>
    obtain ⟨_, _, h3, rfl, rfl⟩ := h
    have h3 := item_weight (it := .num 16 _) ((extractU128_ok (N := Decodes)).mp h3)
    simp [paramSize, paramElements, paramStrings, Item.weight] at h3 ⊢; omega
  case ech =>
    obtain ⟨_, _, h3, rfl, rfl⟩ := h
    have h3 := (octets_iff.mp (extractBytes_ok.mp h3).2).1
    simp [paramSize, paramElements, paramStrings] at h3 ⊢; omega
  case «private» =>
    obtain ⟨_, _, h3, rfl, rfl⟩ := h
    have h3 := (octets_iff.mp (extractBytes_ok.mp h3).2).1
    simp [paramSize, paramElements, paramStrings] at h3 ⊢; omega

theorem Svcb.params_size_le (ps : List Param) :
    ((ps.flatMap paramStrings).map List.length).sum + (ps.length + (ps.map paramElements).sum) =
      (ps.map paramSize).sum := by
  induction ps with
  | nil => rfl
  | cons p ps ih =>
    simp only [List.flatMap_cons, List.map_append, List.sum_append, List.length_cons, List.map_cons, List.sum_cons,
      paramSize] at ih ⊢
    omega

theorem Svcb.size_le {cfg : Cfg} {d : Bytes} {i j : Nat} {r : Svcb} (h : Svcb.parse cfg d i = (.ok r, j)) :
    rdataSize (.SVCB r) + 1 + i ≤ j ∧ ∃ a b, extractFqdn d a = (.ok r.targetName, b) := by
  unfold Svcb.parse at h
  simp only [Parser.bind_ok, Parser.pure_ok] at h
  obtain ⟨_, k1, h1, n, k2, h2, ps, _, h3, rfl, rfl⟩ := h
  refine ⟨?_, _, _, h2⟩
  have h1 := (octets_iff.mp (extractU16_ok.mp h1)).1
  have h2 := codeName_end_le (extractFqdn_ok.mp h2)
  have h3 := loop_of_fuel _ _ _ _ _ h3
  have key : ∀ {s s' : List Param} {i j : Nat}, Loop (Svcb.step cfg) d s i s' j →
      (s'.map paramSize).sum + i ≤ (s.map paramSize).sum + j := by
    intro s s' i j hl
    induction hl with
    | done => omega
    | @step acc _ _ _ _ _ h1 h2 _ ih =>
      obtain ⟨_, _, p, hp, rfl⟩ := Svcb.step_ok.mp h2
      have := Param.size hp
      have := sum_btInsert Param.ord paramSize p acc
      omega
  have := key h3
  have := Svcb.params_size_le ps
  simp [octets16] at h1
  simp only [rdataSize, rdataStrings, rdataElements]
  simp only [List.map_nil, List.sum_nil] at *
  omega

/-- Whatever is read: size, number of names, and the names are read from the same octets. -/
theorem RecordData.size_le {cfg : Cfg} {t : RecordType} {d : Bytes} {i j : Nat} {r : RecordData}
    (h : RecordData.parse cfg t d i = (.ok r, j)) :
    rdataSize r + 8 * i ≤ 8 * j ∧ (rdataNames r).length + i ≤ j ∧
      ∀ n ∈ rdataNames r, ∃ a b, extractFqdn d a = (.ok n, b) := by
  by_cases hx : Exact r
  · obtain ⟨_, its, h1, h2⟩ := (RecordData.parse_ok hx).mp h
    have h3 := items_weight h2
    have h4 := rdata_size hx h1
    exact ⟨by omega, by omega, fun n hn => items_names h2 n (h4.2.2 n hn)⟩
  · have ht := RecordData.parse_type h
    cases r
    case SSHFP r =>
      cases ht
      simp only [RecordData.type, RecordData.parse, Sshfp.parse, Parser.bind_ok, Parser.lift_ok, Parser.pure_ok] at h
      obtain ⟨_, _, ⟨_, k1, h1, _, _, ⟨_, rfl⟩, _, k2, h2, _, _, ⟨_, rfl⟩, p, k3, h3, rfl, rfl⟩, h4, rfl⟩ := h
      cases h4
      have h1 := (octets_iff.mp (extractU8_ok.mp h1)).1
      have h2 := (octets_iff.mp (extractU8_ok.mp h2)).1
      have h3 := (octets_iff.mp (extractCharacterString_ok.mp h3).2).1
      simp at h1 h2 h3
      refine ⟨?_, ?_, by simp [rdataNames]⟩
      · simp [rdataSize, rdataStrings, rdataElements]; omega
      · simp [rdataNames]; omega
    case APL r =>
      cases ht
      simp only [RecordData.type, RecordData.parse, Apl.parse, Parser.bind_ok, Parser.pure_ok] at h
      obtain ⟨x, k, ⟨_, k1, h1, _, k2, h2, c, k3, h3, _, k4, h5, h6⟩, h4, rfl⟩ := h
      have h1 := (octets_iff.mp (extractU16_ok.mp h1)).1
      have h2 := (octets_iff.mp (extractU8_ok.mp h2)).1
      have h3 := (octets_iff.mp (extractU8_ok.mp h3)).1
      have h5 := (octets_iff.mp (extractBytes_ok.mp h5).2).1
      have h7 : k4 = k := by
        split at h6
        · exact (Parser.pure_ok.mp h6).2
        · exact (Parser.pure_ok.mp h6).2
        · simp [Parser.fail] at h6
      refine ⟨?_, ?_, by simp [rdataNames]⟩
      · simp [rdataSize, rdataStrings, rdataElements]; omega
      · simp [rdataNames]; omega
    case SVCB r =>
      cases ht
      simp only [RecordData.type, RecordData.parse, Parser.bind_ok, Parser.pure_ok] at h
      obtain ⟨_, _, h1, h4, rfl⟩ := h
      cases h4
      have := Svcb.size_le h1
      refine ⟨by omega, by simp [rdataNames]; omega, ?_⟩
      simpa [rdataNames] using this.2
    case IPSECKEY r =>
      cases ht
      simp only [RecordData.type, RecordData.parse, IpSecKey.parse, Parser.bind_ok, Parser.lift_ok, Parser.pure_ok] at h
      obtain ⟨_, _, ⟨_, k1, h1, _, k2, h2, _, k3, h3, _, _, ⟨_, rfl⟩, g, k4, h5, p, k6, h6, rfl, rfl⟩, h4, rfl⟩ := h
      cases h4
      have hg : g = .none := by simpa [Exact] using hx
      subst hg
      have h1 := (octets_iff.mp (extractU8_ok.mp h1)).1
      have h2 := (octets_iff.mp (extractU8_ok.mp h2)).1
      have h3 := (octets_iff.mp (extractU8_ok.mp h3)).1
      have h6 := (octets_iff.mp (extractRest_ok.mp h6).1).1
      have h7 : k3 ≤ k4 := by
        unfold Gateway.parse at h5
        split at h5
        · simp only [Parser.bind_ok, Parser.pure_ok] at h5
          obtain ⟨_, _, h5, _, rfl⟩ := h5
          have h5 := (octets_iff.mp (extractU8_ok.mp h5)).1
          omega
        · obtain ⟨_, _, _, h5⟩ := Parser.bind_ok.mp h5; cases (Parser.pure_ok.mp h5).1
        · obtain ⟨_, _, _, h5⟩ := Parser.bind_ok.mp h5; cases (Parser.pure_ok.mp h5).1
        · obtain ⟨_, _, _, h5⟩ := Parser.bind_ok.mp h5; cases (Parser.pure_ok.mp h5).1
        · simp [Parser.fail] at h5
      refine ⟨?_, ?_, by simp [rdataNames]⟩
      · simp [rdataSize, rdataStrings, rdataElements]; omega
      · simp [rdataNames]; omega
    all_goals exact absurd trivial hx

end Dns
