import Mathlib.Data.Nat.Bitwise
import Verif.Lemmas.RDataParse

/-! RDATA parsers with loops or fields that do not keep all octets. -/

set_option linter.unusedSimpArgs false

namespace Dns
open Spec Buf

theorem extractFqdn_pos {d : Bytes} {i j : Nat} {n : Fqdn} (h : extractFqdn d i = (.ok n, j)) :
    i < j ∧ j ≤ d.length := by
  replace h := extractFqdn_ok.mp h
  induction h with
  | root h => have := getElem?_lt h; omega
  | label _ _ _ ho _ ih => have := ho.le; omega
  | pointer _ ho _ _ => have := ho.le; omega

theorem u16_testBit (x : UInt16) (i : Nat) (hi : i < 16) :
    (x &&& UInt16.ofNat (2 ^ i) != 0) = x.toNat.testBit i := by
  have h : (x &&& UInt16.ofNat (2 ^ i)).toNat = (x.toNat.testBit i).toNat * 2 ^ i := by
    rw [UInt16.toNat_and, UInt16.toNat_ofNat_of_lt' (by
      show 2 ^ i < 2 ^ 16
      exact Nat.pow_lt_pow_right (by norm_num) hi), Nat.and_two_pow]
  cases hb : x.toNat.testBit i
  · rw [hb] at h
    have : x &&& UInt16.ofNat (2 ^ i) = 0 := UInt16.toNat_inj.mp (by simpa using h)
    simp [this]
  · rw [hb] at h
    have : x &&& UInt16.ofNat (2 ^ i) ≠ 0 := by
      intro hc
      rw [hc] at h
      have : 0 < 2 ^ i := by positivity
      simp at h
      omega
    simp [this]

theorem DnsKey.parse_ok {d : Bytes} {i j : Nat} {r : DnsKey} :
    DnsKey.parse d i = (.ok r, j) ↔ ∃ its, DnsKeyItems r its ∧ Items.At Decodes d i its j := by
  obtain ⟨z, s, p, a, k⟩ := r
  have h1 : ∀ f : UInt16, (f &&& 0x0100 != 0) = f.toNat.testBit 8 := fun f => u16_testBit f 8 (by norm_num)
  have h2 : ∀ f : UInt16, (f &&& 0x0001 != 0) = f.toNat.testBit 0 := fun f => u16_testBit f 0 (by norm_num)
  simp only [DnsKeyItems]
  simp [DnsKey.parse, Parser.bind_ok, Parser.pure_ok, Parser.map_ok, Parser.lift_ok, extractU8_ok,
    extractU16_ok, extractRest_ok, SecAlgorithm.ofU8_ok, -bne_iff_ne, -Nat.testBit_zero, h1, h2, Items.At, Item.At, o8]
  constructor
  · rintro ⟨f, k, h1, m, h2, n, h3, h4, rfl, rfl⟩
    exact ⟨f, ⟨rfl, rfl⟩, k, h1, m, h2, n, h3, h4⟩
  · rintro ⟨f, ⟨rfl, rfl⟩, k, h1, m, h2, n, h3, h4⟩
    exact ⟨f, k, h1, m, h2, n, h3, h4, rfl, rfl⟩

theorem u8_testBit7 (x : UInt8) : (x &&& 0x80 != 0) = x.toNat.testBit 7 := by
  revert x; apply forall_u8; decide +kernel

theorem Caa.parse_ok {d : Bytes} {i j : Nat} {r : Caa} :
    Caa.parse d i = (.ok r, j) ↔ ∃ (flags : UInt8) (tag : Bytes), tag ≠ [] ∧
      r.issuerCritical = flags.toNat.testBit 7 ∧ r.tag = utf8Lossy tag ∧
      Items.At Decodes d i [.u8 flags, .str tag, .rest r.value] j := by
  obtain ⟨c, t, v⟩ := r
  simp only [Caa.parse, Parser.bind_ok, extractU8_ok, Items.At, Item.At]
  constructor
  · rintro ⟨f, k, h1, n, m, h2, h3⟩
    split at h3
    · rw [Parser.fail_ok] at h3; exact h3.elim
    · rename_i hn
      simp only [Parser.bind_ok, Parser.pure_ok, extractBytes_ok, extractRest_ok, Caa.mk.injEq,
        u8_testBit7] at h3
      obtain ⟨tag, x, ⟨h4, h5⟩, b, y, ⟨h6, h7⟩, ⟨h8, h9, rfl⟩, rfl⟩ := h3
      have hn' : n.toNat ≠ 0 := fun h => hn (UInt8.toNat_inj.mp h)
      refine ⟨f, tag, ?_, h8.symm, h9.symm, k, h1, x, ?_, y, ⟨h6, h7⟩, rfl⟩
      · rintro rfl; simp at h4; omega
      · have h10 := extractCharacterString_ok.mp (show extractCharacterString d k = (.ok tag, x) from ?_)
        · exact h10
        · rw [extractCharacterString, Parser.bind_ok]
          exact ⟨n, m, extractU8_ok.mpr h2, extractBytes_ok.mpr ⟨h4, h5⟩⟩
  · rintro ⟨f, tag, h0, h8, h9, k, h1, x, h2, y, ⟨h6, h7⟩, rfl⟩
    have h10 := extractCharacterString_ok.mpr h2
    rw [extractCharacterString, Parser.bind_ok] at h10
    obtain ⟨n, m, h3, h4⟩ := h10
    refine ⟨f, k, h1, n, m, extractU8_ok.mp h3, ?_⟩
    rw [if_neg, Parser.bind_ok]
    · refine ⟨tag, x, h4, ?_⟩
      simp only [Parser.bind_ok, Parser.pure_ok, extractRest_ok, Caa.mk.injEq, u8_testBit7]
      exact ⟨v, y, ⟨h6, h7⟩, ⟨h8.symm, h9.symm, rfl⟩, rfl⟩
    · rintro rfl
      have := (extractBytes_ok.mp h4).1
      exact h0 (List.length_eq_zero_iff.mp (by simpa using this))

theorem charString_pos {d : Bytes} {i j : Nat} {b : Bytes}
    (h : extractCharacterString d i = (.ok b, j)) : i < j ∧ j ≤ d.length := by
  have h := (extractCharacterString_ok.mp h).2
  have h1 := h.end_eq
  simp only [List.length_cons] at h1
  exact ⟨by omega, h.le⟩

/-- The items of a loop that runs up to the end of the data. -/
theorem eof_append {N : NameRel} {d : Bytes} {i j : Nat} {its : List Item} :
    Items.At N d i (its ++ [.eof]) j ↔ Items.At N d i its j ∧ j = d.length := by
  rw [itemsAt_append]
  simp only [Items.At, Item.At]
  constructor
  · rintro ⟨k, h1, m, ⟨rfl, rfl⟩, rfl⟩; exact ⟨h1, rfl⟩
  · rintro ⟨h1, rfl⟩; exact ⟨_, h1, _, ⟨rfl, rfl⟩, rfl⟩

theorem Txt.parse_ok {d : Bytes} {i j : Nat} {r : Txt} :
    Txt.parse d i = (.ok r, j) ↔ ∃ ws : List Bytes, r.strings = ws.map utf8Lossy ∧
      Items.At Decodes d i (ws.map .str ++ [.eof]) j := by
  obtain ⟨l⟩ := r
  have hb : ∀ acc, Txt.step acc =
      extractCharacterString >>= fun b => Parser.lift ((fun acc b => .ok (acc ++ [utf8Lossy b])) acc b) := by
    intro acc
    simp only [Txt.step, extractCharacterString, bind_assoc]
    rfl
  have hf : ∀ (ws acc : List Bytes), ws.foldl (fun acc b => acc ++ [utf8Lossy b]) acc =
      acc ++ ws.map utf8Lossy := by
    intro ws
    induction ws with
    | nil => simp
    | cons w ws ih => intro acc; simp [ih]
  simp only [Txt.parse, Parser.bind_ok, Parser.pure_ok, Txt.mk.injEq,
    whileRemaining_seq hb (fun i x k h => charString_pos h), eof_append]
  have hs : ∀ (xs : List Bytes) (i j : Nat), Seq extractCharacterString d i xs j ↔
      Items.At Decodes d i (xs.map .str) j := by
    intro xs i j
    rw [seq_items (N := Decodes) (its := fun b => [Item.str b]), List.map_eq_flatMap]
    · intro i x k
      simp [Items.At, Item.At, extractCharacterString_ok]
  simp only [hs, foldRes_ok (f := fun acc b => acc ++ [utf8Lossy b]) (fun _ _ => rfl), hf]
  constructor
  · rintro ⟨l', k, ⟨xs, h1, rfl, h2⟩, rfl, rfl⟩
    simp only [List.nil_append, Res.ok.injEq] at h2
    exact ⟨xs, h2.symm, h1, rfl⟩
  · rintro ⟨ws, rfl, h1, rfl⟩
    exact ⟨_, _, ⟨ws, h1, rfl, rfl⟩, rfl, rfl⟩

theorem NaptrFlag.ofBytes_eq (b : Bytes) : NaptrFlag.ofBytes b = b.filterMap flagOf := by
  induction b with
  | nil => rfl
  | cons x xs ih =>
    rw [NaptrFlag.ofBytes, List.filterMap_cons]
    cases h : flagOf x with
    | some f => rw [NaptrFlag.ofU8_ok.mpr h, ih]
    | none =>
      cases h2 : NaptrFlag.ofU8 x with
      | ok f => rw [NaptrFlag.ofU8_ok] at h2; rw [h] at h2; cases h2
      | _ => exact ih

theorem Naptr.parse_ok {d : Bytes} {i j : Nat} {r : Naptr} :
    Naptr.parse d i = (.ok r, j) ↔ ∃ fl : Bytes, r.flags = fl.filterMap flagOf ∧
      utf8Valid r.regexp = true ∧ Items.At Decodes d i [.u16 r.order, .u16 r.preference, .str fl,
        .str r.service, .str r.regexp, .name r.replacement] j := by
  obtain ⟨⟩ := r
  simp only [Naptr.parse, Parser.bind_ok, Parser.pure_ok, extractU16_ok, extractCharacterString_ok,
    extractString_ok, NaptrFlag.ofBytes_eq, Items.At, Item.At, Decodes, Naptr.mk.injEq]
  constructor
  · rintro ⟨_, k1, h1, _, k2, h2, fl, k3, h3, _, k4, h4, _, k5, ⟨h5, h6⟩, _, k6, h7,
      ⟨rfl, rfl, rfl, rfl, rfl, rfl⟩, rfl⟩
    exact ⟨fl, rfl, h6, k1, h1, k2, h2, k3, h3, k4, h4, k5, h5, k6, h7, rfl⟩
  · rintro ⟨fl, rfl, h6, k1, h1, k2, h2, k3, h3, k4, h4, k5, h5, k6, h7, rfl⟩
    exact ⟨_, k1, h1, _, k2, h2, fl, k3, h3, _, k4, h4, _, k5, ⟨h5, h6⟩, _, k6, h7,
      ⟨rfl, rfl, rfl, rfl, rfl, rfl⟩, rfl⟩

/-! ## EDNS options -/

theorem mapInsert_map (k : UInt16) (v : Bytes) (keys : List UInt16) (f : UInt16 → Bytes)
    (hn : keys.Nodup) :
    mapInsert k v (keys.map (fun x => (x, f x))) =
      (if k ∈ keys then keys else keys ++ [k]).map (fun x => (x, if x = k then v else f x)) := by
  induction keys with
  | nil => simp [mapInsert]
  | cons a as ih =>
    rw [List.nodup_cons] at hn
    rw [List.map_cons, mapInsert]
    by_cases hak : a = k
    · subst hak
      rw [if_pos rfl, if_pos (by simp)]
      simp only [List.map_cons, if_true, List.cons.injEq, true_and]
      apply List.map_congr_left
      intro x hx
      rw [if_neg]
      rintro rfl
      exact hn.1 hx
    · rw [if_neg hak, ih hn.2]
      have hm : k ∈ a :: as ↔ k ∈ as := by simp [Ne.symm hak]
      by_cases h : k ∈ as
      · rw [if_pos h, if_pos (hm.mpr h)]; simp [hak]
      · rw [if_neg h, if_neg (mt hm.mp h)]; simp [hak]

theorem nodup_eraseDups (l : List UInt16) : l.eraseDups.Nodup := by
  generalize hn : l.length = n
  induction n using Nat.strongRecOn generalizing l with
  | ind n ih =>
    cases l with
    | nil => simp
    | cons a as =>
      rw [List.eraseDups_cons, List.nodup_cons]
      refine ⟨?_, ih _ ?_ _ rfl⟩
      · intro h
        rw [List.mem_eraseDups] at h
        simp at h
      · have := List.length_filter_le (fun b => !b == a) as
        simp at hn; omega

theorem eraseDups_snoc (l : List UInt16) (k : UInt16) :
    (l ++ [k]).eraseDups = if k ∈ l then l.eraseDups else l.eraseDups ++ [k] := by
  rw [List.eraseDups_append]
  by_cases h : k ∈ l
  · simp [h, List.removeAll]
  · simp [h, List.removeAll, List.eraseDups_cons]

theorem lastValue_snoc (kvs : List (UInt16 × Bytes)) (k x : UInt16) (v : Bytes) :
    lastValue (kvs ++ [(k, v)]) x = if x = k then v else lastValue kvs x := by
  unfold lastValue
  rw [List.reverse_append]
  by_cases h : x = k
  · subst h; simp
  · have : (x == k) = false := by simpa using h
    simp [h, List.lookup, this]

theorem mapOf_snoc (kvs : List (UInt16 × Bytes)) (k : UInt16) (v : Bytes) :
    mapOf (kvs ++ [(k, v)]) = mapInsert k v (mapOf kvs) := by
  unfold mapOf
  rw [mapInsert_map _ _ _ _ (nodup_eraseDups _), List.map_append, List.map_cons, List.map_nil,
    eraseDups_snoc]
  simp only [List.mem_eraseDups, lastValue_snoc]

theorem foldl_mapInsert (kvs : List (UInt16 × Bytes)) :
    kvs.foldl (fun m kv => mapInsert kv.1 kv.2 m) [] = mapOf kvs := by
  induction kvs using List.reverseRecOn with
  | nil => rfl
  | append_singleton kvs kv ih =>
    obtain ⟨k, v⟩ := kv
    rw [List.foldl_append, ih, mapOf_snoc]
    rfl

/-- One EDNS option. -/
def extractOption : Parser (UInt16 × Bytes) := do
  let c ← extractU16
  let b ← extractStr16
  return (c, b)

theorem extractOption_ok {N : NameRel} {d : Bytes} {i j : Nat} {kv : UInt16 × Bytes} :
    extractOption d i = (.ok kv, j) ↔ Items.At N d i [.u16 kv.1, .str16 kv.2] j := by
  obtain ⟨k, v⟩ := kv
  simp [extractOption, Parser.bind_ok, Parser.pure_ok, Parser.map_ok, extractU16_ok, extractStr16_ok', Items.At, Item.At]

theorem Opt.parse_ok {d : Bytes} {i j : Nat} {r : Opt} :
    Opt.parse d i = (.ok r, j) ↔ ∃ kvs, r.options = mapOf kvs ∧
      Items.At Decodes d i (optionItems kvs ++ [.eof]) j := by
  obtain ⟨l⟩ := r
  have hb : ∀ acc, Opt.step acc =
      extractOption >>= fun kv => Parser.lift ((fun m kv => .ok (mapInsert kv.1 kv.2 m)) acc kv) := by
    intro acc
    simp only [Opt.step, extractOption, extractStr16, bind_assoc, pure_bind]
    rfl
  have hadv : ∀ i kv k, extractOption d i = (.ok kv, k) → i < k ∧ k ≤ d.length := by
    intro i kv k h
    obtain ⟨m, h1, n, ⟨_, h2⟩, rfl⟩ := (extractOption_ok (N := Decodes)).mp h
    have := h1.end_eq
    have h3 := h2.end_eq
    have h4 := h2.le
    simp [octets16] at this h3
    omega
  simp only [Opt.parse, Parser.bind_ok, Parser.pure_ok, Opt.mk.injEq,
    whileRemaining_seq hb hadv, eof_append, seq_items (fun i x k => extractOption_ok (N := Decodes)),
    foldRes_ok (f := fun m (kv : UInt16 × Bytes) => mapInsert kv.1 kv.2 m) (fun _ _ => rfl),
    foldl_mapInsert, ← optionItems.eq_def]
  constructor
  · rintro ⟨l', k, ⟨xs, h1, rfl, h2⟩, rfl, rfl⟩
    simp only [Res.ok.injEq] at h2
    exact ⟨xs, h2.symm, h1, rfl⟩
  · rintro ⟨ws, rfl, h1, rfl⟩
    exact ⟨_, _, ⟨ws, h1, rfl, rfl⟩, rfl, rfl⟩

/-! ## HIP and IPSECKEY -/

theorem seq_names {d : Bytes} {xs : List Fqdn} {i j : Nat} :
    Seq extractFqdn d i xs j ↔ Items.At Decodes d i (xs.map .name) j := by
  rw [seq_items (N := Decodes) (its := fun b => [Item.name b]), List.map_eq_flatMap]
  intro i x k
  simp [Items.At, Item.At, Decodes]

theorem Hip.servers_ok {d : Bytes} {i j : Nat} {l : Option (List Fqdn)} :
    Hip.parseServers d i = (.ok l, j) ↔ i ≤ d.length ∧ l ≠ some [] ∧
      Items.At Decodes d i ((l.getD []).map .name ++ [.eof]) j := by
  have hb : ∀ acc, Hip.step acc =
      extractFqdn >>= fun n => Parser.lift ((fun acc n => .ok (acc ++ [n])) acc n) := fun _ => rfl
  have hf : ∀ (ws acc : List Fqdn), ws.foldl (fun acc b => acc ++ [b]) acc = acc ++ ws := by
    intro ws
    induction ws with
    | nil => simp
    | cons w ws ih => intro acc; simp [ih]
  have hl : ∀ (xs : List Fqdn) (k : Nat), whileRemaining [] Hip.step d i = (.ok xs, k) ↔
      Items.At Decodes d i (xs.map .name) k ∧ k = d.length := by
    intro xs k
    rw [whileRemaining_seq hb (fun i x k h => extractFqdn_pos h)]
    simp only [seq_names, foldRes_ok (f := fun acc (b : Fqdn) => acc ++ [b]) (fun _ _ => rfl), hf,
      List.nil_append, Res.ok.injEq]
    constructor
    · rintro ⟨_, h1, h2, rfl⟩; exact ⟨h1, h2⟩
    · rintro ⟨h1, h2⟩; exact ⟨_, h1, h2, rfl⟩
  simp only [Hip.parseServers, Parser.bind_ok, remaining_ok, eof_append]
  constructor
  · rintro ⟨n, k, ⟨h1, rfl, rfl⟩, h2⟩
    refine ⟨h1, ?_⟩
    split at h2
    · simp only [Parser.bind_ok, Parser.pure_ok] at h2
      obtain ⟨xs, k, h3, rfl, rfl⟩ := h2
      have h4 := (hl _ _).mp h3
      refine ⟨?_, h4⟩
      intro h
      simp only [Option.some.injEq] at h
      subst h
      simp only [Items.At, List.map_nil] at h4
      omega
    · rw [Parser.pure_ok] at h2
      obtain ⟨rfl, rfl⟩ := h2
      refine ⟨by simp, rfl, by omega⟩
  · rintro ⟨h1, h2, h3, rfl⟩
    refine ⟨_, i, ⟨h1, rfl, rfl⟩, ?_⟩
    cases l with
    | none =>
      simp only [Option.getD_none, List.map_nil, Items.At] at h3
      subst h3
      rw [if_neg (by omega), Parser.pure_ok]
      exact ⟨rfl, rfl⟩
    | some l =>
      simp only [Option.getD_some] at h3
      have hlt : i < d.length := by
        cases l with
        | nil => exact absurd rfl h2
        | cons x xs =>
          obtain ⟨k, h4, _⟩ := h3
          have := extractFqdn_pos h4
          omega
      rw [if_pos (by omega)]
      simp only [Parser.bind_ok, Parser.pure_ok]
      exact ⟨l, _, (hl _ _).mpr ⟨h3, rfl⟩, rfl, rfl⟩

theorem Hip.parse_ok {d : Bytes} {i j : Nat} {r : Hip} :
    Hip.parse d i = (.ok r, j) ↔ r.hit.length < 256 ∧ r.publicKey.length < 65536 ∧
      r.rendevousServer ≠ some [] ∧ Items.At Decodes d i
      ([o8 r.hit.length, o8 (algorithmNumber r.publicKeyAlgorithm), o16 r.publicKey.length,
        .raw r.hit, .raw r.publicKey] ++ (r.rendevousServer.getD []).map .name ++ [.eof]) j := by
  obtain ⟨a, hit, pk, rs⟩ := r
  simp only [Hip.parse, Parser.bind_ok, Parser.pure_ok, Parser.lift_ok, extractU8_ok, extractU16_ok,
    extractBytes_ok, Algorithm.ofU8_ok, Hip.servers_ok, Hip.mk.injEq, List.cons_append,
    List.nil_append, Items.At, Item.At, o8, o16]
  constructor
  · rintro ⟨n, k1, h1, _, k2, h2, _, _, ⟨rfl, rfl⟩, m, k4, h4, _, k5, ⟨h5, h6⟩, _, k6, ⟨h7, h8⟩, _, k7,
      ⟨h9, h10, h11⟩, ⟨rfl, rfl, rfl, rfl⟩, rfl⟩
    refine ⟨by have := n.toNat_lt; omega, by have := m.toNat_lt; omega, h10, k1, ?_, k2, h2, k4, ?_,
      k5, h6, k6, h8, h11⟩
    · rw [h5, UInt8.ofNat_toNat]; exact h1
    · rw [h7, UInt16.ofNat_toNat]; exact h4
  · rintro ⟨ha, hb, h10, k1, h1, k2, h2, k4, h4, k5, h6, k6, h8, h11⟩
    exact ⟨_, k1, h1, _, k2, h2, _, _, ⟨rfl, rfl⟩, _, k4, h4, _, k5,
      ⟨(UInt8.toNat_ofNat_of_lt' (by simpa using ha)).symm, h6⟩, _, k6,
      ⟨(UInt16.toNat_ofNat_of_lt' (by simpa using hb)).symm, h8⟩, _, j, ⟨h8.le, h10, h11⟩,
      ⟨rfl, rfl, rfl, rfl⟩, rfl⟩

theorem Gateway.parse_ok {t : UInt8} {d : Bytes} {i j : Nat} {g : Gateway} :
    Gateway.parse t d i = (.ok g, j) ↔ t = UInt8.ofNat (gatewayItems g).1 ∧
      if g = .none then ∃ b, Octets d i [b] j else Items.At Decodes d i (gatewayItems g).2 j := by
  constructor
  · intro h
    unfold Gateway.parse at h
    split at h
    all_goals
      first
      | rw [Parser.fail_ok] at h; exact h.elim
      | skip
    all_goals
      simp only [Parser.bind_ok, Parser.pure_ok, extractU8_ok, extractU32_ok,
        extractU128_ok (N := Decodes)] at h
      obtain ⟨x, k, h1, rfl, rfl⟩ := h
      refine ⟨rfl, ?_⟩
    · exact ⟨x, h1⟩
    · exact ⟨_, h1, rfl⟩
    · exact ⟨_, h1, rfl⟩
    · exact ⟨_, h1, rfl⟩
  · rintro ⟨rfl, h⟩
    cases g with
    | none =>
      obtain ⟨b, hb⟩ := h
      show (extractU8 >>= fun _ => pure Gateway.none) d i = _
      simp only [Parser.bind_ok, Parser.pure_ok, extractU8_ok]
      exact ⟨b, j, hb, trivial, rfl⟩
    | ipV4 a =>
      obtain ⟨k, hb, rfl⟩ := h
      show (extractU32 >>= fun a => pure (Gateway.ipV4 a)) d i = _
      simp only [Parser.bind_ok, Parser.pure_ok, extractU32_ok]
      exact ⟨a, k, hb, rfl, rfl⟩
    | ipV6 a =>
      obtain ⟨k, hb, rfl⟩ := h
      show (extractU128 >>= fun a => pure (Gateway.ipV6 a)) d i = _
      simp only [Parser.bind_ok, Parser.pure_ok, extractU128_ok (N := Decodes)]
      exact ⟨a, k, hb, rfl, rfl⟩
    | domain a =>
      obtain ⟨k, hb, rfl⟩ := h
      show (extractFqdn >>= fun a => pure (Gateway.domain a)) d i = _
      simp only [Parser.bind_ok, Parser.pure_ok]
      exact ⟨a, k, hb, rfl, rfl⟩

theorem IpSecKey.parse_ok {d : Bytes} {i j : Nat} {r : IpSecKey} (hg : r.gateway ≠ .none) :
    IpSecKey.parse d i = (.ok r, j) ↔ Items.At Decodes d i ([.u8 r.precedence,
      o8 (gatewayItems r.gateway).1, o8 (algorithmNumber r.algorithm)] ++ (gatewayItems r.gateway).2 ++
      [.rest r.publicKey]) j := by
  obtain ⟨p, a, g, k⟩ := r
  simp only [IpSecKey.parse, Parser.bind_ok, Parser.pure_ok, Parser.lift_ok, extractU8_ok,
    Gateway.parse_ok, Algorithm.ofU8_ok, extractRest_ok, IpSecKey.mk.injEq, List.cons_append,
    List.nil_append, itemsAt_append, Items.At, Item.At, o8]
  constructor
  · rintro ⟨_, k1, h1, t, k2, h2, _, k3, h3, _, _, ⟨rfl, rfl⟩, _, k4, ⟨rfl, h4⟩, _, k5, h5,
      ⟨rfl, rfl, rfl, rfl⟩, rfl⟩
    rw [if_neg hg] at h4
    exact ⟨k1, h1, k2, h2, k3, h3, k4, h4, k5, h5, rfl⟩
  · rintro ⟨k1, h1, k2, h2, k3, h3, k4, h4, k5, h5, rfl⟩
    exact ⟨_, k1, h1, _, k2, h2, _, k3, h3, _, _, ⟨rfl, rfl⟩, _, k4, ⟨rfl, by rwa [if_neg hg]⟩, _, k5, h5,
      ⟨rfl, rfl, rfl, rfl⟩, rfl⟩

end Dns
