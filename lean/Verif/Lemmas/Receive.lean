import Verif.Lemmas.ConformOnly
import Verif.Lemmas.Fails
import Verif.Spec.Receive

/-! Reading messages that were written by somebody else. -/

namespace Dns
open Spec Buf

theorem valueOf_cancel {a b : Bytes} (hl : a.length = b.length) (h : valueOf a = valueOf b) : a = b := by
  rw [valueOf_eq, valueOf_eq] at h
  rw [← toBE_ofBE a, ← toBE_ofBE b, h, hl]

/-- Two ways of leaving out zero octets at the end. -/
theorem padded_le {a b : Bytes} {m n : Nat} (hb : b.getLast? ≠ some 0)
    (h : a ++ List.replicate m 0 = b ++ List.replicate n 0) : b.length ≤ a.length := by
  by_contra hlt
  obtain ⟨b', x, rfl⟩ : ∃ b' x, b = b' ++ [x] := by
    rcases List.eq_nil_or_concat b with rfl | ⟨b', x, rfl⟩
    · simp at hlt
    · exact ⟨b', x, by simp⟩
  have hx : x ≠ 0 := by intro h0; apply hb; simp [h0]
  have h1 := congrArg (fun l : Bytes => l[b'.length]?) h
  simp only [List.length_append, List.length_singleton, Nat.not_le] at hlt
  rw [List.getElem?_append_right (by omega)] at h1
  simp only [List.append_assoc, List.getElem?_append_right (Nat.le_refl _), Nat.sub_self,
    List.singleton_append, List.getElem?_cons_zero] at h1
  rw [List.getElem?_replicate] at h1
  split at h1
  · exact hx (Option.some.inj h1).symm
  · cases h1

theorem afdOf_padded {afd : Afd} {a b : Bytes} (ha : afdOf afd a) (hb : afdOf afd b) :
    ∃ m n, a ++ List.replicate m 0 = b ++ List.replicate n 0 := by
  cases afd with
  | ipV4 x =>
    obtain ⟨h1, h2⟩ := ha
    obtain ⟨h3, h4⟩ := hb
    exact ⟨_, _, valueOf_cancel (by simp; omega) (h2.trans h4.symm)⟩
  | ipV6 x =>
    obtain ⟨h1, h2⟩ := ha
    obtain ⟨h3, h4⟩ := hb
    exact ⟨_, _, valueOf_cancel (by simp; omega) (h2.trans h4.symm)⟩

theorem afdOf_length {afd : Afd} {a b : Bytes} (ha : afdOf afd a) (hb : afdOf afd b)
    (la : a.getLast? ≠ some 0) (lb : b.getLast? ≠ some 0) : a.length = b.length := by
  obtain ⟨m, n, h⟩ := afdOf_padded ha hb
  exact Nat.le_antisymm (padded_le la h.symm) (padded_le lb h)

/-- What a sender may write has the meaning of the value. -/
theorem strict_means {cfg : Cfg} {max : Nat} {r : RecordData} {its : List Item} (h : Writable cfg max r)
    (hs : RDataStrict cfg r its) : RData cfg r its := by
  have hf : ∀ k : DnsKey, k.flags = UInt16.ofNat (dnskeyFlags k) := by
    intro k
    unfold DnsKey.flags dnskeyFlags
    cases k.zoneKey <;> cases k.secureEntryPoint <;> rfl
  cases r with
  | TXT r => cases hs; exact (writes_TXT h).rdata
  | NAPTR r =>
    cases hs
    have : (fun f => UInt8.ofNat (flagNumber f)) = NaptrFlag.toU8 := by funext f; cases f <;> rfl
    rw [this]
    exact (writes_NAPTR h).rdata
  | OPT r => cases hs; exact (writes_OPT h).rdata
  | APL r => obtain ⟨part, h1, h2, -⟩ := hs; exact ⟨part, h1, h2⟩
  | NSEC r => obtain ⟨ws, h1, h2, -⟩ := hs; exact ⟨ws, h1, h2⟩
  | CSYNC r => obtain ⟨ws, h1, h2, -⟩ := hs; exact ⟨ws, h1, h.1, h2⟩
  | DNSKEY r =>
    cases hs
    have h1 := (writes_DNSKEY cfg max r).rdata
    rw [hf] at h1
    exact h1
  | CDNSKEY r =>
    cases hs
    have h1 := (writes_CDNSKEY cfg max r).rdata
    rw [hf] at h1
    exact h1
  | CAA r =>
    cases hs
    have h1 := (writes_CAA h).rdata
    cases hc : r.issuerCritical <;> rw [hc] at h1 <;> exact h1
  | _ => exact hs

theorem readWell_parsed {cfg : Cfg} {max : Nat} {t : RecordType} {d : Bytes} {k : Nat} {r : RecordData}
    (h : Writable cfg max r) (hw : ReadWell r) (hr : RDataWritten LegalName cfg t d k r) :
    ParsedData cfg t d k r := by
  obtain ⟨rfl, its, hs, hi⟩ := hr
  refine ⟨_, C37_parse_complete_partial cfg d k _ r its ?_ ?_ ?_ (strict_means h hs) hi⟩
  · rintro x rfl; exact hw
  · rintro x rfl; exact hw
  · rintro x part rfl hm
    obtain ⟨part', rfl, h1, h2⟩ := hs
    obtain ⟨part'', h3, h4, h5⟩ := hw
    simp only [o16, o8, List.mem_cons, reduceCtorEq, Item.raw.injEq, List.not_mem_nil, or_false,
      false_or] at hm
    rw [hm, afdOf_length h1 h3 h2 h4]
    exact h5

theorem parsed_readWell {cfg : Cfg} {t : RecordType} {d : Bytes} {k : Nat} {r : RecordData}
    (hr : RDataWritten LegalName cfg t d k r) (hp : ParsedData cfg t d k r) : ReadWell r := by
  obtain ⟨rfl, its, hs, hi⟩ := hr
  obtain ⟨e, hp⟩ := hp
  cases r with
  | SSHFP r =>
    have h1 := (C37_sshfp_read cfg d k e r).mp hp
    have hs : its = _ := hs
    subst hs
    simp only [Items.At, Item.At, o8] at hi h1
    obtain ⟨a1, n1, a2, n2, a3, ⟨n3, n3'⟩, n4⟩ := hi
    obtain ⟨b1, m1, b2, m2, b3, ⟨m3', m3⟩, m4⟩ := h1
    have e1 := n1.end_eq; have e2 := n2.end_eq; have e3 := n3.end_eq
    have f1 := m1.end_eq; have f2 := m2.end_eq; have f3 := m3.end_eq; have f4 := m3.le
    simp at e1 e2 e3 f1 f2 f3 f4
    omega
  | IPSECKEY r =>
    intro hg
    obtain ⟨x, h1⟩ := (C37_ipseckey_read cfg d k e r hg).mp hp
    have hs : its = _ := hs
    subst hs
    rw [hg] at hi
    simp only [gatewayItems, Items.At, Item.At, o8, List.cons_append, List.nil_append] at hi h1
    obtain ⟨a1, n1, a2, n2, a3, n3, a4, ⟨n4, n4'⟩, n5⟩ := hi
    obtain ⟨b1, m1, b2, m2, b3, m3, b4, m4, b5, ⟨m5, m5'⟩, m6⟩ := h1
    have e1 := n1.end_eq; have e2 := n2.end_eq; have e3 := n3.end_eq; have e4 := n4.end_eq
    have f1 := m1.end_eq; have f2 := m2.end_eq; have f3 := m3.end_eq; have f4 := m4.end_eq
    have f5 := m5.end_eq; have f6 := m5.le
    simp at e1 e2 e3 e4 f1 f2 f3 f4 f5
    omega
  | APL r =>
    obtain ⟨part, rfl, h1, h2⟩ := hs
    refine ⟨part, h1, h2, ?_⟩
    obtain ⟨len, part', h3, h4, h5, h6⟩ := (C37_apl_read cfg d k e r).mp hp
    simp only [Items.At, Item.At, o8, o16] at hi h5
    obtain ⟨a1, n1, a2, n2, a3, n3, a4, n4, n5⟩ := hi
    obtain ⟨b1, m1, b2, m2, b3, m3, b4, m4, m5⟩ := h5
    have e1 : a1 = b1 := n1.end_eq.trans m1.end_eq.symm; subst e1
    have e2 : a2 = b2 := n2.end_eq.trans m2.end_eq.symm; subst e2
    have hlen : len = part.length := by
      have hl : part.length ≤ 16 := by
        revert h1; unfold afdOf
        cases r.afd <;> rintro ⟨h, -⟩ <;> omega
      have h7 := n3.inj m3 rfl
      have h8 := congrArg UInt8.toNat (List.head_eq_of_cons_eq h7)
      rw [UInt8.toNat_ofNat_of_lt' (by simp only [UInt8.size]; split <;> omega),
        UInt8.toNat_ofNat_of_lt' (by simp only [UInt8.size]; split <;> omega)] at h8
      omega
    by_contra hodd
    obtain ⟨q, hq, hq'⟩ : ∃ q, afdOf r.afd q ∧ q.length ≤ part'.length := by
      revert h6
      cases r.afd with
      | ipV4 x => exact fun h => ⟨_, h, by simp⟩
      | ipV6 x => exact fun h => ⟨_, h, by simp⟩
    obtain ⟨m, n, hmn⟩ := afdOf_padded hq h1
    have := padded_le h2 hmn
    omega
  | _ => trivial

theorem legal_decodes {d : Bytes} {its : List Item} {i j : Nat} (h : Items.At LegalName d i its j) :
    Items.At Decodes d i its j := items_mono (fun d i n j => C08_legal_name_decoded d i j n) h

theorem legal_question {cfg : Cfg} {d : Bytes} (i : Nat) (q : Question) (j : Nat)
    (h : QuestionAt LegalName cfg d i q j) : QuestionAt Decodes cfg d i q j := by
  obtain ⟨h1, v, h2, h3⟩ := h
  exact ⟨h1, v, h2, legal_decodes h3⟩

theorem listAt_mono_mem {α : Type} {R S : Nat → α → Nat → Prop} {P : α → Prop}
    (h : ∀ i x j, P x → R i x j → S i x j) :
    ∀ (xs : List α) (i j : Nat), (∀ x ∈ xs, P x) → ListAt R i xs j → ListAt S i xs j := by
  intro xs
  induction xs with
  | nil => intro i j _ h; exact h
  | cons x xs ih =>
    rintro i j hp ⟨k, h1, h2⟩
    exact ⟨k, h _ _ _ (hp x List.mem_cons_self) h1, ih _ _ (fun y hy => hp y (List.mem_cons_of_mem _ hy)) h2⟩

/-- A message is read if the data of all records are. -/
theorem Packet.received {RD : RecordType → Bytes → Nat → RecordData → Prop} {cfg : Cfg} {d : Bytes} {p : Packet}
    {e : Nat} (h : MessageAtWith RD LegalName cfg d p e)
    (hr : ∀ r ∈ records p, ∀ d k, RD r.type d k r.rdata → ParsedData cfg r.type d k r.rdata) :
    Packet.parseBuf cfg d 0 = (.ok p, e) := by
  obtain ⟨c1, c2, c3, c4, i1, i2, i3, i4, h0, h1, h2, h3, h4⟩ := h
  have key : ∀ i x j, (∀ d k, RD x.type d k x.rdata → ParsedData cfg x.type d k x.rdata) →
      RecordAtWith RD LegalName cfg d i x j → RecordAtWith (ParsedData cfg) Decodes cfg d i x j := by
    rintro i x j hx ⟨a1, a2, v, len, k, a3, a4, a5, a6, a7⟩
    exact ⟨a1, a2, v, len, k, a3, legal_decodes a4, a5, a6, hx _ _ a7⟩
  refine Packet.parseBuf_ok.mpr ⟨c1, c2, c3, c4, i1, i2, i3, i4, legal_decodes h0,
    listAt_mono legal_question _ _ _ h1, ?_, ?_, ?_⟩
  · exact listAt_mono_mem key _ _ _ (fun x hx => hr x (by simp [records, hx])) h2
  · exact listAt_mono_mem key _ _ _ (fun x hx => hr x (by simp [records, hx])) h3
  · exact listAt_mono_mem key _ _ _ (fun x hx => hr x (by simp [records, hx])) h4

theorem records_received {RD : RecordType → Bytes → Nat → RecordData → Prop} {cfg : Cfg} {d : Bytes} :
    ∀ (rs : List ResourceRecord) (i j k : Nat), ListAt (RecordAtWith RD LegalName cfg d) i rs j →
      ListAt (RecordAtWith (ParsedData cfg) Decodes cfg d) i rs k →
      j = k ∧ ∀ r ∈ rs, ∃ d k, RD r.type d k r.rdata ∧ ParsedData cfg r.type d k r.rdata := by
  intro rs
  induction rs with
  | nil => rintro i j k h1 h2; exact ⟨h1.symm.trans h2, by simp⟩
  | cons r rs ih =>
    rintro i j k ⟨m, ⟨a1, a2, v, len, q, a3, a4, a5, a6, a7⟩, h1⟩ ⟨m', ⟨b1, b2, v', len', q', b3, b4, b5, b6, b7⟩, h2⟩
    obtain ⟨rfl, rfl⟩ := recordHead_unique (legal_decodes a4) b4
    obtain rfl : m = m' := a5.trans b5.symm
    obtain ⟨rfl, h3⟩ := ih _ _ _ h1 h2
    exact ⟨rfl, List.forall_mem_cons.mpr ⟨⟨_, _, a7, b7⟩, h3⟩⟩

theorem Packet.received_only {RD : RecordType → Bytes → Nat → RecordData → Prop} {cfg : Cfg} {d : Bytes}
    {p : Packet} {e : Nat} (h : MessageAtWith RD LegalName cfg d p e) (hp : Packet.parse cfg d = .ok p) :
    ∀ r ∈ records p, ∃ d k, RD r.type d k r.rdata ∧ ParsedData cfg r.type d k r.rdata := by
  obtain ⟨c1, c2, c3, c4, i1, i2, i3, i4, h0, h1, h2, h3, h4⟩ := h
  obtain ⟨e', -, -, -, -, j1, j2, j3, j4, g0, g1, g2, g3, g4⟩ := Packet.parse_ok.mp hp
  obtain rfl : i1 = j1 := (no_names_octets (Nat.zero_le _) (by simp [headerItems]) h0).end_eq.trans
    (no_names_octets (Nat.zero_le _) (by simp [headerItems]) g0).end_eq.symm
  obtain rfl := listAt_fun questionAt_fun _ _ _ _ (listAt_mono legal_question _ _ _ h1) g1
  obtain ⟨rfl, s2⟩ := records_received _ _ _ _ h2 g2
  obtain ⟨rfl, s3⟩ := records_received _ _ _ _ h3 g3
  obtain ⟨-, s4⟩ := records_received _ _ _ _ h4 g4
  intro r hr
  simp only [records, List.mem_append] at hr
  rcases hr with (hr | hr) | hr
  · exact s2 r hr
  · exact s3 r hr
  · exact s4 r hr

end Dns
