import Verif.Props.Canonical

/-! C120: signed sets that resolvers have changed on the way. -/

namespace Dns
open Spec Buf

theorem sortedRecords_same {cfg : Cfg} {s t : RRSet} {out : Bytes}
    (hn : s.name = t.name) (ht : s.type = t.type) (hc : s.class_.toU16 = t.class_.toU16) (hl : s.ttl = t.ttl)
    (hp : (s.records.map (RecordData.toBytes cfg)).Perm (t.records.map (RecordData.toBytes cfg)))
    (h : SortedRecords cfg s out) : SortedRecords cfg t out := by
  obtain ⟨rd, h1, h2, h3⟩ := h
  have he : rrOctets s = rrOctets t := by
    funext x
    simp only [rrOctets, hn, ht, hl, Items.octets, o16]
    have := hc
    rw [classNumber_eq, classNumber_eq] at this
    rw [this]
  exact ⟨rd, h1.trans hp, h2, by rw [h3, he]⟩

/-- C120, exactly: of the sets that can be represented, a signature that is accepted for a set, and good for one
message only, is accepted for those and only those with the same owner name (in the same spelling), type, class and
TTL and the same data in any order. -/
theorem C120_accepted_exact (cfg : Cfg) (c : Crypto) (search search' : Search) (hs : search.Valid) (hs' : search'.Valid)
    (k : DnsKey) (r : Rrsig) (set set' : RRSet) (m : Bytes)
    (hn : NameOk 255 set.name) (hn' : NameOk 255 set'.name) (hr : NameOk 255 r.signersName)
    (hl : ∀ x ∈ set.records, ∀ b, x.toBytes cfg = .ok b → b.length < 65536)
    (hl' : ∀ x ∈ set'.records, ∀ b, x.toBytes cfg = .ok b → b.length < 65536)
    (hb : Binding c k.algorithm k.publicKey m r.signature) (hne : set.records ≠ [])
    (h : r.verify cfg c search k set = .ok true) :
    r.verify cfg c search' k set' = .ok true ↔
      set'.name = set.name ∧ set'.type = set.type ∧ set'.class_.toU16 = set.class_.toU16 ∧ set'.ttl = set.ttl ∧
      (set'.records.map (RecordData.toBytes cfg)).Perm (set.records.map (RecordData.toBytes cfg)) := by
  have ne : ∀ {n : Fqdn}, NameOk 255 n → ∀ l ∈ n, l ≠ [] :=
    fun hn l hl => List.length_pos_iff.mp (hn l hl).1
  obtain ⟨a1, out, s1, a2⟩ := (C53_accepted cfg c search hs r k set (ne hn) (ne hr)).mp h
  constructor
  · intro h'
    obtain ⟨b1, out', t1, b2⟩ := (C53_accepted cfg c search' hs' r k set' (ne hn') (ne hr)).mp h'
    rw [a1] at a2 b2
    obtain ⟨_, e1, e2⟩ := C60_octets_determine cfg r r set set' out out' ⟨hn, hn', hr, hr⟩ hl hl' s1 t1
      ((hb _ a2).trans (hb _ b2).symm)
    obtain ⟨e3, e4, e5, e6⟩ := e2 hne
    exact ⟨e3.symm, e4.symm, e5.symm, e6.symm, e1.symm⟩
  · rintro ⟨e1, e2, e3, e4, e5⟩
    exact (C53_accepted cfg c search' hs' r k set' (ne hn') (ne hr)).mpr
      ⟨a1, out, sortedRecords_same e1.symm e2.symm e3.symm e4.symm e5.symm s1, a2⟩

/-- C120 is false for the TTL, for every signature that is good for one message only: a set that has been in a cache,
where its TTL got smaller, is accepted only if the TTL is set to the original one again. -/
theorem C120_cached_exact (cfg : Cfg) (c : Crypto) (search search' : Search) (hs : search.Valid) (hs' : search'.Valid)
    (k : DnsKey) (r : Rrsig) (set : RRSet) (m : Bytes) (ttl : UInt32)
    (hn : NameOk 255 set.name) (hr : NameOk 255 r.signersName)
    (hl : ∀ x ∈ set.records, ∀ b, x.toBytes cfg = .ok b → b.length < 65536)
    (hb : Binding c k.algorithm k.publicKey m r.signature) (hne : set.records ≠ [])
    (h : r.verify cfg c search k set = .ok true) :
    r.verify cfg c search' k { set with ttl := ttl } = .ok true ↔ ttl = set.ttl := by
  rw [C120_accepted_exact cfg c search search' hs hs' k r set { set with ttl := ttl } m hn hn hr hl hl hb hne h]
  simp

/-- C120 is false for the spelling of the owner name. -/
theorem C120_spelling_exact (cfg : Cfg) (c : Crypto) (search search' : Search) (hs : search.Valid) (hs' : search'.Valid)
    (k : DnsKey) (r : Rrsig) (set : RRSet) (m : Bytes) (name : Fqdn)
    (hn : NameOk 255 set.name) (hn' : NameOk 255 name) (hr : NameOk 255 r.signersName)
    (hl : ∀ x ∈ set.records, ∀ b, x.toBytes cfg = .ok b → b.length < 65536)
    (hb : Binding c k.algorithm k.publicKey m r.signature) (hne : set.records ≠ [])
    (h : r.verify cfg c search k set = .ok true) :
    r.verify cfg c search' k { set with name := name } = .ok true ↔ name = set.name := by
  rw [C120_accepted_exact cfg c search search' hs hs' k r set { set with name := name } m hn hn' hr hl hl hb hne h]
  simp

/-- C120 (partial): a fresh signature is accepted for the records in any order, whatever their TTL became, if the set
is made with the TTL that the signature carries.  What is missing: sets made with the TTL of the records and owner
names in another spelling, for which it is false, and the algorithms of C51. -/
theorem C120_original_ttl_partial (cfg : Cfg) (c : Crypto) (search search' : Search)
    (hv : search.Valid) (hv' : search'.Valid) (k : DnsKey) (set : RRSet)
    (inception expiration : SysTime) (priv : Bytes) (r : Rrsig) (ha : k.algorithm ∉ [.RSA_SHA256, .RSA_SHA512, .DSA_SHA1])
    (hk : KeyPair c k.algorithm priv k.publicKey)
    (h : Rrsig.fromDnsKey cfg c search k set inception expiration priv = .ok r)
    (received : RRSet) (hn : received.name = set.name) (ht : received.type = set.type)
    (hc : received.class_ = set.class_) (hp : received.records.Perm set.records) :
    r.verify cfg c search' k { received with ttl := r.originalTtl } = .ok true := by
  have e : r.originalTtl = set.ttl := by
    obtain ⟨_, _, _, _, _, h4⟩ := fromDnsKey_ok h
    tauto
  obtain ⟨n, t, cl, ttl, rs⟩ := received
  dsimp only at hn ht hc hp
  subst hn ht hc
  rw [e]
  exact C51_fresh_signature_partial cfg c search search' hv hv' k set inception expiration priv r rs hp ha hk h

/-- C120: a fresh signature for the set of the example meets the hypotheses; with a TTL that is one second smaller the
set is refused, and also if the owner is written `A`. -/
example : ∃ r, Rrsig.fromDnsKey ⟨true, true, true⟩ exCrypto exSearch (exKey .ED25519) exSet 5000000 7000000 [] = .ok r ∧
    (r.verify ⟨true, true, true⟩ exCrypto exSearch (exKey .ED25519) exSet = .ok true ∧
      r.signersName = [[97]] ∧ exSet.records ≠ [] ∧
      r.verify ⟨true, true, true⟩ exCrypto exSearch (exKey .ED25519) { exSet with ttl := 59 } = .ok false ∧
      r.verify ⟨true, true, true⟩ exCrypto exSearch (exKey .ED25519) { exSet with name := [[65]] } = .ok false) :=
  Res.exists_ok (by decide +kernel)

example (pub sig : Bytes) : Binding exCrypto .ED25519 pub sig sig := by
  intro m' h; simpa [exCrypto, Accepts] using h

end Dns
