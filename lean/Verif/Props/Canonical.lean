import Verif.Spec.Canonical
import Verif.Props.Dnssec
import Verif.Props.RRSet
import Verif.Props.NameText
import Verif.Model.Order

/-! C71, C72, C73, C74, C76, C77: canonical forms, and what a validator has to check. -/

namespace Dns
open Spec

/-! ## C71 -/

/-- No upper case ASCII letters. -/
def NoUpper (n : Fqdn) : Prop := ∀ l ∈ n, ∀ b ∈ l, ¬ (0x41 ≤ b.toNat ∧ b.toNat ≤ 0x5A)

instance (n : Fqdn) : Decidable (NoUpper n) := by unfold NoUpper; infer_instance

theorem lowerOctet_id {b : UInt8} (h : ¬ (0x41 ≤ b.toNat ∧ b.toNat ≤ 0x5A)) : lowerOctet b = b := if_neg h

theorem lowerName_id {n : Fqdn} (h : NoUpper n) : lowerName n = n := by
  unfold lowerName
  rw [List.map_congr_left (g := id), List.map_id]
  intro l hl
  rw [List.map_congr_left (g := id), List.map_id, id]
  intro b hb
  exact lowerOctet_id (h l hl b hb)

/-- C71 (partial): the digest of a new DHCID record is SHA-256 of the identifier followed by the wire
form of the name, as RFC 4701, section 3.5, requires, for names without upper case letters; the digest
type is 1.  What is missing: names with upper case letters (false, see the counterexample). -/
theorem C71_dhcid_partial (sha256 : Bytes → Bytes) (code : IdentifierType) (identifier : Bytes) (n : Fqdn)
    (hn : ∀ l ∈ n, l ≠ []) (hl : NoUpper n) :
    (Dhcid.new sha256 code identifier n).identifierCode = code ∧
    (Dhcid.new sha256 code identifier n).digest = sha256 (identifier ++ nameOctets (lowerName n)) ∧
    (Dhcid.new sha256 code identifier n).toBytes =
      Items.octets [o16 (identifierNumber code), .u8 1,
        .raw (sha256 (identifier ++ nameOctets (lowerName n)))] := by
  have h : (Dhcid.new sha256 code identifier n).digest = sha256 (identifier ++ nameOctets (lowerName n)) := by
    show sha256 (identifier ++ n.toBytes) = _
    rw [lowerName_id hl, Fqdn.toBytes_eq (fun l hl => List.length_pos_iff.mpr (hn l hl))]
  refine ⟨rfl, h, ?_⟩
  unfold Dhcid.toBytes
  rw [h]
  cases code <;> simp [Items.octets, Item.octets, o16, u16be_eq, Dhcid.new, identifierNumber, IdentifierType.toU16]

/-- C71: the name of the example in RFC 4701, section 3.6.1. -/
example : NoUpper [[99, 104, 105, 54], [101, 120], [99, 111, 109]] := by decide +kernel

/-- C71 is false: two spellings of the same name give different digests if SHA-256 tells the octets
apart. -/
theorem C71_counterexample (sha256 : Bytes → Bytes) (h : sha256 [1, 0x41, 0] ≠ sha256 [1, 0x61, 0]) :
    SameName [[0x41]] [[0x61]] ∧
      (Dhcid.new sha256 .DUID [] [[0x41]]).digest ≠ (Dhcid.new sha256 .DUID [] [[0x61]]).digest :=
  ⟨by unfold SameName; decide, h⟩
example := C71_counterexample id (by decide)

/-- Only names without upper case letters are in lower case. -/
theorem lowerName_eq_iff (n : Fqdn) : lowerName n = n ↔ NoUpper n := by
  refine ⟨fun h l hl b hb hu => ?_, lowerName_id⟩
  have h1 : l.map lowerOctet = l := by
    have h2 : n.map (·.map lowerOctet) = n.map id := by simpa [lowerName] using h
    exact List.map_inj_left.mp h2 l hl
  have h3 : lowerOctet b = b := by
    have h2 : l.map lowerOctet = l.map id := by simpa using h1
    exact List.map_inj_left.mp h2 b hb
  rw [lowerOctet, if_pos hu] at h3
  have h4 := congrArg UInt8.toNat h3
  rw [UInt8.toNat_ofNat_of_lt' (show _ < 256 by omega)] at h4
  omega

theorem lowerName_octets {n : Fqdn} (h : nameOctets n = nameOctets (lowerName n)) : lowerName n = n := by
  induction n with
  | nil => rfl
  | cons l ls ih =>
    simp only [nameOctets, lowerName, List.map_cons, List.flatten_cons, List.length_map, List.cons_append,
      List.append_assoc, List.cons.injEq, true_and] at h
    obtain ⟨h1, h2⟩ := List.append_inj h (by simp)
    rw [lowerName, List.map_cons, ← h1, List.cons.injEq]
    exact ⟨rfl, ih h2⟩

/-- C71, exactly: unless SHA-256 has a collision, the digest is the one that RFC 4701 requires if and only
if the name has no upper case letters. -/
theorem C71_dhcid_exact (sha256 : Bytes → Bytes) (code : IdentifierType) (identifier : Bytes) (n : Fqdn)
    (hn : ∀ l ∈ n, l ≠ [])
    (hc : sha256 (identifier ++ nameOctets n) = sha256 (identifier ++ nameOctets (lowerName n)) →
      identifier ++ nameOctets n = identifier ++ nameOctets (lowerName n)) :
    (Dhcid.new sha256 code identifier n).digest = sha256 (identifier ++ nameOctets (lowerName n)) ↔ NoUpper n := by
  refine ⟨fun h => ?_, fun h => (C71_dhcid_partial sha256 code identifier n hn h).2.1⟩
  have h1 : sha256 (identifier ++ n.toBytes) = sha256 (identifier ++ nameOctets (lowerName n)) := h
  rw [Fqdn.toBytes_eq (fun l hl => List.length_pos_iff.mpr (hn l hl))] at h1
  exact (lowerName_eq_iff n).mp (lowerName_octets (List.append_cancel_left (hc h1)))

/-- C71: a function without collisions (the identity) and a name with an upper case letter. -/
example : (∀ n : Fqdn, id (([] : Bytes) ++ nameOctets n) = id ([] ++ nameOctets (lowerName n)) →
      ([] : Bytes) ++ nameOctets n = [] ++ nameOctets (lowerName n)) ∧ ¬ NoUpper [[0x41]] :=
  ⟨fun _ h => h, by decide⟩

/-! ## C72 -/

/-- C72 (partial): a signature made with `from_dnskey` carries the type and TTL of the set, the algorithm
and the key tag of the key and the number of labels of the owner name, as RFC 4034, section 3.1, defines
them, if the owner is not a wildcard and has less than 256 labels.  What is missing: wildcards and
longer names (false, see the counterexamples; a legal name has at most 127 labels). -/
theorem C72_fields_partial (cfg : Cfg) (c : Crypto) (search : Search) (k : DnsKey) (set : RRSet)
    (inception expiration : SysTime) (priv : Bytes) (r : Rrsig)
    (h : Rrsig.fromDnsKey cfg c search k set inception expiration priv = .ok r)
    (hk : k.publicKey.length ≤ 131066) (ha : k.algorithm ≠ .RSA_MD5)
    (hw : ∀ l ∈ set.name.head?, l ≠ [0x2A]) (hn : set.name.length < 256) :
    r.typeCovered = set.type ∧ r.originalTtl = set.ttl ∧ r.algorithm = k.algorithm ∧
      r.keyTag.toNat = keyTag k ∧ r.labels.toNat = rrsigLabels set.name := by
  obtain ⟨out, _, _, h1, h2, h3, h4, _, _, h7, _⟩ := fromDnsKey_ok h
  obtain ⟨tag, ht, htag⟩ := C50_key_tag_partial cfg k hk ha
  refine ⟨h1, h4, h2, ?_, ?_⟩
  · rw [h7] at ht
    cases Res.ok.inj ht
    exact htag
  · rw [h3]
    have h256 : set.name.labelCount.toNat = set.name.length := by
      simp [Fqdn.labelCount, lenU8, Nat.mod_eq_of_lt hn]
    rw [h256]
    cases hs : set.name with
    | nil => rfl
    | cons l ls =>
      rw [hs] at hw
      have : l ≠ [0x2A] := hw l rfl
      simp [rrsigLabels, this]

/-- C72: a signature of a set. -/
example : ∃ r, Rrsig.fromDnsKey ⟨true, true, true⟩ exCrypto exSearch (exKey .ED25519) exSet 0 1000000000 [] = .ok r ∧
    r.labels = 1 ∧ (∀ l ∈ exSet.name.head?, l ≠ [0x2A]) := by
  obtain ⟨r, h1, h2⟩ := Res.exists_ok (P := fun r : Rrsig => r.labels = 1) (x := Rrsig.fromDnsKey ⟨true, true, true⟩
    exCrypto exSearch (exKey .ED25519) exSet 0 1000000000 []) (by decide +kernel)
  exact ⟨r, h1, h2, by decide⟩

/-- C72 is false for wildcards: the asterisk label is counted. -/
theorem C72_counterexample : ∃ r,
    Rrsig.fromDnsKey ⟨true, true, true⟩ exCrypto exSearch (exKey .ED25519) { exSet with name := [[0x2A], [97]] }
      0 1000000000 [] = .ok r ∧ r.labels.toNat = 2 ∧ rrsigLabels [[0x2A], [97]] = 1 := by
  obtain ⟨r, h1, h2⟩ := Res.exists_ok (P := fun r : Rrsig => r.labels.toNat = 2)
    (x := Rrsig.fromDnsKey ⟨true, true, true⟩ exCrypto exSearch (exKey .ED25519)
      { exSet with name := [[0x2A], [97]] } 0 1000000000 []) (by decide +kernel)
  exact ⟨r, h1, h2, by decide⟩

/-- C72 is false for names of 256 labels: the count wraps to 0. -/
theorem C72_wrap_counterexample (n : Fqdn) (hn : n.length = 256) (l : Bytes) (ls : Fqdn) (h : n = l :: ls)
    (hl : l ≠ [0x2A]) : n.labelCount = 0 ∧ rrsigLabels n = 256 := by
  subst h
  refine ⟨by simp only [Fqdn.labelCount, lenU8, hn]; rfl, ?_⟩
  simp only [rrsigLabels, if_neg hl]
  simpa using hn
example : Fqdn.labelCount (List.replicate 256 [97]) = 0 ∧ rrsigLabels (List.replicate 256 [97]) = 256 :=
  C72_wrap_counterexample _ List.length_replicate [97] (List.replicate 255 [97]) rfl (by decide)

/-- C72, exactly: the field for the number of labels is right if and only if the owner is not a wildcard and
has less than 256 labels. -/
theorem C72_labels_exact (cfg : Cfg) (c : Crypto) (search : Search) (k : DnsKey) (set : RRSet)
    (inception expiration : SysTime) (priv : Bytes) (r : Rrsig)
    (h : Rrsig.fromDnsKey cfg c search k set inception expiration priv = .ok r) :
    r.labels.toNat = rrsigLabels set.name ↔ (∀ l ∈ set.name.head?, l ≠ [0x2A]) ∧ set.name.length < 256 := by
  obtain ⟨out, _, _, h1, h2, h3, h4, _, _, h7, _⟩ := fromDnsKey_ok h
  have h256 : set.name.labelCount.toNat = set.name.length % 256 := by simp [Fqdn.labelCount, lenU8]
  rw [h3, h256]
  cases set.name with
  | nil => simp [rrsigLabels]
  | cons l ls =>
    by_cases hl : l = [0x2A]
    · simp [rrsigLabels, hl]
      omega
    · simp [rrsigLabels, hl]

example : ∃ r, Rrsig.fromDnsKey ⟨true, true, true⟩ exCrypto exSearch (exKey .ED25519) { exSet with name := [[0x2A], [97]] }
      0 1000000000 [] = .ok r ∧ r.labels.toNat ≠ rrsigLabels [[0x2A], [97]] := by
  obtain ⟨r, h1, h2, h3⟩ := C72_counterexample
  exact ⟨r, h1, by rw [h2, h3]; decide⟩

/-! ## C73 -/

theorem octetLe_ne {a b : Bytes} (h : OctetLe a b) (hn : a ≠ b) : List.Lex (· < ·) a b := h.resolve_right hn

theorem sorted_strict : ∀ {l : List Bytes}, l.Pairwise OctetLe → l.Nodup →
    l.Pairwise (List.Lex (· < ·))
  | [], _, _ => List.Pairwise.nil
  | a :: l, h, hn => by
    rw [List.pairwise_cons] at h ⊢
    rw [List.nodup_cons] at hn
    exact ⟨fun b hb => octetLe_ne (h.1 b hb) (fun e => hn.1 (e ▸ hb)), sorted_strict h.2 hn.2⟩

/-- C73 (partial): the octets of a set, which are what is signed and verified, are its canonical form, if
the names have no upper case letters and no two records have the same RDATA.  What is missing: sets with
upper case letters or equal records (false, see the counterexamples). -/
theorem C73_canonical_partial (cfg : Cfg) (search : Search) (hv : search.Valid) (s : RRSet) (out : Bytes)
    (hn : ∀ l ∈ s.name, l ≠ []) (hl : NoUpper s.name) (hr : ∀ r ∈ s.records, lowerRecord r = r)
    (hd : (s.records.map (RecordData.toBytes cfg)).Nodup)
    (h : s.toBytes cfg search = .ok out) : CanonicalForm cfg s out := by
  obtain ⟨rdatas, h1, h2, h3⟩ := (C48_sorted cfg search hv s out hn).mp h
  refine ⟨rdatas, sorted_strict h2 ?_, ?_, ?_⟩
  · exact List.Nodup.of_map _ (h1.nodup_iff.mpr hd)
  · intro b
    have hb : b ∈ rdatas ↔ Res.ok b ∈ rdatas.map Res.ok := by
      constructor
      · exact fun h => List.mem_map_of_mem h
      · intro h
        obtain ⟨x, hx, e⟩ := List.mem_map.mp h
        cases e
        exact hx
    rw [hb, h1.mem_iff, List.mem_map]
    constructor
    · rintro ⟨r, hr1, e⟩
      exact ⟨r, hr1, by rw [hr r hr1, e]⟩
    · rintro ⟨r, hr1, e⟩
      exact ⟨r, hr1, by rw [hr r hr1] at e; exact e⟩
  · have : ({ s with name := lowerName s.name } : RRSet) = s := by rw [lowerName_id hl]
    rw [this, h3]

/-- C73: the set of the examples. -/
example : (∀ l ∈ exSet.name, l ≠ []) ∧ NoUpper exSet.name ∧ (∀ r ∈ exSet.records, lowerRecord r = r) ∧
    (exSet.records.map (RecordData.toBytes ⟨true, true, true⟩)).Nodup := by
  refine ⟨by decide, by decide +kernel, ?_, by decide +kernel⟩
  intro r hr
  simp only [exSet, List.mem_cons, List.not_mem_nil, or_false] at hr
  rcases hr with rfl | rfl <;> rfl

/-- The canonical form is unique, and starts with the lower case owner name. -/
theorem canonical_head {cfg : Cfg} {s : RRSet} {out : Bytes} (h : CanonicalForm cfg s out)
    (hne : ∃ r ∈ s.records, ∃ b, (lowerRecord r).toBytes cfg = .ok b) :
    ∃ rest, out = nameOctets (lowerName s.name) ++ rest := by
  obtain ⟨rdatas, _, h2, rfl⟩ := h
  obtain ⟨r, hr, b, hb⟩ := hne
  have := (h2 b).mpr ⟨r, hr, hb⟩
  cases rdatas with
  | nil => exact absurd this List.not_mem_nil
  | cons x xs =>
    rw [List.map_cons, List.flatten_cons, rrOctets]
    simp only [Items.octets, List.map_cons, List.flatten_cons, Item.octets, List.append_assoc]
    exact ⟨_, rfl⟩

/-- C73 is false if the owner has an upper case letter, whatever `binary_search` does. -/
theorem C73_case_counterexample : ∃ (s : RRSet) (out : Bytes), s.toBytes ⟨true, true, true⟩ exSearch = .ok out ∧
    ¬ CanonicalForm ⟨true, true, true⟩ s out := by
  refine ⟨⟨[[0x41]], .A, .IN, 60, [.A ⟨1⟩]⟩, _, rfl, ?_⟩
  intro h
  obtain ⟨rest, hr⟩ := canonical_head h ⟨.A ⟨1⟩, by decide, _, rfl⟩
  have : ((RRSet.recordBytes ⟨[[0x41]], .A, .IN, 60, [.A ⟨1⟩]⟩ [0, 0, 0, 1]).take 2) = [1, 0x61] := by
    have h2 := congrArg (List.take 2) hr
    exact h2
  exact absurd this (by decide +kernel)

/-- C73 is false if two records are equal: both are in the output. -/
theorem C73_duplicate_counterexample : ∃ (s : RRSet) (out : Bytes),
    s.toBytes ⟨true, true, true⟩ exSearch = .ok out ∧ ¬ CanonicalForm ⟨true, true, true⟩ s out := by
  refine ⟨⟨[], .A, .IN, 60, [.A ⟨1⟩, .A ⟨1⟩]⟩, _, rfl, ?_⟩
  rintro ⟨rdatas, h1, h2, h3⟩
  have hall : ∀ b ∈ rdatas, b = [0, 0, 0, 1] := by
    intro b hb
    obtain ⟨r, hr, e⟩ := (h2 b).mp hb
    simp only [List.mem_cons, List.not_mem_nil, or_false, or_self] at hr
    subst hr
    exact (Res.ok.inj e).symm
  have hlen : rdatas.length ≤ 1 := by
    match rdatas, h1, hall with
    | [], _, _ => simp
    | [_], _, _ => simp
    | a :: b :: _, h1, hall =>
      have e1 := hall a (by simp)
      have e2 := hall b (by simp)
      subst e1; subst e2
      have := (List.pairwise_cons.mp h1).1 _ (List.mem_cons_self)
      exact absurd this (by decide)
  have h4 := congrArg List.length h3
  have h5 : ((rdatas.map (rrOctets ⟨lowerName [], .A, .IN, 60, [.A ⟨1⟩, .A ⟨1⟩]⟩)).flatten).length ≤ 15 := by
    match rdatas, hlen, hall with
    | [], _, _ => simp
    | [a], _, hall =>
      have := hall a (by simp)
      subst this
      decide +kernel
  rw [← h4] at h5
  exact absurd h5 (by decide +kernel)

theorem lowerOctet_idem (b : UInt8) : lowerOctet (lowerOctet b) = lowerOctet b := by
  have h0 : ∀ b : Fin 256, lowerOctet (lowerOctet (UInt8.ofNat b.val)) = lowerOctet (UInt8.ofNat b.val) := by
    decide +kernel
  simpa using h0 ⟨b.toNat, b.toNat_lt⟩

theorem lowerName_idem (n : Fqdn) : lowerName (lowerName n) = lowerName n := by
  simp [lowerName, lowerOctet_idem]

theorem lowerRecord_idem (r : RecordData) : lowerRecord (lowerRecord r) = lowerRecord r := by
  cases r <;> simp [lowerRecord, lowerName_idem]

theorem lowerRecord_type (r : RecordData) : (lowerRecord r).type = r.type := by
  cases r <;> rfl

theorem lowerName_ok {max : Nat} {n : Fqdn} (h : NameOk max n) : NameOk max (lowerName n) := by
  intro l hl
  obtain ⟨l', hl', rfl⟩ := List.mem_map.mp hl
  simpa using h l' hl'

theorem lowerRecord_writable {cfg : Cfg} {max : Nat} {r : RecordData} (h : Writable cfg max r) :
    Writable cfg max (lowerRecord r) := by
  cases r with
  | NS | CNAME | PTR | MX | SRV => exact lowerName_ok h
  | SOA | MINFO => exact ⟨lowerName_ok h.1, lowerName_ok h.2⟩
  | NAPTR => exact ⟨h.1, h.2.1, h.2.2.1, h.2.2.2.1, lowerName_ok h.2.2.2.2⟩
  | RRSIG => exact ⟨h.1, lowerName_ok h.2⟩
  | _ => exact h

theorem lowerName_length (n : Fqdn) : (lowerName n).toBytes.length = n.toBytes.length := by
  have : (Fqdn.labelBytes (lowerName n)).length = (Fqdn.labelBytes n).length := by
    induction n with
    | nil => rfl
    | cons l ls ih =>
      simp only [lowerName, List.map_cons, Fqdn.labelBytes, List.length_append] at ih ⊢
      rw [ih]
      cases l <;> simp
  simp [Fqdn.toBytes, this]

theorem lowerRecord_length {cfg : Cfg} {r : RecordData} {b b' : Bytes} (h : r.toBytes cfg = .ok b)
    (h' : (lowerRecord r).toBytes cfg = .ok b') : b'.length = b.length := by
  cases r with
  | NS | CNAME | PTR | MX | SRV | SOA | MINFO | NAPTR | RRSIG =>
    cases Res.ok.inj h
    cases Res.ok.inj h'
    simp [Ns.toBytes, Cname.toBytes, Ptr.toBytes, Mx.toBytes, Srv.toBytes, Soa.toBytes, Minfo.toBytes, Naptr.toBytes,
      Naptr.headBytes, Rrsig.toBytes, lowerName_length]
  | _ =>
    cases Res.ok.inj (h.symm.trans h')
    rfl

theorem RecordData.toBytes_inj {cfg : Cfg} {max : Nat} {r r' : RecordData} {b : Bytes} (hmax : max ≤ 191)
    (h : Writable cfg max r) (h' : Writable cfg max r') (hs : r.type ≠ .SSHFP) (ht : r.type = r'.type)
    (hb : r.toBytes cfg = .ok b) (hb' : r'.toBytes cfg = .ok b) : r = r' := by
  obtain ⟨x, h1, h2⟩ := RecordData.read_back hmax h (fun x hx => hs (by rw [hx]; rfl)) []
  obtain ⟨y, h3, h4⟩ := RecordData.read_back hmax h' (fun x hx => hs (by rw [ht, hx]; rfl)) []
  cases Res.ok.inj (h1.symm.trans hb)
  cases Res.ok.inj (h3.symm.trans hb')
  rw [ht] at h2
  exact Res.ok.inj (congrArg Prod.fst (h2.symm.trans h4))

/-- The RDATA can be told from the octets of a set. -/
theorem setOctets_inj {s : RRSet} {xs : List Bytes} : ∀ {ys : List Bytes},
    (∀ b ∈ xs, b.length < 65536) → (∀ b ∈ ys, b.length < 65536) →
    (xs.map (rrOctets s)).flatten = (ys.map (rrOctets s)).flatten → xs = ys := by
  induction xs with
  | nil =>
    intro ys _ _ h
    cases ys with
    | nil => rfl
    | cons y ys => simp [rrOctets, Items.octets, Item.octets, nameOctets] at h
  | cons x xs ih =>
    intro ys hx hy h
    cases ys with
    | nil => simp [rrOctets, Items.octets, Item.octets, nameOctets] at h
    | cons y ys =>
      simp only [List.map_cons, List.flatten_cons, rrOctets, Items.octets, Item.octets, o16, List.map_nil,
        List.flatten_nil, List.append_nil, List.append_assoc, List.append_cancel_left_eq] at h
      obtain ⟨h1, h2⟩ := List.append_inj h (by simp [octets16])
      have h3 : x.length = y.length := by
        have := (octets16_inj (x := []) (y := []) (by simpa using h1)).1
        have := congrArg UInt16.toNat this
        rwa [UInt16.toNat_ofNat_of_lt' (hx x (by simp)), UInt16.toNat_ofNat_of_lt' (hy y (by simp))] at this
      obtain ⟨rfl, h4⟩ := List.append_inj h2 h3
      rw [ih (fun b hb => hx b (List.mem_cons_of_mem _ hb)) (fun b hb => hy b (List.mem_cons_of_mem _ hb)) h4]

/-- C73, exactly: the octets of a set (with records of the type of the set, that fit the fields) are its
canonical form if and only if there are no upper case letters in the names and no two records are equal. -/
theorem C73_canonical_exact (cfg : Cfg) (search : Search) (hv : search.Valid) (s : RRSet) (out : Bytes)
    (hn : ∀ l ∈ s.name, l ≠ []) (hne : s.records ≠ [])
    (ht : ∀ r ∈ s.records, r.type = s.type) (hw : ∀ r ∈ s.records, Writable cfg 191 r)
    (hlen : ∀ r ∈ s.records, ∀ b, r.toBytes cfg = .ok b → b.length < 65536)
    (h : s.toBytes cfg search = .ok out) :
    CanonicalForm cfg s out ↔
      NoUpper s.name ∧ (∀ r ∈ s.records, lowerRecord r = r) ∧
        (s.records.map (RecordData.toBytes cfg)).Nodup := by
  refine ⟨fun hc => ?_, fun ⟨h1, h2, h3⟩ => C73_canonical_partial cfg search hv s out hn h1 h2 h3 h⟩
  obtain ⟨rd, h1, h2, h3⟩ := (C48_sorted cfg search hv s out hn).mp h
  obtain ⟨rd', h4, h5, h6⟩ := hc
  have mem : ∀ b, b ∈ rd ↔ ∃ r ∈ s.records, r.toBytes cfg = .ok b := by
    intro b
    have : b ∈ rd ↔ Res.ok b ∈ rd.map Res.ok := by simp
    rw [this, h1.mem_iff, List.mem_map]
  have hl : ∀ b ∈ rd, b.length < 65536 := fun b hb => by
    obtain ⟨r, hr, e⟩ := (mem b).mp hb
    exact hlen r hr b e
  have written : ∀ r ∈ s.records, ∃ b, r.toBytes cfg = .ok b ∧ b ∈ rd := by
    intro r hr
    have : r.toBytes cfg ∈ rd.map Res.ok := h1.mem_iff.mpr (List.mem_map_of_mem hr)
    obtain ⟨b, hb, e⟩ := List.mem_map.mp this
    exact ⟨b, e.symm, hb⟩
  have hl' : ∀ b ∈ rd', b.length < 65536 := fun b hb => by
    obtain ⟨r, hr, e⟩ := (h5 b).mp hb
    obtain ⟨b', e', _⟩ := written r hr
    rw [lowerRecord_length e' e]
    exact hlen r hr b' e'
  -- both start with the owner
  have hname : lowerName s.name = s.name := by
    obtain ⟨r, hr⟩ := List.exists_mem_of_ne_nil _ hne
    obtain ⟨b, e, hb⟩ := written r hr
    rcases rd with _ | ⟨x, xs⟩
    · cases hb
    rcases rd' with _ | ⟨y, ys⟩
    · rw [h3] at h6
      simp [rrOctets, Items.octets, Item.octets, nameOctets] at h6
    · rw [h3] at h6
      simp only [List.map_cons, List.flatten_cons, rrOctets, Items.octets, Item.octets,
        List.append_assoc] at h6
      refine lowerName_octets (List.append_inj h6 ?_).1
      have := lowerName_length s.name
      rw [Fqdn.toBytes_eq (fun l hl => List.length_pos_iff.mpr (hn l hl)), Fqdn.toBytes_eq] at this
      · exact this.symm
      · intro l hl
        obtain ⟨l', hl', rfl⟩ := List.mem_map.mp hl
        simpa [Nat.one_le_iff_ne_zero] using hn l' hl'
  have hrd : rd = rd' := by
    have e : ({ s with name := lowerName s.name } : RRSet) = s := by rw [hname]
    rw [e, h3] at h6
    exact setOctets_inj hl hl' h6
  subst hrd
  refine ⟨(lowerName_eq_iff _).mp hname, fun r hr => ?_, ?_⟩
  · by_cases hs : r.type = .SSHFP
    · cases r <;> first | rfl | cases hs
    · obtain ⟨b, e, hb⟩ := written r hr
      obtain ⟨r', hr', e'⟩ := (h5 b).mp hb
      have := RecordData.toBytes_inj (Nat.le_refl _) (hw r hr) (lowerRecord_writable (hw r' hr')) hs
        (by rw [lowerRecord_type, ht r hr, ht r' hr']) e e'
      rw [this, lowerRecord_idem]
  · refine h1.nodup_iff.mp (List.Nodup.map (fun a b h => Res.ok.inj h) ?_)
    refine h4.imp (fun {a b} hab => ?_)
    rintro rfl
    clear * - hab
    induction a with
    | nil => cases hab
    | cons x xs ih =>
      cases hab with
      | rel h => exact UInt8.lt_irrefl _ h
      | cons h => exact ih h

/-- C73: the set of the examples, and one with an upper case letter in the RDATA. -/
example : let s : RRSet := ⟨[[97]], .NS, .IN, 60, [.NS ⟨[[0x41]]⟩]⟩
    (∀ l ∈ s.name, l ≠ []) ∧ s.records ≠ [] ∧ (∀ r ∈ s.records, r.type = s.type) ∧
    (∀ r ∈ s.records, Writable ⟨true, true, true⟩ 191 r) ∧ (∃ out, s.toBytes ⟨true, true, true⟩ exSearch = .ok out) ∧
    ¬ (∀ r ∈ s.records, lowerRecord r = r) := by
  refine ⟨by decide, by decide, by decide, ?_, ⟨_, rfl⟩, by decide⟩
  intro r hr
  simp only [List.mem_cons, List.not_mem_nil, or_false] at hr
  subst hr
  show NameOk 191 _
  decide

/-- C73 (partial): the digest of a DS record is over the canonical owner name (RFC 4034, section 5.1.4) if
the name has no upper case letters.  What is missing: upper case letters (false, see the counterexample). -/
theorem C73_ds_partial (cfg : Cfg) (c : Crypto) (owner : Fqdn) (k : DnsKey) (t : DigestType) (ds : Ds)
    (hn : ∀ l ∈ owner, l ≠ []) (hl : NoUpper owner) (h : Ds.ofDnsKey cfg c owner k t = .ok ds) :
    ds.digest = t.hashData c (nameOctets (lowerName owner) ++ dnskeyOctets k) := by
  obtain ⟨tag, _, h⟩ := Res.bind_ok.mp h
  cases h
  show t.hashData c (owner.toBytes ++ k.toBytes) = _
  rw [lowerName_id hl, DnsKey.toBytes_eq, Fqdn.toBytes_eq (fun l hl => List.length_pos_iff.mpr (hn l hl))]

example : ∃ ds, Ds.ofDnsKey ⟨true, true, true⟩ exCrypto [[97]] (exKey .ED25519) .SHA256 = .ok ds ∧
    ds.digest.length = 10 := Res.exists_ok (by decide +kernel)

/-- C73 is false for DS records: two spellings of the same owner give different digests. -/
theorem C73_ds_counterexample : SameName [[0x41]] [[0x61]] ∧ ∃ a b,
    Ds.ofDnsKey ⟨true, true, true⟩ exCrypto [[0x41]] (exKey .ED25519) .SHA256 = .ok a ∧
    Ds.ofDnsKey ⟨true, true, true⟩ exCrypto [[0x61]] (exKey .ED25519) .SHA256 = .ok b ∧ a.digest ≠ b.digest := by
  refine ⟨by unfold SameName; decide, ?_⟩
  obtain ⟨a, h1, h2⟩ := Res.exists_ok (P := fun a : Ds => a.digest[1]? = some 0x41)
    (x := Ds.ofDnsKey ⟨true, true, true⟩ exCrypto [[0x41]] (exKey .ED25519) .SHA256) (by decide +kernel)
  obtain ⟨b, h3, h4⟩ := Res.exists_ok (P := fun a : Ds => a.digest[1]? = some 0x61)
    (x := Ds.ofDnsKey ⟨true, true, true⟩ exCrypto [[0x61]] (exKey .ED25519) .SHA256) (by decide +kernel)
  refine ⟨a, b, h1, h3, fun e => ?_⟩
  rw [e, h4] at h2
  exact absurd h2 (by decide)

/-- C73, exactly for DS records: unless the hash function has a collision, the digest is over the canonical
owner name if and only if the owner has no upper case letters. -/
theorem C73_ds_exact (cfg : Cfg) (c : Crypto) (owner : Fqdn) (k : DnsKey) (t : DigestType) (ds : Ds)
    (hn : ∀ l ∈ owner, l ≠ []) (h : Ds.ofDnsKey cfg c owner k t = .ok ds)
    (hc : t.hashData c (nameOctets owner ++ dnskeyOctets k) =
        t.hashData c (nameOctets (lowerName owner) ++ dnskeyOctets k) →
      nameOctets owner ++ dnskeyOctets k = nameOctets (lowerName owner) ++ dnskeyOctets k) :
    ds.digest = t.hashData c (nameOctets (lowerName owner) ++ dnskeyOctets k) ↔ NoUpper owner := by
  refine ⟨fun h1 => ?_, fun hl => C73_ds_partial cfg c owner k t ds hn hl h⟩
  obtain ⟨tag, _, h⟩ := Res.bind_ok.mp h
  cases h
  have h2 : t.hashData c (owner.toBytes ++ k.toBytes) = _ := h1
  rw [DnsKey.toBytes_eq, Fqdn.toBytes_eq (fun l hl => List.length_pos_iff.mpr (hn l hl))] at h2
  exact (lowerName_eq_iff owner).mp (lowerName_octets (List.append_cancel_right (hc h2)))

example : ∃ ds, Ds.ofDnsKey ⟨true, true, true⟩ exCrypto [[0x41]] (exKey .ED25519) .SHA256 = .ok ds ∧
    ds.digest ≠ DigestType.hashData exCrypto .SHA256
      (nameOctets (lowerName [[0x41]]) ++ dnskeyOctets (exKey .ED25519)) := Res.exists_ok (by decide +kernel)

/-! ## C74 -/

theorem Fqdn.eqBytes_iff (a b : Bytes) : Fqdn.eqBytes a b = true ↔ a = b := by
  induction a generalizing b with
  | nil => cases b <;> simp [Fqdn.eqBytes]
  | cons x a ih => cases b <;> simp [Fqdn.eqBytes, ih]

/-- C74: `==` compares octet by octet. -/
theorem C74_octets (n m : Fqdn) : n.eq m = true ↔ n = m := by
  induction n generalizing m with
  | nil => cases m <;> simp [Fqdn.eq]
  | cons x a ih => cases m <;> simp [Fqdn.eq, ih, Fqdn.eqBytes_iff]

/-- C74 (partial): names that compare equal are the same name; names without upper case letters compare
equal exactly if they are the same name.  What is missing: names with upper case letters (false, see the
counterexample). -/
theorem C74_equality_partial (n m : Fqdn) : (n.eq m = true → SameName n m) ∧
    (NoUpper n → NoUpper m → (SameName n m ↔ n.eq m = true)) := by
  rw [C74_octets]
  refine ⟨fun h => by rw [h]; exact rfl, fun hn hm => ?_⟩
  unfold SameName
  rw [lowerName_id hn, lowerName_id hm]

example : NoUpper (Fqdn.new [97, 46, 98]) ∧ NoUpper (Fqdn.new [97, 46, 98, 46]) ∧
    SameName (Fqdn.new [97, 46, 98]) (Fqdn.new [97, 46, 98, 46]) := by
  unfold SameName
  decide +kernel

/-- C74 is false: `FQDN::new("A")` and `FQDN::new("a")` are the same name, but compare as different and
as ordered. -/
theorem C74_counterexample : SameName (Fqdn.new [0x41]) (Fqdn.new [0x61]) ∧
    (Fqdn.new [0x41]).eq (Fqdn.new [0x61]) = false ∧ (Fqdn.new [0x41]).cmp (Fqdn.new [0x61]) = .lt ∧
    (Fqdn.new [0x4C, 0x4F, 0x43, 0x41, 0x4C]).isLinkLocal = false := by
  unfold SameName
  decide +kernel

/-- C74, exactly: a name is equal to all its spellings if and only if it has no letters. -/
theorem C74_equality_exact (n : Fqdn) : (∀ m, SameName n m → n.eq m = true) ↔
    ∀ l ∈ n, ∀ b ∈ l, ¬ (0x41 ≤ b.toNat ∧ b.toNat ≤ 0x5A) ∧ ¬ (0x61 ≤ b.toNat ∧ b.toNat ≤ 0x7A) := by
  simp only [C74_octets]
  constructor
  · intro h
    have h0 : ∀ b : Fin 256, lowerOctet (lowerOctet (UInt8.ofNat b.val)) = lowerOctet (UInt8.ofNat b.val) := by
      decide +kernel
    have h0 : ∀ b, lowerOctet (lowerOctet b) = lowerOctet b := fun b => by simpa using h0 ⟨b.toNat, b.toNat_lt⟩
    have h1 : NoUpper n := (lowerName_eq_iff n).mp (h _ (by simp [SameName, lowerName, h0])).symm
    refine fun l hl b hb => ⟨h1 l hl b hb, fun hb' => ?_⟩
    -- the name in upper case
    let up : UInt8 → UInt8 := fun b => if 0x61 ≤ b.toNat ∧ b.toNat ≤ 0x7A then UInt8.ofNat (b.toNat - 32) else b
    have h2 : ∀ b : Fin 256, lowerOctet (up (UInt8.ofNat b.val)) = lowerOctet (UInt8.ofNat b.val) := by
      decide +kernel
    have h2 : ∀ b, lowerOctet (up b) = lowerOctet b := fun b => by simpa using h2 ⟨b.toNat, b.toNat_lt⟩
    have h3 := h (n.map (·.map up)) (by simp [SameName, lowerName, h2])
    have h4 : l.map up = l := by
      have h5 : n.map (·.map up) = n.map id := by simpa using h3.symm
      exact List.map_inj_left.mp h5 l hl
    have h6 : up b = b := by
      have h5 : l.map up = l.map id := by simpa using h4
      exact List.map_inj_left.mp h5 b hb
    simp only [up, if_pos hb'] at h6
    have h7 := congrArg UInt8.toNat h6
    rw [UInt8.toNat_ofNat_of_lt' (show _ < 256 by omega)] at h7
    omega
  · intro h m hm
    have hn : lowerName n = n := lowerName_id fun l hl b hb => (h l hl b hb).1
    have hm' : n = lowerName m := hn.symm.trans hm
    rw [hm']
    refine (lowerName_eq_iff m).mpr fun l hl b hb hu => ?_
    have h1 : l.map lowerOctet ∈ n := hm' ▸ List.mem_map_of_mem hl
    have h2 := (h _ h1 (lowerOctet b) (List.mem_map_of_mem hb)).2
    rw [lowerOctet, if_pos hu, UInt8.toNat_ofNat_of_lt' (show _ < 256 by omega)] at h2
    omega

example : ∀ m, SameName [[0x31, 0x2D], [0x32]] m → Fqdn.eq [[0x31, 0x2D], [0x32]] m = true :=
  (C74_equality_exact _).mpr (by decide)

/-! ## C76 -/

theorem cmpBytes_lt_iff (a b : Bytes) : Fqdn.cmpBytes a b = .lt ↔ List.Lex (· < ·) a b := by
  induction a generalizing b with
  | nil => cases b <;> simp [Fqdn.cmpBytes]
  | cons x a ih =>
    cases b with
    | nil => simp [Fqdn.cmpBytes]
    | cons y b =>
      rw [Fqdn.cmpBytes, List.cons_lex_cons_iff]
      by_cases h1 : x < y
      · simp [h1]
      · by_cases h2 : y < x
        · have : x ≠ y := fun e => by subst e; exact h1 h2
          simp [h1, h2, this]
        · have : x = y := UInt8.toNat_inj.mp (by
            rw [UInt8.lt_iff_toNat_lt] at h1 h2; omega)
          subst this
          simp [h1, ih b]

/-- C76 (partial): among the names directly below one parent, without upper case letters, the order of
`FQDN` is the canonical order of RFC 4034, section 6.1.  What is missing: names with different parents
or upper case letters (false, see the counterexample). -/
theorem C76_siblings_partial (a b : Bytes) (parent : Fqdn) (ha : NoUpper (a :: parent))
    (hb : NoUpper (b :: parent)) :
    Fqdn.cmp (a :: parent) (b :: parent) = .lt ↔ CanonicalLt (a :: parent) (b :: parent) := by
  have hc : ∀ p : Fqdn, Fqdn.cmp p p = .eq := by
    intro p
    have hb : ∀ l : Bytes, Fqdn.cmpBytes l l = .eq := by
      intro l
      induction l with
      | nil => rfl
      | cons x l ih => simp [Fqdn.cmpBytes, UInt8.lt_irrefl, ih]
    induction p with
    | nil => rfl
    | cons l p ih => simp [Fqdn.cmp, hb, ih]
  unfold CanonicalLt
  rw [lowerName_id ha, lowerName_id hb, List.reverse_cons, List.reverse_cons]
  have key : ∀ p : Fqdn, List.Lex (List.Lex (· < ·)) (p ++ [a]) (p ++ [b]) ↔ List.Lex (· < ·) a b := by
    intro p
    induction p with
    | nil =>
      constructor
      · intro h
        cases h with
        | rel h => exact h
        | cons h => exact absurd h (by simp)
      · exact fun h => .rel h
    | cons l p ih =>
      rw [List.cons_append, List.cons_append, List.cons_lex_cons_iff]
      constructor
      · rintro (h | ⟨_, h⟩)
        · exact absurd h (by
            have : ∀ l : Bytes, ¬ List.Lex (· < ·) l l := by
              intro l
              induction l with
              | nil => simp
              | cons x l ih =>
                rw [List.cons_lex_cons_iff]
                rintro (h | ⟨_, h⟩)
                · exact absurd h (UInt8.lt_irrefl x)
                · exact ih h
            exact this l)
        · exact ih.mp h
      · exact fun h => Or.inr ⟨rfl, ih.mpr h⟩
  rw [key, ← cmpBytes_lt_iff]
  rw [Fqdn.cmp]
  cases h : Fqdn.cmpBytes a b <;> simp [hc]

example : NoUpper [[97], [99, 111, 109]] ∧ NoUpper [[98], [99, 111, 109]] ∧
    Fqdn.cmp [[97], [99, 111, 109]] [[98], [99, 111, 109]] = .lt := by decide +kernel

/-- C76 is false: `z.a` comes before `a.b` in the canonical order, but after it in the order of `FQDN`. -/
theorem C76_counterexample : CanonicalLt [[0x7A], [0x61]] [[0x61], [0x62]] ∧
    Fqdn.cmp [[0x7A], [0x61]] [[0x61], [0x62]] = .gt := by
  refine ⟨?_, by decide +kernel⟩
  exact .rel (.rel (by decide))

/-! ## C77 -/

/-- C77 (partial): a signature made by `from_dnskey` with a zone key meets the conditions of RFC 4035,
section 5.3.1, other than those on the time, for a set at the apex of the zone.  What is missing: that
`verify` checks them (false, see the counterexample), and the times (see C54). -/
theorem C77_fresh_partial (cfg : Cfg) (c : Crypto) (search : Search) (k : DnsKey) (set : RRSet)
    (inception expiration : SysTime) (priv : Bytes) (r : Rrsig) (now : Nat)
    (h : Rrsig.fromDnsKey cfg c search k set inception expiration priv = .ok r)
    (hk : k.publicKey.length ≤ 131066) (ha : k.algorithm ≠ .RSA_MD5)
    (hw : ∀ l ∈ set.name.head?, l ≠ [0x2A]) (hn : set.name.length < 256)
    (hz : k.zoneKey = true) (hp : k.validProtocol = true)
    (ht : r.sigInception.toNat ≤ now ∧ now ≤ r.sigExpiration.toNat) :
    SignatureUsable r k set set.name now := by
  obtain ⟨h1, h2, h3, h4, h5⟩ := C72_fields_partial cfg c search k set inception expiration priv r h hk ha hw hn
  obtain ⟨_, _, _, _, _, _, _, _, _, _, h6⟩ := fromDnsKey_ok h
  exact ⟨by rw [h6]; exact rfl, h1, by omega, ht.2, ht.1, h3, h4, hz, by simpa [DnsKey.validProtocol] using hp⟩

example : ∃ r, Rrsig.fromDnsKey ⟨true, true, true⟩ exCrypto exSearch (exKey .ED25519) exSet 0 1000000000 [] = .ok r ∧
    r.sigInception.toNat ≤ 500 ∧ 500 ≤ r.sigExpiration.toNat ∧ (exKey .ED25519).zoneKey = true ∧
    (exKey .ED25519).validProtocol = true := by
  obtain ⟨r, h1, h2⟩ := Res.exists_ok
    (P := fun r : Rrsig => r.sigInception.toNat ≤ 500 ∧ 500 ≤ r.sigExpiration.toNat)
    (x := Rrsig.fromDnsKey ⟨true, true, true⟩ exCrypto exSearch (exKey .ED25519) exSet 0 1000000000 [])
    (by decide +kernel)
  exact ⟨r, h1, h2.1, h2.2, rfl, rfl⟩

/-- C77 is false of `verify`: it accepts a signature that covers another type, has another key tag, a wrong
number of labels, another signer, has expired before it was made, and a key that is not a zone key and has
another protocol, as long as the signature itself is right. -/
theorem C77_counterexample : ∃ (r : Rrsig) (k : DnsKey) (set : RRSet),
    Rrsig.verify ⟨true, true, true⟩ exCrypto exSearch r k set = .ok true ∧
    r.typeCovered ≠ set.type ∧ r.keyTag.toNat ≠ keyTag k ∧ rrsigLabels set.name < r.labels.toNat ∧
    ¬ SameName r.signersName set.name ∧ (∀ now, ¬ (r.sigInception.toNat ≤ now ∧ now ≤ r.sigExpiration.toNat)) ∧
    k.zoneKey = false ∧ k.protocol ≠ 3 := by
  refine ⟨⟨.MX, .ED25519, 9, 60, 1, 2, 7, [[98]],
      Rrsig.verifyMessage ⟨.MX, .ED25519, 9, 60, 1, 2, 7, [[98]], []⟩ [1, 97, 0, 0, 1, 0, 1, 0, 0, 0, 60, 0, 4, 1, 2, 3, 4]⟩,
    ⟨false, false, 5, .ED25519, [1]⟩, ⟨[[97]], .A, .IN, 60, [.A ⟨0x01020304⟩]⟩,
    by decide +kernel, by decide, by decide +kernel, by decide, ?_, ?_, rfl, by decide⟩
  · unfold SameName; decide +kernel
  · intro now h
    have h1 : (2 : UInt32).toNat ≤ now := h.1
    have h2 : now ≤ (1 : UInt32).toNat := h.2
    have e1 : (2 : UInt32).toNat = 2 := rfl
    have e2 : (1 : UInt32).toNat = 1 := rfl
    omega

end Dns
