import Verif.Props.RRSet
import Verif.Props.RData

/-! C50 to C54, C60: key tags, digests, signatures. -/

namespace Dns
open Spec Buf

theorem Res.exists_ok {α : Type} {x : Res α} {P : α → Prop} [DecidablePred P]
    (h : (match x with | .ok r => decide (P r) | _ => false) = true) : ∃ r, x = .ok r ∧ P r := by
  cases x with
  | ok r => exact ⟨r, rfl, of_decide_eq_true h⟩
  | _ => exact absurd h (by simp)

/-! ## C50 -/

theorem DnsKey.flags_eq (k : DnsKey) : k.flags = UInt16.ofNat (dnskeyFlags k) := by
  unfold DnsKey.flags dnskeyFlags
  cases k.zoneKey <;> cases k.secureEntryPoint <;> rfl

theorem DnsKey.toBytes_eq (k : DnsKey) : k.toBytes = dnskeyOctets k := by
  simp [DnsKey.toBytes, dnskeyOctets, Items.octets, Item.octets, o16, o8, DnsKey.flags_eq, u16be_eq,
    SecAlgorithm.toU8_eq]

/-- What the octet at position `i` adds to the sum. -/
def tagPart (x : UInt8 × Nat) : Nat := if x.2 % 2 = 0 then x.1.toNat * 256 else x.1.toNat

theorem tagPart_bound (l : Bytes) (i : Nat) :
    2 * ((l.zipIdx i).map tagPart).sum ≤ 65535 * l.length + (if i % 2 = 0 then 65025 else 0) := by
  induction l generalizing i with
  | nil => simp
  | cons b l ih =>
    have := ih (i + 1)
    have hb := b.toNat_lt
    simp only [List.zipIdx_cons, List.map_cons, List.sum_cons, List.length_cons, tagPart]
    split at this <;> split <;> omega

theorem keyTagLoop_eq (cfg : Cfg) (l : Bytes) (i acc : Nat)
    (h : acc + ((l.zipIdx i).map tagPart).sum < 2 ^ 32) :
    DnsKey.keyTagLoop cfg i acc l = .ok (acc + ((l.zipIdx i).map tagPart).sum) := by
  induction l generalizing i acc with
  | nil => simp [DnsKey.keyTagLoop]
  | cons b l ih =>
    simp only [List.zipIdx_cons, List.map_cons, List.sum_cons] at h ⊢
    have hp : (if i % 2 ≠ 0 then b.toNat else b.toNat * 256) = tagPart (b, i) := by
      unfold tagPart
      by_cases hi : i % 2 = 0 <;> simp [hi]
    rw [DnsKey.keyTagLoop, hp]
    have : addU32 cfg acc (tagPart (b, i)) = .ok (acc + tagPart (b, i)) := if_pos (by omega)
    rw [this]
    show DnsKey.keyTagLoop cfg (i + 1) (acc + tagPart (b, i)) l = _
    rw [ih _ _ (by omega)]
    congr 1; omega

theorem keyTagOf_lt (b : Bytes) : keyTagOf b < 65536 := Nat.mod_lt _ (by decide)

theorem DnsKey.computeKeyTag_eq (cfg : Cfg) (k : DnsKey) (hl : k.publicKey.length ≤ 131066) :
    k.computeKeyTag cfg = .ok (UInt16.ofNat (keyTagOf (dnskeyOctets k))) := by
  have hlen : (dnskeyOctets k).length = 4 + k.publicKey.length := by
    rw [← DnsKey.toBytes_eq]; simp [DnsKey.toBytes, u16be_length]; omega
  have hb := tagPart_bound (dnskeyOctets k) 0
  have hs : ((dnskeyOctets k).zipIdx.map tagPart).sum = keyTagSum (dnskeyOctets k) := rfl
  rw [hs, hlen] at hb
  simp only [Nat.zero_mod, if_true] at hb
  unfold DnsKey.computeKeyTag
  rw [DnsKey.toBytes_eq, keyTagLoop_eq cfg _ _ _ (by rw [hs]; omega), hs, Nat.zero_add]
  have h2 : addU32 cfg (keyTagSum (dnskeyOctets k)) (keyTagSum (dnskeyOctets k) / 65536 % 65536)
      = .ok (keyTagSum (dnskeyOctets k) + keyTagSum (dnskeyOctets k) / 65536 % 65536) := if_pos (by omega)
  show (do let t ← addU32 cfg _ _; _) = _
  rw [h2]
  rfl

/-- C50 (partial): the key tag is the checksum of RFC 4034, appendix B, and computing it does not
overflow; for keys of any length a record can hold, and beyond.  What is missing: RSA/MD5 keys, for
which appendix B.1 has another rule and the property is false. -/
theorem C50_key_tag_partial (cfg : Cfg) (k : DnsKey) (hl : k.publicKey.length ≤ 131066)
    (ha : k.algorithm ≠ .RSA_MD5) : ∃ tag, k.computeKeyTag cfg = .ok tag ∧ tag.toNat = keyTag k := by
  refine ⟨_, DnsKey.computeKeyTag_eq cfg k hl, ?_⟩
  rw [UInt16.toNat_ofNat_of_lt' (keyTagOf_lt _)]
  unfold keyTag
  rw [if_neg ha]

/-- C50: a key that a record holds. -/
example : (⟨true, true, 3, .ED25519, [1, 2, 3, 255]⟩ : DnsKey).computeKeyTag ⟨true, true, true⟩ = .ok 2321 ∧
    keyTag ⟨true, true, 3, .ED25519, [1, 2, 3, 255]⟩ = 2321 := by decide +kernel

/-- C50 is false for RSA/MD5 keys. -/
theorem C50_counterexample : ∃ (k : DnsKey) (tag : UInt16),
    k.computeKeyTag ⟨true, true, true⟩ = .ok tag ∧ tag.toNat ≠ keyTag k :=
  ⟨⟨true, false, 3, .RSA_MD5, [1, 3, 200, 100, 50, 25]⟩, Res.exists_ok (by decide +kernel)⟩

/-! ## C52 -/

/-- C52: the DS record of a key. -/
theorem C52_ds (cfg : Cfg) (c : Crypto) (owner : Fqdn) (k : DnsKey) (t : DigestType)
    (hn : ∀ l ∈ owner, l ≠ []) (hl : k.publicKey.length ≤ 131066) :
    ∃ ds, Ds.ofDnsKey cfg c owner k t = .ok ds ∧ ds.algorithm = k.algorithm ∧ ds.digestType = t ∧
      ds.keyTag.toNat = keyTagOf (dnskeyOctets k) ∧ k.computeKeyTag cfg = .ok ds.keyTag ∧
      ds.digest = (match t with
        | .SHA1 => c.sha1
        | .SHA256 => c.sha256
        | .SHA384 => c.sha384
        | .SHA512 => c.sha512) (nameOctets owner ++ dnskeyOctets k) := by
  have h := DnsKey.computeKeyTag_eq cfg k hl
  refine ⟨_, Res.bind_ok.mpr ⟨_, h, rfl⟩, rfl, rfl, ?_, h, ?_⟩
  · exact UInt16.toNat_ofNat_of_lt' (keyTagOf_lt _)
  · show t.hashData c (owner.toBytes ++ k.toBytes) = _
    rw [DnsKey.toBytes_eq, Fqdn.toBytes_eq (fun l hl => List.length_pos_iff.mpr (hn l hl))]
    cases t <;> rfl

/-! ## Toy libraries for the examples -/

/-- A library whose signatures are the messages themselves, with a digest that keeps everything. -/
def exCrypto : Crypto where
  md5 m := m
  sha1 m := m
  sha256 m := m
  sha384 m := m
  sha512 m := m
  rsaSign _ t := .ok t
  ringRsaPrivOk _ := true
  rsaKeyOk _ _ := true
  rsaVerify _ _ t sig := t == sig
  dsaSign _ m := .ok (m, [1])
  dsaKeyOk _ _ _ _ := true
  dsaSigOk b := b.head? == some 0x30
  dsaVerify _ _ _ _ m sig := m == sig
  ecdsa256Sign _ m := .ok m
  ecdsa256Verify _ m sig := m == sig
  ecdsa384Sign _ m := .ok m
  ecdsa384Verify _ m sig := m == sig
  ed25519Sign _ m := .ok m
  ed25519Verify _ m sig := m == sig
  ed448Sign _ m := .ok m
  ed448KeyOk _ := true
  ed448Verify _ m sig := m == sig

/-- A key with the exponent 3 and the modulus 5. -/
def exKey (a : SecAlgorithm) : DnsKey := ⟨true, false, 3, a, [1, 3, 5]⟩

/-- A set with two addresses. -/
def exSet : RRSet := ⟨[[97]], .A, .IN, 60, [.A ⟨0x02000000⟩, .A ⟨0x01000000⟩]⟩

example : Ds.ofDnsKey ⟨true, true, true⟩ exCrypto [[97]] (exKey .ED25519) .SHA256
    = .ok ⟨2578, .ED25519, .SHA256, [1, 97, 0, 1, 0, 3, 15, 1, 3, 5]⟩ := by decide +kernel

/-! ## C51 -/

theorem Rrsig.unsigned_eq (r : Rrsig) (s sig : Bytes) :
    { r with signature := sig }.verifyMessage s = r.verifyMessage s := rfl

theorem Rrsig.toBytes_unsigned {r : Rrsig} (h : r.signature = []) (s : Bytes) :
    r.toBytes ++ s = r.verifyMessage s := by
  simp [Rrsig.toBytes, Rrsig.verifyMessage, h]

theorem Rrsig.message_eq {r : Rrsig} (hn : ∀ l ∈ r.signersName, l ≠ []) (s : Bytes) :
    r.verifyMessage s = rrsigOctets r ++ s := by
  have h1 : ∀ l ∈ r.signersName, 1 ≤ l.length := fun l hl => List.length_pos_iff.mpr (hn l hl)
  simp [Rrsig.verifyMessage, rrsigOctets, Items.octets, Item.octets, o16, o8, Fqdn.toBytes_eq h1,
    RecordType.toU16_eq, SecAlgorithm.toU8_eq, u16be_eq, u32be_eq]

/-- `from_dnskey` step by step. -/
theorem fromDnsKey_ok {cfg : Cfg} {c : Crypto} {search : Search} {k : DnsKey} {set : RRSet}
    {inception expiration : SysTime} {priv : Bytes} {r : Rrsig}
    (h : Rrsig.fromDnsKey cfg c search k set inception expiration priv = .ok r) :
    ∃ out, set.toBytes cfg search = .ok out ∧
      k.algorithm.signData c (r.verifyMessage out) priv = .ok r.signature ∧
      r.typeCovered = set.type ∧ r.algorithm = k.algorithm ∧ r.labels = set.name.labelCount ∧
      r.originalTtl = set.ttl ∧ expiration.toField = .ok r.sigExpiration ∧
      inception.toField = .ok r.sigInception ∧ k.computeKeyTag cfg = .ok r.keyTag ∧
      r.signersName = set.name := by
  obtain ⟨e, h1, h⟩ := Res.bind_ok.mp h
  obtain ⟨i, h2, h⟩ := Res.bind_ok.mp h
  obtain ⟨tag, h3, h⟩ := Res.bind_ok.mp h
  obtain ⟨out, h4, h⟩ := Res.bind_ok.mp h
  obtain ⟨sig, h5, h⟩ := Res.bind_ok.mp h
  cases h
  refine ⟨out, h4, ?_, rfl, rfl, rfl, rfl, h1, h2, h3, rfl⟩
  rw [Rrsig.toBytes_unsigned rfl] at h5
  exact h5

theorem ofBE_value (b : Bytes) : ofBE b = valueOf b := (valueOf_eq b).symm

theorem parseRsaKey_ok {pub : Bytes} {e n j : Nat} (h : Rrsig.parseRsaKey pub 0 = (.ok (e, n), j)) :
    RsaKey pub n e := by
  unfold Rrsig.parseRsaKey at h
  rw [Parser.bind_ok] at h
  obtain ⟨first, i1, h1, h⟩ := h
  rw [extractU8_ok] at h1
  by_cases hz : first = 0
  · rw [if_pos hz] at h
    simp only [Parser.bind_ok, Parser.pure_ok, extractU16_ok, extractBytes_ok, extractRest_ok] at h
    obtain ⟨len, i2, h2, eo, i3, ⟨h3, h4⟩, no, i4, ⟨h5, rfl⟩, h6, rfl⟩ := h
    simp only [Prod.mk.injEq] at h6
    obtain ⟨rfl, rfl⟩ := h6
    refine ⟨eo, no, (ofBE_value eo).symm, (ofBE_value no).symm, Or.inr ?_⟩
    have hall := octets_append.mpr ⟨_, octets_append.mpr ⟨_, octets_append.mpr ⟨_, h1, h2⟩, h4⟩, h5⟩
    obtain ⟨pre, post, hp1, hp2, hp3⟩ := hall
    have hpre : pre = [] := List.length_eq_zero_iff.mp hp2
    subst hpre
    have hpost : post = [] := by
      have := congrArg List.length hp1
      simp only [List.length_append, List.length_nil] at this hp3
      apply List.length_eq_zero_iff.mp
      omega
    subst hpost
    have hlen := len.toNat_lt
    refine ⟨by rw [h3]; exact hlen, ?_⟩
    rw [h3, hp1, hz]
    simp
  · rw [if_neg hz] at h
    simp only [Parser.bind_ok, Parser.pure_ok, extractBytes_ok, extractRest_ok] at h
    obtain ⟨len, i2, ⟨rfl, rfl⟩, eo, i3, ⟨h3, h4⟩, no, i4, ⟨h5, rfl⟩, h6, rfl⟩ := h
    simp only [Prod.mk.injEq] at h6
    obtain ⟨rfl, rfl⟩ := h6
    refine ⟨eo, no, (ofBE_value eo).symm, (ofBE_value no).symm, Or.inl ?_⟩
    have hall := octets_append.mpr ⟨_, octets_append.mpr ⟨_, h1, h4⟩, h5⟩
    obtain ⟨pre, post, hp1, hp2, hp3⟩ := hall
    have hpre : pre = [] := List.length_eq_zero_iff.mp hp2
    subst hpre
    have hpost : post = [] := by
      have := congrArg List.length hp1
      simp only [List.length_append, List.length_nil] at this hp3
      apply List.length_eq_zero_iff.mp
      omega
    subst hpost
    have hlt := first.toNat_lt
    have hlen : eo.length = first.toNat := by
      rw [h3]; exact UInt16.toNat_ofNat_of_lt' (by simp [UInt16.size]; omega)
    have hne : first.toNat ≠ 0 := fun h => hz (UInt8.toNat_inj.mp h)
    refine ⟨by omega, by omega, ?_⟩
    rw [hlen, hp1]
    simp

theorem octets_nil_start {b : Bytes} (post : Bytes) : Octets (b ++ post) 0 b b.length :=
  ⟨[], post, rfl, rfl, by simp⟩

theorem parseRsaKey_complete {pub : Bytes} {n e : Nat} (h : RsaKey pub n e) :
    (Rrsig.parseRsaKey pub 0).1 = .ok (e, n) := by
  obtain ⟨eo, no, rfl, rfl, h⟩ := h
  have key : ∃ j, Rrsig.parseRsaKey pub 0 = (.ok (valueOf eo, valueOf no), j) := by
    refine ⟨pub.length, ?_⟩
    unfold Rrsig.parseRsaKey
    rw [Parser.bind_ok]
    rcases h with ⟨h1, h2, rfl⟩ | ⟨h1, rfl⟩
    · have hz : UInt8.ofNat eo.length ≠ 0 := by
        intro h0
        have := congrArg UInt8.toNat h0
        rw [UInt8.toNat_ofNat_of_lt' h2, UInt8.toNat_zero] at this
        omega
      have hall : Octets (UInt8.ofNat eo.length :: eo ++ no) 0 ([UInt8.ofNat eo.length] ++ eo ++ no)
          (UInt8.ofNat eo.length :: eo ++ no).length := ⟨[], [], by simp, rfl, by simp⟩
      obtain ⟨k, hk, h5⟩ := octets_append.mp hall
      obtain ⟨k', h3, h4⟩ := octets_append.mp hk
      refine ⟨_, k', extractU8_ok.mpr h3, ?_⟩
      rw [if_neg hz]
      simp only [Parser.bind_ok, Parser.pure_ok, extractBytes_ok, extractRest_ok]
      refine ⟨UInt16.ofNat eo.length, k', ⟨?_, rfl⟩, eo, k, ⟨?_, h4⟩, no, _, ⟨h5, rfl⟩, ?_, rfl⟩
      · rw [UInt8.toNat_ofNat_of_lt' h2]
      · exact (UInt16.toNat_ofNat_of_lt' (by simp [UInt16.size]; omega)).symm
      · rw [ofBE_value, ofBE_value]
    · have hall : Octets (0 :: octets16 (UInt16.ofNat eo.length) ++ eo ++ no) 0
          ([0] ++ octets16 (UInt16.ofNat eo.length) ++ eo ++ no)
          (0 :: octets16 (UInt16.ofNat eo.length) ++ eo ++ no).length := ⟨[], [], by simp, rfl, by simp⟩
      obtain ⟨k, hk, h5⟩ := octets_append.mp hall
      obtain ⟨k', hk', h4⟩ := octets_append.mp hk
      obtain ⟨k'', h2, h3⟩ := octets_append.mp hk'
      refine ⟨_, k'', extractU8_ok.mpr h2, ?_⟩
      rw [if_pos rfl]
      simp only [Parser.bind_ok, Parser.pure_ok, extractU16_ok, extractBytes_ok, extractRest_ok]
      refine ⟨UInt16.ofNat eo.length, k', h3, eo, k, ⟨?_, h4⟩, no, _, ⟨h5, rfl⟩, ?_, rfl⟩
      · exact (UInt16.toNat_ofNat_of_lt' (by simpa [UInt16.size] using h1)).symm
      · rw [ofBE_value, ofBE_value]
  obtain ⟨j, hj⟩ := key
  rw [hj]

/-- C51: signing and verifying work on the same octets: those of the RRSIG without the signature and
of the records in their order (RFC 4034, section 3.1.8.1), for every order of the records. -/
theorem C51_same_octets (cfg : Cfg) (c : Crypto) (search search' : Search) (hv : search.Valid)
    (hv' : search'.Valid) (k : DnsKey) (set : RRSet) (inception expiration : SysTime) (priv : Bytes)
    (r : Rrsig) (hn : ∀ l ∈ set.name, l ≠ []) (rs : List RecordData) (hp : rs.Perm set.records)
    (h : Rrsig.fromDnsKey cfg c search k set inception expiration priv = .ok r) :
    ∃ out, SortedRecords cfg set out ∧
      k.algorithm.signData c (rrsigOctets r ++ out) priv = .ok r.signature ∧
      r.verify cfg c search' k { set with records := rs } =
        Rrsig.verifyWith c k.algorithm k.publicKey
          (Rrsig.prehash c k.algorithm (rrsigOctets r ++ out)) r.signature := by
  obtain ⟨out, h1, h2, _, h3, _, _, _, _, _, h4⟩ := fromDnsKey_ok h
  have hm := Rrsig.message_eq (r := r) (by rw [h4]; exact hn) out
  refine ⟨out, (C48_sorted cfg search hv set out hn).mp h1, by rw [← hm]; exact h2, ?_⟩
  have h5 := C48_order_independent cfg search search' hv hv' set rs hp out h1
  unfold Rrsig.verify
  rw [if_neg (by simp [h3]), h5, ← hm, ← h3]
  rfl

/-- C51 (partial): with a correct signature library a fresh signature verifies, whatever the order of
the records.  What is missing: RSA/SHA-256, RSA/SHA-512 and DSA, for which it is false. -/
theorem C51_fresh_signature_partial (cfg : Cfg) (c : Crypto) (search search' : Search)
    (hv : search.Valid) (hv' : search'.Valid) (k : DnsKey) (set : RRSet)
    (inception expiration : SysTime) (priv : Bytes) (r : Rrsig) (rs : List RecordData)
    (hp : rs.Perm set.records) (ha : k.algorithm ∉ [.RSA_SHA256, .RSA_SHA512, .DSA_SHA1])
    (hk : KeyPair c k.algorithm priv k.publicKey)
    (h : Rrsig.fromDnsKey cfg c search k set inception expiration priv = .ok r) :
    r.verify cfg c search' k { set with records := rs } = .ok true := by
  obtain ⟨out, h1, h2, _, h3, _⟩ := fromDnsKey_ok h
  have h5 := C48_order_independent cfg search search' hv hv' set rs hp out h1
  unfold Rrsig.verify
  rw [if_neg (by simp [h3]), h5]
  show Rrsig.verifyWith c r.algorithm k.publicKey (Rrsig.prehash c r.algorithm (r.verifyMessage out))
    r.signature = .ok true
  rw [h3]
  generalize r.verifyMessage out = m at h2
  generalize r.signature = sig at h2
  cases hal : k.algorithm with
  | RSA_MD5 =>
    rw [hal] at hk h2
    obtain ⟨n, e, k1, k2, _, k3⟩ := hk
    simp only [Rrsig.verifyWith, Rrsig.prehash, parseRsaKey_complete k1]
    refine (if_pos k2).trans ?_
    rw [k3 _ _ h2]; rfl
  | RSA_SHA1 =>
    rw [hal] at hk h2
    obtain ⟨n, e, k1, k2, _, k3⟩ := hk
    simp only [Rrsig.verifyWith, Rrsig.prehash, parseRsaKey_complete k1]
    refine (if_pos k2).trans ?_
    rw [k3 _ _ h2]; rfl
  | RSA_SHA256 => exact absurd (by simp [hal]) ha
  | RSA_SHA512 => exact absurd (by simp [hal]) ha
  | DSA_SHA1 => exact absurd (by simp [hal]) ha
  | ECDSA_P256 => rw [hal] at hk h2; exact congrArg Res.ok (hk _ _ h2)
  | ECDSA_P384 => rw [hal] at hk h2; exact congrArg Res.ok (hk _ _ h2)
  | ED25519 => rw [hal] at hk h2; exact congrArg Res.ok (hk _ _ h2)
  | ED448 =>
    rw [hal] at hk h2
    refine (if_pos hk.1).trans ?_
    exact congrArg Res.ok (hk.2 _ _ h2)
  | indirect => rw [hal] at h2; exact absurd h2 (by simp [SecAlgorithm.signData])
  | privateDns => rw [hal] at h2; exact absurd h2 (by simp [SecAlgorithm.signData])
  | privateOid => rw [hal] at h2; exact absurd h2 (by simp [SecAlgorithm.signData])

/-- C51: a library and a key as assumed. -/
example : KeyPair exCrypto .ED25519 [] (exKey .ED25519).publicKey ∧
    KeyPair exCrypto .RSA_SHA1 [] (exKey .RSA_SHA1).publicKey ∧
    (∃ r, Rrsig.fromDnsKey ⟨true, true, true⟩ exCrypto exSearch (exKey .RSA_SHA1) exSet 5000000 7000000 []
      = .ok r ∧ r.signature.length = 55) := by
  refine ⟨?_, ?_, Res.exists_ok (by decide +kernel)⟩
  · intro m sig h; cases h; simp [exCrypto]
  · refine ⟨5, 3, ⟨[3], [5], by simp [valueOf], by simp [valueOf], Or.inl ⟨by decide, by decide, rfl⟩⟩,
      rfl, rfl, ?_⟩
    intro t sig h; cases h; simp [exCrypto]

theorem append_ne_right {a b : Bytes} (h : a ≠ []) : a ++ b ≠ b := by
  intro he
  have := congrArg List.length he
  rw [List.length_append] at this
  exact h (List.length_eq_zero_iff.mp (by omega))

theorem orTodo_ok {x : Res Bytes} {sig : Bytes} (h : SecAlgorithm.orTodo x = .ok sig) : x = .ok sig := by
  cases x <;> simp_all [SecAlgorithm.orTodo]

/-- C51 is false for RSA/SHA-256 and RSA/SHA-512: if signatures verify only for what has been signed,
then a fresh signature is *never* accepted, because it is made over the digest with the prefix that
names the digest algorithm (RFC 8017, section 9.2), and verified over the bare digest. -/
theorem C51_rsa_sha2_never (cfg : Cfg) (c : Crypto) (search : Search) (k : DnsKey)
    (set : RRSet) (inception expiration : SysTime) (priv : Bytes) (r : Rrsig)
    (ha : k.algorithm = .RSA_SHA256 ∨ k.algorithm = .RSA_SHA512)
    (hk : ∀ n e t t' sig, c.rsaSign priv t = .ok sig → c.rsaVerify n e t' sig = true → t' = t)
    (h : Rrsig.fromDnsKey cfg c search k set inception expiration priv = .ok r) :
    r.verify cfg c search k set ≠ .ok true := by
  obtain ⟨out, h1, h2, _, h3, _⟩ := fromDnsKey_ok h
  unfold Rrsig.verify
  rw [if_neg (by simp [h3]), h1]
  show Rrsig.verifyWith c r.algorithm k.publicKey (Rrsig.prehash c r.algorithm (r.verifyMessage out))
    r.signature ≠ .ok true
  rw [h3]
  generalize r.verifyMessage out = m at h2
  generalize r.signature = sig at h2
  intro hok
  rcases ha with ha | ha
  all_goals
    rw [ha] at h2 hok
    obtain ⟨⟨e, n⟩, _, hok⟩ := Res.bind_ok.mp hok
    simp only [Rrsig.prehash] at hok
    simp only [SecAlgorithm.signData] at h2
    split at h2
    · have h2 := orTodo_ok h2
      split at hok
      · have := hk n e _ _ sig h2 (by exact Res.ok.inj hok)
        exact absurd this.symm (append_ne_right (by decide))
      · cases hok
    · cases h2

/-- C51: the library of the examples meets the condition. -/
example : ∀ priv n e t t' sig, exCrypto.rsaSign priv t = .ok sig → exCrypto.rsaVerify n e t' sig = true → t' = t := by
  intro priv n e t t' sig h1 h2
  have h3 : t = sig := by simpa [exCrypto] using h1
  have h4 : t' = sig := by simpa [exCrypto] using h2
  rw [h3, h4]

/-- C51 is false for RSA/SHA-256: a correct library, a key pair, and a fresh signature that is
refused. -/
theorem C51_rsa_counterexample : KeyPair exCrypto .RSA_SHA256 [] (exKey .RSA_SHA256).publicKey ∧
    ∃ r, Rrsig.fromDnsKey ⟨true, true, true⟩ exCrypto exSearch (exKey .RSA_SHA256) exSet 5000000 7000000 []
        = .ok r ∧
      r.verify ⟨true, true, true⟩ exCrypto exSearch (exKey .RSA_SHA256) exSet = .ok false := by
  refine ⟨?_, Res.exists_ok (by decide +kernel)⟩
  refine ⟨5, 3, ⟨[3], [5], by simp [valueOf], by simp [valueOf], Or.inl ⟨by decide, by decide, rfl⟩⟩,
      rfl, rfl, ?_⟩
  intro t sig h; cases h; simp [exCrypto]

/-- A DSA key with `t = 0`. -/
def exDsaKey : DnsKey := ⟨true, false, 3, .DSA_SHA1, 0 :: List.replicate 212 1⟩

/-- C51 is false for DSA: the signature is written as the numbers `r` and `s`, and read as DER, in which
a signature is a sequence and starts with the octet 48. -/
theorem C51_dsa_counterexample :
    (∀ sig, exCrypto.dsaSigOk sig = true → ∃ rest, sig = 0x30 :: rest) ∧
    ∃ r, Rrsig.fromDnsKey ⟨true, true, true⟩ exCrypto exSearch exDsaKey exSet 5000000 7000000 [] = .ok r ∧
      r.verify ⟨true, true, true⟩ exCrypto exSearch exDsaKey exSet = .err .dnsSecVerificationError := by
  refine ⟨?_, Res.exists_ok (by decide +kernel)⟩
  intro sig h
  cases sig with
  | nil => simp [exCrypto] at h
  | cons x xs => simp [exCrypto] at h; exact ⟨xs, by rw [h]⟩

/-! ## C53 -/

theorem parseDsaKey_ok {pub : Bytes} {p q g y : Nat} :
    (Rrsig.parseDsaKey pub 0).1 = .ok (p, q, g, y) ↔ ∃ key rest, pub = key ++ rest ∧ DsaKey key p q g y := by
  have hj : (Rrsig.parseDsaKey pub 0).1 = .ok (p, q, g, y) ↔
      ∃ j, Rrsig.parseDsaKey pub 0 = (.ok (p, q, g, y), j) := by
    constructor
    · intro h; exact ⟨(Rrsig.parseDsaKey pub 0).2, by rw [← h]⟩
    · rintro ⟨j, h⟩; rw [h]
  rw [hj]
  unfold Rrsig.parseDsaKey
  simp only [Parser.bind_ok, Parser.pure_ok, extractU8_ok, extractBytes_ok]
  constructor
  · rintro ⟨j, t, i1, h1, qo, i2, ⟨hq, h2⟩, po, i3, ⟨hp, h3⟩, go, i4, ⟨hg, h4⟩, yo, i5, ⟨hy, h5⟩, he, rfl⟩
    simp only [Prod.mk.injEq] at he
    obtain ⟨rfl, rfl, rfl, rfl⟩ := he
    obtain ⟨pre, post, e1, e2, e3⟩ := octets_append.mpr ⟨_, octets_append.mpr ⟨_, octets_append.mpr
      ⟨_, octets_append.mpr ⟨_, h1, h2⟩, h3⟩, h4⟩, h5⟩
    have hpre : pre = [] := List.length_eq_zero_iff.mp e2
    subst hpre
    refine ⟨_, post, e1, t, qo, po, go, yo, by simp, hq, by omega, by omega, by omega, ?_, ?_, ?_, ?_⟩ <;>
      exact (ofBE_value _).symm
  · rintro ⟨key, rest, rfl, t, qo, po, go, yo, rfl, hq, hp, hg, hy, rfl, rfl, rfl, rfl⟩
    have hall : Octets (t :: qo ++ po ++ go ++ yo ++ rest) 0 ([t] ++ qo ++ po ++ go ++ yo)
        ([t] ++ qo ++ po ++ go ++ yo).length := ⟨[], rest, by simp, rfl, by simp⟩
    obtain ⟨k4, h, h5⟩ := octets_append.mp hall
    obtain ⟨k3, h, h4⟩ := octets_append.mp h
    obtain ⟨k2, h, h3⟩ := octets_append.mp h
    obtain ⟨k1, h1, h2⟩ := octets_append.mp h
    refine ⟨_, t, k1, h1, qo, k2, ⟨hq, h2⟩, po, k3, ⟨by omega, h3⟩, go, k4, ⟨by omega, h4⟩, yo, _,
      ⟨by omega, h5⟩, ?_, rfl⟩
    simp only [ofBE_value]

theorem parseRsaKey_iff {pub : Bytes} {n e : Nat} :
    (Rrsig.parseRsaKey pub 0).1 = .ok (e, n) ↔ RsaKey pub n e :=
  ⟨fun h => parseRsaKey_ok (j := (Rrsig.parseRsaKey pub 0).2) (by rw [← h]), parseRsaKey_complete⟩

theorem verifyWith_iff {c : Crypto} {a : SecAlgorithm} {pub m sig : Bytes} :
    Rrsig.verifyWith c a pub (Rrsig.prehash c a m) sig = .ok true ↔ Accepts c a pub m sig := by
  have hif : ∀ (b : Bool) (x : Res Bool),
      (if b = true then x else .err .dnsSecVerificationError) = .ok true ↔ b = true ∧ x = .ok true := by
    intro b x; cases b <;> simp
  cases a
  case DSA_SHA1 =>
    simp only [Rrsig.verifyWith, Res.bind_ok, hif, Accepts, Rrsig.prehash]
    constructor
    · rintro ⟨⟨p, q, g, y⟩, h, h1, h2, h3⟩
      obtain ⟨key, rest, e1, e2⟩ := parseDsaKey_ok.mp h
      exact ⟨key, rest, p, q, g, y, e1, e2, h1, h2, Res.ok.inj h3⟩
    · rintro ⟨key, rest, p, q, g, y, e1, e2, h1, h2, h3⟩
      exact ⟨(p, q, g, y), parseDsaKey_ok.mpr ⟨key, rest, e1, e2⟩, h1, h2, congrArg Res.ok h3⟩
  case ECDSA_P256 => exact ⟨Res.ok.inj, congrArg Res.ok⟩
  case ECDSA_P384 => exact ⟨Res.ok.inj, congrArg Res.ok⟩
  case ED25519 => exact ⟨Res.ok.inj, congrArg Res.ok⟩
  case ED448 =>
    simp only [Rrsig.verifyWith, hif, Accepts, Rrsig.prehash]
    exact and_congr_right fun _ => ⟨Res.ok.inj, congrArg Res.ok⟩
  case indirect => exact ⟨fun h => absurd (Res.ok.inj h) (by decide), False.elim⟩
  case privateDns => exact ⟨fun h => absurd (Res.ok.inj h) (by decide), False.elim⟩
  case privateOid => exact ⟨fun h => absurd (Res.ok.inj h) (by decide), False.elim⟩
  all_goals
    simp only [Rrsig.verifyWith, Res.bind_ok, hif, Accepts, Rrsig.prehash]
    constructor
    · rintro ⟨⟨e, n⟩, h, h1, h2⟩
      exact ⟨n, e, parseRsaKey_iff.mp h, h1, Res.ok.inj h2⟩
    · rintro ⟨n, e, h, h1, h2⟩
      exact ⟨(e, n), parseRsaKey_iff.mpr h, h1, congrArg Res.ok h2⟩

/-- C53: a key of another algorithm is refused, whatever the library says. -/
theorem C53_mismatch (cfg : Cfg) (c : Crypto) (search : Search) (r : Rrsig) (k : DnsKey) (set : RRSet)
    (h : r.algorithm ≠ k.algorithm) : r.verify cfg c search k set = .err .dnsSecVerificationError :=
  if_pos h

example : (⟨.A, .ED448, 1, 60, 2, 1, 7, [[97]], [1]⟩ : Rrsig).verify ⟨true, true, true⟩ exCrypto exSearch
    (exKey .ED25519) exSet = .err .dnsSecVerificationError := by decide +kernel

/-- C53: algorithms that are not implemented never verify. -/
theorem C53_unimplemented (cfg : Cfg) (c : Crypto) (search : Search) (r : Rrsig) (k : DnsKey)
    (set : RRSet) (h : r.algorithm ∈ [.indirect, .privateDns, .privateOid]) :
    r.verify cfg c search k set ≠ .ok true := by
  intro hv
  unfold Rrsig.verify at hv
  split at hv
  · cases hv
  · obtain ⟨s, _, hv⟩ := Res.bind_ok.mp hv
    simp only [List.mem_cons, List.not_mem_nil, or_false] at h
    rcases h with h | h | h <;> (rw [h] at hv; exact verifyWith_iff.mp hv)
example (cfg : Cfg) (c : Crypto) (search : Search) (k : DnsKey) (set : RRSet) (s : Bytes) :
    Rrsig.verify cfg c search ⟨.A, .privateDns, 1, 5, 9, 8, 7, [[97]], s⟩ k set ≠ .ok true :=
  C53_unimplemented cfg c search _ k set (.tail _ (.head _))

/-- C53: a signature is accepted exactly if key and signature have the same algorithm and the library
accepts it, under the key of the DNSKEY record, for the octets of RFC 4034, section 3.1.8.1. -/
theorem C53_accepted (cfg : Cfg) (c : Crypto) (search : Search) (hs : search.Valid) (r : Rrsig)
    (k : DnsKey) (set : RRSet) (hn : ∀ l ∈ set.name, l ≠ []) (hr : ∀ l ∈ r.signersName, l ≠ []) :
    r.verify cfg c search k set = .ok true ↔
    r.algorithm = k.algorithm ∧ ∃ out, SortedRecords cfg set out ∧
      Accepts c r.algorithm k.publicKey (rrsigOctets r ++ out) r.signature := by
  unfold Rrsig.verify
  by_cases ha : r.algorithm = k.algorithm
  · rw [if_neg (by simp [ha]), Res.bind_ok]
    simp only [verifyWith_iff, ha, true_and]
    refine exists_congr fun out => ?_
    rw [C48_sorted cfg search hs set out hn, ← Rrsig.message_eq hr]
  · rw [if_pos ha]
    simp [ha]

/-- C53: a DSA key in the format of RFC 2536. -/
example : DsaKey exDsaKey.publicKey (valueOf (List.replicate 64 1)) (valueOf (List.replicate 20 1))
    (valueOf (List.replicate 64 1)) (valueOf (List.replicate 64 1)) :=
  ⟨0, List.replicate 20 1, List.replicate 64 1, List.replicate 64 1, List.replicate 64 1,
    by decide +kernel, rfl, rfl, rfl, rfl, rfl, rfl, rfl, rfl⟩

/-- C53: an accepted signature. -/
example : ∃ r, Rrsig.fromDnsKey ⟨true, true, true⟩ exCrypto exSearch (exKey .ED448) exSet 5000000 7000000 []
        = .ok r ∧ r.verify ⟨true, true, true⟩ exCrypto exSearch (exKey .ED448) exSet = .ok true ∧
      r.verify ⟨true, true, true⟩ exCrypto exSearch (exKey .ED25519) exSet = .err .dnsSecVerificationError :=
  Res.exists_ok (by decide +kernel)

/-! ## C54 -/

/-- C54 (partial): what the validity fields are: the times in *milliseconds* since the epoch modulo
2^32 (times are given in nanoseconds since the epoch).  RFC 4034 demands seconds. -/
theorem C54_times_partial (cfg : Cfg) (c : Crypto) (search : Search) (k : DnsKey) (set : RRSet)
    (inception expiration : SysTime) (priv : Bytes) (r : Rrsig)
    (h : Rrsig.fromDnsKey cfg c search k set inception expiration priv = .ok r) :
    0 ≤ inception ∧ 0 ≤ expiration ∧
    (r.sigInception.toNat : Int) = inception / 1000000 % 2 ^ 32 ∧
    (r.sigExpiration.toNat : Int) = expiration / 1000000 % 2 ^ 32 := by
  obtain ⟨_, _, _, _, _, _, _, he, hi, _⟩ := fromDnsKey_ok h
  have key : ∀ (t : SysTime) (v : UInt32), t.toField = .ok v →
      0 ≤ t ∧ (v.toNat : Int) = t / 1000000 % 2 ^ 32 := by
    intro t v hv
    unfold SysTime.toField at hv
    have e : ∀ t : Int, ¬ t < 0 → (0:Int) ≤ t := fun t h => by omega
    split at hv
    · cases hv
    · cases hv
      rename_i hneg
      have hneg := e t hneg
      refine ⟨hneg, ?_⟩
      rw [UInt32.toNat_ofNat']
      push_cast
      rw [Int.toNat_of_nonneg hneg]
  exact ⟨(key _ _ hi).1, (key _ _ he).1, (key _ _ hi).2, (key _ _ he).2⟩

/-- C54: times before the epoch are refused. -/
theorem C54_before_epoch (cfg : Cfg) (c : Crypto) (search : Search) (k : DnsKey) (set : RRSet)
    (inception expiration : SysTime) (priv : Bytes) (ht : inception < 0 ∨ expiration < 0) :
    Rrsig.fromDnsKey cfg c search k set inception expiration priv
      = .err .invalidDnsSecSignatureTimespan := by
  unfold Rrsig.fromDnsKey SysTime.toField
  by_cases he : expiration < 0
  · rw [if_pos he]; rfl
  · rw [if_neg he, if_pos (ht.resolve_right he)]; rfl

example : Rrsig.fromDnsKey ⟨true, true, true⟩ exCrypto exSearch (exKey .ED448) exSet (-1) 7000000 []
    = .err .invalidDnsSecSignatureTimespan := by decide +kernel

/-- C54 is false: a signature valid from 1 700 000 000 s on has another inception field. -/
theorem C54_counterexample : ∃ r,
    Rrsig.fromDnsKey ⟨true, true, true⟩ exCrypto exSearch (exKey .ED448) exSet
      1700000000000000000 1700086400000000000 [] = .ok r ∧
    r.sigInception.toNat ≠ 1700000000 ∧ r.sigExpiration.toNat ≠ 1700086400 :=
  Res.exists_ok (by decide +kernel)

/-! ## C60 -/

theorem nameOctets_inj {n m : Fqdn} {x y : Bytes} (hn : NameOk 255 n) (hm : NameOk 255 m)
    (h : nameOctets n ++ x = nameOctets m ++ y) : n = m ∧ x = y := by
  induction n generalizing m with
  | nil =>
    cases m with
    | nil => simpa [nameOctets] using h
    | cons l m =>
      have hl := hm l List.mem_cons_self
      simp only [nameOctets, List.map_nil, List.flatten_nil, List.nil_append, List.map_cons,
        List.flatten_cons, List.cons_append, List.cons.injEq] at h
      have := congrArg UInt8.toNat h.1
      rw [UInt8.toNat_ofNat_of_lt' (by simp [UInt8.size]; omega), UInt8.toNat_zero] at this
      omega
  | cons a n ih =>
    have ha := hn a List.mem_cons_self
    cases m with
    | nil =>
      simp only [nameOctets, List.map_nil, List.flatten_nil, List.nil_append, List.map_cons,
        List.flatten_cons, List.cons_append, List.cons.injEq] at h
      have := congrArg UInt8.toNat h.1
      rw [UInt8.toNat_ofNat_of_lt' (by simp [UInt8.size]; omega), UInt8.toNat_zero] at this
      omega
    | cons l m =>
      have hl := hm l List.mem_cons_self
      simp only [nameOctets, List.map_cons, List.flatten_cons, List.cons_append, List.append_assoc,
        List.cons.injEq] at h
      have h1 := congrArg UInt8.toNat h.1
      rw [UInt8.toNat_ofNat_of_lt' (by simp [UInt8.size]; omega),
        UInt8.toNat_ofNat_of_lt' (by simp [UInt8.size]; omega)] at h1
      obtain ⟨h2, h3⟩ := List.append_inj h.2 h1
      have := ih (m := m) (fun q hq => hn q (List.mem_cons_of_mem _ hq))
        (fun q hq => hm q (List.mem_cons_of_mem _ hq)) (by simpa [nameOctets] using h3)
      exact ⟨by rw [h2, this.1], this.2⟩

theorem octets16_inj {a b : UInt16} {x y : Bytes} (h : octets16 a ++ x = octets16 b ++ y) :
    a = b ∧ x = y := by
  obtain ⟨h1, h2⟩ := List.append_inj h rfl
  refine ⟨?_, h2⟩
  rw [← u16be_eq, ← u16be_eq] at h1
  have := congrArg ofBE h1
  rw [u16be, u16be, ofBE_toBE, ofBE_toBE] at this
  have ha := a.toNat_lt
  have hb := b.toNat_lt
  apply UInt16.toNat_inj.mp
  simpa [Nat.mod_eq_of_lt ha, Nat.mod_eq_of_lt hb] using this

theorem octets32_inj {a b : UInt32} {x y : Bytes} (h : octets32 a ++ x = octets32 b ++ y) :
    a = b ∧ x = y := by
  obtain ⟨h1, h2⟩ := List.append_inj h rfl
  refine ⟨?_, h2⟩
  rw [← u32be_eq, ← u32be_eq] at h1
  have := congrArg ofBE h1
  rw [u32be, u32be, ofBE_toBE, ofBE_toBE] at this
  have ha := a.toNat_lt
  have hb := b.toNat_lt
  apply UInt32.toNat_inj.mp
  simpa [Nat.mod_eq_of_lt ha, Nat.mod_eq_of_lt hb] using this

theorem secAlgorithm_inj {a b : SecAlgorithm}
    (h : UInt8.ofNat (secAlgorithmNumber a) = UInt8.ofNat (secAlgorithmNumber b)) : a = b := by
  cases a <;> cases b <;> first | rfl | exact absurd h (by decide)

theorem type_inj {a b : RecordType} (h : UInt16.ofNat (typeNumber a) = UInt16.ofNat (typeNumber b)) :
    a = b := by
  apply typeNumber_inj
  have := congrArg UInt16.toNat h
  rwa [UInt16.toNat_ofNat_of_lt' (by cases a <;> decide), UInt16.toNat_ofNat_of_lt' (by cases b <;> decide)]
    at this

theorem rrsigOctets_inj {r r' : Rrsig} {x y : Bytes} (hn : NameOk 255 r.signersName)
    (hn' : NameOk 255 r'.signersName) (h : rrsigOctets r ++ x = rrsigOctets r' ++ y) :
    r = { r' with signature := r.signature } ∧ x = y := by
  obtain ⟨t, a, l, ttl, e, i, k, n, sig⟩ := r
  obtain ⟨t', a', l', ttl', e', i', k', n', sig'⟩ := r'
  simp only [rrsigOctets, Items.octets, Item.octets, o16, o8, List.map_cons, List.map_nil,
    List.flatten_cons, List.flatten_nil, List.append_assoc, List.append_nil] at h
  obtain ⟨h1, h⟩ := octets16_inj h
  obtain ⟨h2, h⟩ := List.append_inj h rfl
  obtain ⟨h3, h⟩ := List.append_inj h rfl
  obtain ⟨h4, h⟩ := octets32_inj h
  obtain ⟨h5, h⟩ := octets32_inj h
  obtain ⟨h6, h⟩ := octets32_inj h
  obtain ⟨h7, h⟩ := octets16_inj h
  obtain ⟨h8, h⟩ := nameOctets_inj hn hn' h
  simp only [List.cons.injEq, and_true] at h2 h3
  have h8 : n = n' := h8
  have hxy := h
  clear h
  subst h3 h4 h5 h6 h7 h8
  exact ⟨by rw [type_inj h1, secAlgorithm_inj h2], hxy⟩

theorem rrOctets_inj {s t : RRSet} {a b x y : Bytes} (hs : NameOk 255 s.name) (ht : NameOk 255 t.name)
    (ha : a.length < 65536) (hb : b.length < 65536) (h : rrOctets s a ++ x = rrOctets t b ++ y) :
    (s.name = t.name ∧ s.type = t.type ∧ s.class_.toU16 = t.class_.toU16 ∧ s.ttl = t.ttl) ∧
      a = b ∧ x = y := by
  simp only [rrOctets, Items.octets, Item.octets, o16, List.map_cons, List.map_nil,
    List.flatten_cons, List.flatten_nil, List.append_assoc, List.append_nil] at h
  obtain ⟨h1, h⟩ := nameOctets_inj hs ht h
  obtain ⟨h2, h⟩ := octets16_inj h
  obtain ⟨h3, h⟩ := octets16_inj h
  obtain ⟨h4, h⟩ := octets32_inj h
  obtain ⟨h5, h⟩ := octets16_inj h
  have h6 := congrArg UInt16.toNat h5
  rw [UInt16.toNat_ofNat_of_lt' ha, UInt16.toNat_ofNat_of_lt' hb] at h6
  obtain ⟨h7, h⟩ := List.append_inj h h6
  exact ⟨⟨h1, type_inj h2, by rw [classNumber_eq, classNumber_eq, h3], h4⟩, h7, h⟩

theorem rrOctets_ne (s : RRSet) (a : Bytes) : rrOctets s a ≠ [] := by
  simp [rrOctets, Items.octets, Item.octets, nameOctets]

theorem records_inj {s t : RRSet} (hs : NameOk 255 s.name) (ht : NameOk 255 t.name) :
    ∀ (as bs : List Bytes), (∀ a ∈ as, a.length < 65536) → (∀ b ∈ bs, b.length < 65536) →
      (as.map (rrOctets s)).flatten = (bs.map (rrOctets t)).flatten → as = bs ∧
      (as ≠ [] → s.name = t.name ∧ s.type = t.type ∧ s.class_.toU16 = t.class_.toU16 ∧ s.ttl = t.ttl) := by
  intro as
  induction as with
  | nil =>
    intro bs _ _ h
    cases bs with
    | nil => exact ⟨rfl, fun h => absurd rfl h⟩
    | cons b bs =>
      have := congrArg List.length h
      have hne := List.length_pos_iff.mpr (rrOctets_ne t b)
      simp only [List.map_cons, List.flatten_cons, List.length_append, List.map_nil, List.flatten_nil,
        List.length_nil] at this
      omega
  | cons a as ih =>
    intro bs ha hb h
    cases bs with
    | nil =>
      have := congrArg List.length h
      have hne := List.length_pos_iff.mpr (rrOctets_ne s a)
      simp only [List.map_cons, List.flatten_cons, List.length_append, List.map_nil, List.flatten_nil,
        List.length_nil] at this
      omega
    | cons b bs =>
      rw [List.map_cons, List.map_cons, List.flatten_cons, List.flatten_cons] at h
      obtain ⟨h1, h2, h3⟩ := rrOctets_inj hs ht (ha a List.mem_cons_self) (hb b List.mem_cons_self) h
      obtain ⟨h4, _⟩ := ih bs (fun x hx => ha x (List.mem_cons_of_mem _ hx))
        (fun x hx => hb x (List.mem_cons_of_mem _ hx)) h3
      exact ⟨by rw [h2, h4], fun _ => h1⟩

/-- C60: the octets that are signed (RFC 4034, section 3.1.8.1: the RRSIG data without the signature, and the
records in order) say everything: two RRSIGs and two record sets with the same octets have the same fields
(but for the signature), the same records and, unless they have none, the same owner, type, class and TTL. -/
theorem C60_octets_determine (cfg : Cfg) (r r' : Rrsig) (set set' : RRSet) (out out' : Bytes)
    (hn : NameOk 255 set.name ∧ NameOk 255 set'.name ∧ NameOk 255 r.signersName ∧
      NameOk 255 r'.signersName)
    (hl : ∀ x ∈ set.records, ∀ b, x.toBytes cfg = .ok b → b.length < 65536)
    (hl' : ∀ x ∈ set'.records, ∀ b, x.toBytes cfg = .ok b → b.length < 65536)
    (h : SortedRecords cfg set out) (h' : SortedRecords cfg set' out')
    (he : rrsigOctets r ++ out = rrsigOctets r' ++ out') :
    { r with signature := [] } = { r' with signature := [] } ∧
      (set.records.map (RecordData.toBytes cfg)).Perm (set'.records.map (RecordData.toBytes cfg)) ∧
      (set.records ≠ [] → set.name = set'.name ∧ set.type = set'.type ∧
        set.class_.toU16 = set'.class_.toU16 ∧ set.ttl = set'.ttl) := by
  obtain ⟨n1, n2, n3, n4⟩ := hn
  obtain ⟨as, s1, _, s2⟩ := h
  obtain ⟨bs, t1, _, t2⟩ := h'
  obtain ⟨e1, e2⟩ := rrsigOctets_inj n3 n4 he
  have len : ∀ (s : RRSet) (xs : List Bytes), (xs.map Res.ok).Perm (s.records.map (RecordData.toBytes cfg)) →
      (∀ x ∈ s.records, ∀ b, x.toBytes cfg = .ok b → b.length < 65536) → ∀ x ∈ xs, x.length < 65536 := by
    intro s xs hp hl x hx
    obtain ⟨y, hy, hxy⟩ := List.mem_map.mp (hp.mem_iff.mp (List.mem_map_of_mem hx))
    exact hl y hy x hxy
  obtain ⟨f1, f2⟩ := records_inj n1 n2 as bs (len set as s1 hl) (len set' bs t1 hl')
    (by rw [← s2, ← t2, e2])
  refine ⟨by rw [e1], s1.symm.trans (by rw [f1]; exact t1), ?_⟩
  intro hne
  apply f2
  rintro rfl
  have := s1.length_eq
  simp at this
  exact hne (List.length_eq_zero_iff.mp this.symm)

/-- C60: the same octets from sets in a different order. -/
example : SortedRecords ⟨true, true, true⟩ exSet
      [1, 97, 0, 0, 1, 0, 1, 0, 0, 0, 60, 0, 4, 1, 0, 0, 0, 1, 97, 0, 0, 1, 0, 1, 0, 0, 0, 60, 0, 4, 2, 0, 0, 0] ∧
    SortedRecords ⟨true, true, true⟩ { exSet with records := exSet.records.reverse }
      [1, 97, 0, 0, 1, 0, 1, 0, 0, 0, 60, 0, 4, 1, 0, 0, 0, 1, 97, 0, 0, 1, 0, 1, 0, 0, 0, 60, 0, 4, 2, 0, 0, 0] := by
  refine ⟨⟨[[1, 0, 0, 0], [2, 0, 0, 0]], ?_, ?_, ?_⟩, ⟨[[1, 0, 0, 0], [2, 0, 0, 0]], ?_, ?_, ?_⟩⟩
  · exact List.Perm.swap _ _ _
  · simp only [List.pairwise_cons, List.mem_singleton, forall_eq, List.not_mem_nil, IsEmpty.forall_iff,
      implies_true, List.Pairwise.nil, and_self, and_true]
    exact Or.inl (List.Lex.rel (by decide))
  · decide +kernel
  · exact List.Perm.refl _
  · simp only [List.pairwise_cons, List.mem_singleton, forall_eq, List.not_mem_nil, IsEmpty.forall_iff,
      implies_true, List.Pairwise.nil, and_self, and_true]
    exact Or.inl (List.Lex.rel (by decide))
  · decide +kernel

/-- C60: if a signature is good for one message only, then no two RRSIGs that differ in any field
verify with this signature, and no two record sets with different records (or, unless they are
empty, with different owner, type, class or TTL). -/
theorem C60_signature_binds (cfg : Cfg) (c : Crypto) (search : Search) (hs : search.Valid) (k : DnsKey)
    (r r' : Rrsig) (set set' : RRSet) (m : Bytes)
    (hn : NameOk 255 set.name ∧ NameOk 255 set'.name ∧ NameOk 255 r.signersName ∧
      NameOk 255 r'.signersName)
    (hl : ∀ x ∈ set.records, ∀ b, x.toBytes cfg = .ok b → b.length < 65536)
    (hl' : ∀ x ∈ set'.records, ∀ b, x.toBytes cfg = .ok b → b.length < 65536)
    (hsig : r.signature = r'.signature) (hb : Binding c k.algorithm k.publicKey m r.signature)
    (h : r.verify cfg c search k set = .ok true) (h' : r'.verify cfg c search k set' = .ok true) :
    r = r' ∧
      (set.records.map (RecordData.toBytes cfg)).Perm (set'.records.map (RecordData.toBytes cfg)) ∧
      (set.records ≠ [] → set.name = set'.name ∧ set.type = set'.type ∧
        set.class_.toU16 = set'.class_.toU16 ∧ set.ttl = set'.ttl) := by
  obtain ⟨n1, n2, n3, n4⟩ := hn
  have ne : ∀ {n : Fqdn}, NameOk 255 n → ∀ l ∈ n, l ≠ [] :=
    fun hn l hl => List.length_pos_iff.mp (hn l hl).1
  obtain ⟨a1, out, s1, a2⟩ := (C53_accepted cfg c search hs r k set (ne n1) (ne n3)).mp h
  obtain ⟨b1, out', t1, b2⟩ := (C53_accepted cfg c search hs r' k set' (ne n2) (ne n4)).mp h'
  rw [a1] at a2
  rw [b1, ← hsig] at b2
  obtain ⟨e1, e2⟩ := C60_octets_determine cfg r r' set set' out out' ⟨n1, n2, n3, n4⟩ hl hl' s1 t1
    ((hb _ a2).trans (hb _ b2).symm)
  refine ⟨?_, e2⟩
  obtain ⟨t, a, l, ttl, e, i, k, n, sig⟩ := r
  obtain ⟨t', a', l', ttl', e', i', k', n', sig'⟩ := r'
  simp only [Rrsig.mk.injEq] at e1 hsig ⊢
  exact ⟨e1.1, e1.2.1, e1.2.2.1, e1.2.2.2.1, e1.2.2.2.2.1, e1.2.2.2.2.2.1, e1.2.2.2.2.2.2.1,
    e1.2.2.2.2.2.2.2.1, hsig⟩

/-- C60: a library with such signatures. -/
example (pub m : Bytes) : Binding exCrypto .ED25519 pub m m ∧ Binding exCrypto .RSA_MD5 pub m m := by
  constructor
  · intro m' h; simpa [exCrypto, Accepts] using h
  · rintro m' ⟨n, e, _, _, h⟩; simpa [exCrypto] using h

end Dns
