import Verif.Spec.Interop
import Verif.Lemmas.Forward
import Verif.Props.Receive
import Verif.Props.PlacedOwn
import Verif.Props.Chain

/-! C119: signatures of other implementations, and signatures for them. -/

namespace Dns
open Spec

theorem signedName_unique {l : Nat} {n a b : Fqdn} (ha : SignedName l n a) (hb : SignedName l n b) : a = b := by
  rcases ha with ⟨h1, rfl⟩ | ⟨h1, rfl⟩ <;> rcases hb with ⟨h2, rfl⟩ | ⟨h2, rfl⟩
  · rfl
  · omega
  · omega
  · rfl

theorem strict_nodup : ∀ {l : List Bytes}, l.Pairwise (List.Lex (· < ·)) → l.Nodup := by
  intro l h
  exact h.imp (fun {a b} hab e => by
    subst e
    exact absurd hab (List.lex_irrefl (fun x => by simp [UInt8.lt_irrefl]) a))

/-- The octets of each record are the ones that the RFC prescribes. -/
theorem octets_strict {cfg : Cfg} {d : RecordData} (hw : Writable cfg 191 d) (hww : WrittenWell d)
    (hl : lowerRecord d = d) (b : Bytes) :
    d.toBytes cfg = .ok b ↔ ∃ its, RDataStrict cfg (lowerRecord d) its ∧ b = Items.octets its := by
  rw [hl]
  obtain ⟨its, h1, h2⟩ := C38_write_partial cfg 191 d hw hww
  rw [h2]
  constructor
  · rintro h
    exact ⟨its, h1, (Res.ok.inj h).symm⟩
  · rintro ⟨its', h3, rfl⟩
    rw [strict_one h1 h3]

/-- The octets that the crate signs and verifies are the ones of RFC 4034. -/
theorem rfcOctets_iff {cfg : Cfg} {r : Rrsig} {s : RRSet} (h : CanonicalSet cfg r s.name s.records)
    (ht : r.typeCovered = s.type) (httl : r.originalTtl = s.ttl) (m : Bytes) :
    RfcOctets cfg r s.name s.class_ s.records m ↔ ∃ out, SortedRecords cfg s out ∧ m = rrsigOctets r ++ out := by
  obtain ⟨⟨_, hn⟩, ⟨_, hsn⟩, hw, hd, hr⟩ := h
  have hr' : ({ r with signersName := lowerName r.signersName } : Rrsig) = r := by rw [hsn]
  have hmem : ∀ b, Res.ok b ∈ s.records.map (RecordData.toBytes cfg) ↔
      ∃ d ∈ s.records, ∃ its, RDataStrict cfg (lowerRecord d) its ∧ b = Items.octets its := by
    intro b
    rw [List.mem_map]
    constructor
    · rintro ⟨d, h1, h2⟩
      obtain ⟨_, h3, h4, h5⟩ := hr d h1
      exact ⟨d, h1, (octets_strict h3 h4 h5 b).mp h2⟩
    · rintro ⟨d, h1, h2⟩
      obtain ⟨_, h3, h4, h5⟩ := hr d h1
      exact ⟨d, h1, (octets_strict h3 h4 h5 b).mpr h2⟩
  have hok : ∀ x ∈ s.records.map (RecordData.toBytes cfg), ∃ b, x = Res.ok b := by
    intro x hx
    obtain ⟨d, h1, rfl⟩ := List.mem_map.mp hx
    obtain ⟨_, h3, h4, _⟩ := hr d h1
    obtain ⟨its, _, h6⟩ := C38_write_partial cfg 191 d h3 h4
    exact ⟨_, h6⟩
  have hnd : (s.records.map (RecordData.toBytes cfg)).Nodup := by
    refine List.Nodup.map_on ?_ hd
    intro a ha b hb hab
    obtain ⟨a1, a2, a3, _⟩ := hr a ha
    obtain ⟨b1, b2, _⟩ := hr b hb
    obtain ⟨its, _, h6⟩ := C38_write_partial cfg 191 a a2 a3
    exact data_same a2 b2 (a1.trans b1.symm) h6 (hab ▸ h6)
  have hset : ∀ x, rrOctets ⟨s.name, r.typeCovered, s.class_, r.originalTtl, s.records⟩ x = rrOctets s x := by
    intro x
    rw [ht, httl]
  constructor
  · rintro ⟨owner, rdatas, h1, h2, h3, rfl⟩
    rw [hn] at h1
    have := signedName_unique h1 hw
    subst this
    rw [hr']
    refine ⟨_, ⟨rdatas, ?_, h2.imp (fun h => Or.inl h), rfl⟩, ?_⟩
    · refine (List.perm_ext_iff_of_nodup ?_ hnd).mpr ?_
      · exact (strict_nodup h2).map (fun a b e => Res.ok.inj e)
      · intro x
        constructor
        · intro hx
          obtain ⟨b, hb, rfl⟩ := List.mem_map.mp hx
          exact (hmem b).mpr ((h3 b).mp hb)
        · intro hx
          obtain ⟨b, rfl⟩ := hok x hx
          exact List.mem_map_of_mem ((h3 b).mpr ((hmem b).mp hx))
    · rw [List.map_congr_left (fun x _ => hset x)]
  · rintro ⟨out, ⟨rdatas, h1, h2, rfl⟩, rfl⟩
    refine ⟨s.name, rdatas, ?_, ?_, ?_, ?_⟩
    · rw [hn]
      exact hw
    · exact sorted_strict h2 (List.Nodup.of_map _ (h1.nodup_iff.mpr hnd))
    · intro b
      rw [← hmem b, ← h1.mem_iff]
      constructor
      · exact fun h => List.mem_map_of_mem h
      · intro h
        obtain ⟨x, hx, e⟩ := List.mem_map.mp h
        cases e
        exact hx
    · rw [hr', List.map_congr_left (fun x _ => hset x)]

theorem rsaKey_unique {pub : Bytes} {n e n' e' : Nat} (h : RsaKey pub n e) (h' : RsaKey pub n' e') :
    n = n' ∧ e = e' := by
  have h1 := parseRsaKey_complete h
  rw [parseRsaKey_complete h'] at h1
  cases h1
  exact ⟨rfl, rfl⟩

theorem prefix_ne {p d : Bytes} (hp : p ≠ []) : p ++ d ≠ d := by
  intro h
  have := congrArg List.length h
  simp only [List.length_append] at this
  exact hp (List.length_eq_zero_iff.mp (by omega))

/-- The libraries accept the signatures of the RFCs for the algorithms of RFC 8080, and for no other. -/
theorem rfc_accepts {c : Crypto} {S : Schemes} (hi : Implements c S) (hd : RsaDetermines S) {a : SecAlgorithm}
    {pub m sig : Bytes} (h : RfcValid S a pub m sig) : Accepts c a pub m sig ↔ a ∈ edAlgorithms := by
  cases a with
  | ED25519 => exact iff_of_true ((hi.ed25519Verify _ _ _).mpr h) (by decide)
  | ED448 => exact iff_of_true ((hi.ed448Verify _ _ _).mpr h) (by decide)
  | RSA_MD5 =>
    refine iff_of_false ?_ (by decide)
    obtain ⟨n, e, h1, h2⟩ := h
    rintro ⟨n', e', h3, h4, h5⟩
    obtain ⟨rfl, rfl⟩ := rsaKey_unique h1 h3
    rw [hi.rsaVerify _ _ _ _ h4, hi.md5] at h5
    exact prefix_ne (by decide) (hd _ _ _ _ _ h2 h5)
  | RSA_SHA1 =>
    refine iff_of_false ?_ (by decide)
    obtain ⟨n, e, h1, h2⟩ := h
    rintro ⟨n', e', h3, h4, h5⟩
    obtain ⟨rfl, rfl⟩ := rsaKey_unique h1 h3
    rw [hi.rsaVerify _ _ _ _ h4, hi.sha1] at h5
    exact prefix_ne (by decide) (hd _ _ _ _ _ h2 h5)
  | RSA_SHA256 =>
    refine iff_of_false ?_ (by decide)
    obtain ⟨n, e, h1, h2⟩ := h
    rintro ⟨n', e', h3, h4, h5⟩
    obtain ⟨rfl, rfl⟩ := rsaKey_unique h1 h3
    rw [hi.rsaVerify _ _ _ _ h4, hi.sha256] at h5
    exact prefix_ne (by decide) (hd _ _ _ _ _ h2 h5)
  | RSA_SHA512 =>
    refine iff_of_false ?_ (by decide)
    obtain ⟨n, e, h1, h2⟩ := h
    rintro ⟨n', e', h3, h4, h5⟩
    obtain ⟨rfl, rfl⟩ := rsaKey_unique h1 h3
    rw [hi.rsaVerify _ _ _ _ h4, hi.sha512] at h5
    exact prefix_ne (by decide) (hd _ _ _ _ _ h2 h5)
  | DSA_SHA1 =>
    refine iff_of_false ?_ (by decide)
    obtain ⟨p, q, g, y, t, r, s, _, _, h1, h2, _⟩ := h
    rintro ⟨_, _, _, _, _, _, _, _, _, h3, _⟩
    obtain ⟨rest, h4⟩ := hi.dsaSig sig h3
    rw [h2] at h4
    cases h4
    exact absurd h1 (by decide)
  | ECDSA_P256 =>
    refine iff_of_false ?_ (by decide)
    obtain ⟨x, y, r, s, h1, h2, h3, _⟩ := h
    intro h4
    obtain ⟨x', y', r', s', h5, h6, h7, _⟩ := (hi.ecdsa256Verify _ _ _).mp h4
    have := congrArg List.length (h1.symm.trans h5)
    simp only [List.length_append, List.length_cons] at this
    omega
  | ECDSA_P384 =>
    refine iff_of_false ?_ (by decide)
    obtain ⟨x, y, r, s, h1, h2, h3, _⟩ := h
    intro h4
    obtain ⟨x', y', r', s', h5, h6, h7, _⟩ := (hi.ecdsa384Verify _ _ _).mp h4
    have := congrArg List.length (h1.symm.trans h5)
    simp only [List.length_append, List.length_cons] at this
    omega
  | indirect => exact h.elim
  | privateDns => exact h.elim
  | privateOid => exact h.elim

theorem ed_accepts {c : Crypto} {S : Schemes} (hi : Implements c S) {a : SecAlgorithm} (ha : a ∈ edAlgorithms)
    {pub m sig : Bytes} : Accepts c a pub m sig ↔ RfcValid S a pub m sig := by
  cases a with
  | ED25519 => exact hi.ed25519Verify _ _ _
  | ED448 => exact hi.ed448Verify _ _ _
  | _ => exact absurd ha (by decide)

/-- C119 (partial): `verify` accepts exactly the signatures that the RFCs define, if the algorithm is Ed25519 or Ed448
and the set needs no conversion to the canonical form.  What is missing: the other algorithms, upper case letters,
wildcards, records that are there twice (all false, see `C119_accepts_exact` and the counterexamples), and data that are
not written as the RFCs demand (C38). -/
theorem C119_verify_partial (cfg : Cfg) (c : Crypto) (S : Schemes) (hi : Implements c S) (search : Search)
    (hs : search.Valid) (r : Rrsig) (k : DnsKey) (s : RRSet) (h : CanonicalSet cfg r s.name s.records)
    (ht : r.typeCovered = s.type) (httl : r.originalTtl = s.ttl) (ha : r.algorithm ∈ edAlgorithms) :
    r.verify cfg c search k s = .ok true ↔ RfcSigned S cfg r k s.name s.class_ s.records := by
  rw [C53_accepted cfg c search hs r k s (h.owner.1.mono (show 63 ≤ 255 by decide)).nonempty
    (h.signer.1.mono (show 63 ≤ 255 by decide)).nonempty]
  refine and_congr_right fun _ => ?_
  constructor
  · rintro ⟨out, h1, h2⟩
    exact ⟨_, (rfcOctets_iff h ht httl _).mpr ⟨out, h1, rfl⟩, (ed_accepts hi ha).mp h2⟩
  · rintro ⟨m, h1, h2⟩
    obtain ⟨out, h3, rfl⟩ := (rfcOctets_iff h ht httl _).mp h1
    exact ⟨out, h3, (ed_accepts hi ha).mpr h2⟩

theorem sorted_one {cfg : Cfg} {s : RRSet} {a b : Bytes} (ha : SortedRecords cfg s a) (hb : SortedRecords cfg s b) :
    a = b := by
  obtain ⟨x, h1, h2, rfl⟩ := ha
  obtain ⟨y, h3, h4, rfl⟩ := hb
  have h5 : x.Perm y := by
    refine perm_of_map (f := Res.ok) (h1.trans h3.symm) ?_
    intro a _ b _ e
    exact Res.ok.inj e
  rw [sorted_unique h5 h2 h4]

/-- C119, exactly: a signature that another implementation has made as the RFCs define it is accepted if and only if the
algorithm is Ed25519 or Ed448: those of RSA are refused because the name of the digest algorithm in front of the digest
is not expected, those of DSA because another form is expected, and those of ECDSA because the key is expected with an
octet in front of it. -/
theorem C119_accepts_exact (cfg : Cfg) (c : Crypto) (S : Schemes) (hi : Implements c S) (hd : RsaDetermines S)
    (search : Search) (hs : search.Valid) (r : Rrsig) (k : DnsKey) (s : RRSet)
    (h : CanonicalSet cfg r s.name s.records) (ht : r.typeCovered = s.type) (httl : r.originalTtl = s.ttl)
    (hr : RfcSigned S cfg r k s.name s.class_ s.records) :
    r.verify cfg c search k s = .ok true ↔ r.algorithm ∈ edAlgorithms := by
  constructor
  · intro hv
    obtain ⟨_, out, h1, h2⟩ := (C53_accepted cfg c search hs r k s
      (h.owner.1.mono (show 63 ≤ 255 by decide)).nonempty (h.signer.1.mono (show 63 ≤ 255 by decide)).nonempty).mp hv
    obtain ⟨_, m, h3, h4⟩ := hr
    obtain ⟨out', h5, rfl⟩ := (rfcOctets_iff h ht httl _).mp h3
    rw [sorted_one h1 h5] at h2
    exact (rfc_accepts hi hd h4).mp h2
  · intro ha
    exact (C119_verify_partial cfg c S hi search hs r k s h ht httl ha).mpr hr

/-- C119, exactly for messages: an answer with a signature that another implementation has made and sent as the RFCs
define it is read, and the signature is accepted if and only if the algorithm is Ed25519 or Ed448. -/
theorem C119_message_exact (cfg : Cfg) (c : Crypto) (S : Schemes) (hi : Implements c S) (hd : RsaDetermines S)
    (search : Search) (hs : search.Valid) (d : Bytes) (p : Packet) (e : Nat) (h : ReceivedMessage cfg d p e)
    (hv : ∀ r ∈ records p, Writable cfg 63 r.rdata) (hr : ∀ r ∈ records p, ReadWell r.rdata)
    (x y : ResourceRecord) (r : Rrsig) (k : DnsKey) (hx : x ∈ p.answers ∧ x.rdata = .RRSIG r)
    (hy : y ∈ p.additional ∧ y.rdata = .DNSKEY k)
    (hc : CanonicalSet cfg r x.name (answersOf p x.name r.typeCovered))
    (hsig : RfcSigned S cfg r k x.name x.class_ (answersOf p x.name r.typeCovered)) :
    Packet.parse cfg d = .ok p ∧ (Validates cfg c search p x y ↔ r.algorithm ∈ edAlgorithms) := by
  refine ⟨(C99_received_partial cfg d p e h hv hr).1, ?_⟩
  rw [← C119_accepts_exact cfg c S hi hd search hs r k
    ⟨x.name, r.typeCovered, x.class_, r.originalTtl, answersOf p x.name r.typeCovered⟩ hc rfl rfl hsig]
  constructor
  · rintro ⟨_, _, r', k', e1, e2, h3⟩
    rw [hx.2] at e1
    rw [hy.2] at e2
    cases e1
    cases e2
    exact h3
  · intro h3
    exact ⟨hx.1, hy.1, r, k, hx.2, hy.2, h3⟩


theorem rfc_signs {c : Crypto} {S : Schemes} (hi : Implements c S) (hd : RsaDetermines S) {a : SecAlgorithm}
    {priv pub m sig : Bytes} (hk : RfcPair S a priv pub) (h : a.signData c m priv = .ok sig) :
    RfcValid S a pub m sig ↔ a ∉ [.RSA_MD5, .RSA_SHA1, .DSA_SHA1] := by
  cases a with
  | ED25519 =>
    refine iff_of_true ?_ (by decide)
    obtain ⟨h1, h2⟩ := hi.ed25519Sign _ _ _ _ hk.2 h
    exact ⟨hk.1, h1, h2⟩
  | ED448 =>
    refine iff_of_true ?_ (by decide)
    obtain ⟨h1, h2⟩ := hi.ed448Sign _ _ _ _ hk.2 h
    exact ⟨hk.1, h1, h2⟩
  | ECDSA_P256 =>
    refine iff_of_true ?_ (by decide)
    obtain ⟨x, y, h1, h2, h3, h4⟩ := hk
    obtain ⟨r, s, h5, h6, h7, h8⟩ := hi.ecdsa256Sign _ _ _ _ _ h4 h
    exact ⟨x, y, r, s, h1, h2, h3, h5, h6, h7, h8⟩
  | ECDSA_P384 =>
    refine iff_of_true ?_ (by decide)
    obtain ⟨x, y, h1, h2, h3, h4⟩ := hk
    obtain ⟨r, s, h5, h6, h7, h8⟩ := hi.ecdsa384Sign _ _ _ _ _ h4 h
    exact ⟨x, y, r, s, h1, h2, h3, h5, h6, h7, h8⟩
  | RSA_SHA256 =>
    refine iff_of_true ?_ (by decide)
    obtain ⟨n, e, h1, h2⟩ := hk
    refine ⟨n, e, h1, hi.rsaSign priv n e _ sig h2 ?_⟩
    rw [← hi.sha256]
    have h : (if c.ringRsaPrivOk priv = true then SecAlgorithm.orTodo (c.rsaSign priv (infoSha256 ++ c.sha256 m))
      else .err .dnsSecSigningError) = .ok sig := h
    split at h
    · revert h
      cases c.rsaSign priv (infoSha256 ++ c.sha256 m) <;> simp [SecAlgorithm.orTodo]
    · cases h
  | RSA_SHA512 =>
    refine iff_of_true ?_ (by decide)
    obtain ⟨n, e, h1, h2⟩ := hk
    refine ⟨n, e, h1, hi.rsaSign priv n e _ sig h2 ?_⟩
    rw [← hi.sha512]
    have h : (if c.ringRsaPrivOk priv = true then SecAlgorithm.orTodo (c.rsaSign priv (infoSha512 ++ c.sha512 m))
      else .err .dnsSecSigningError) = .ok sig := h
    split at h
    · revert h
      cases c.rsaSign priv (infoSha512 ++ c.sha512 m) <;> simp [SecAlgorithm.orTodo]
    · cases h
  | RSA_MD5 =>
    refine iff_of_false ?_ (by decide)
    obtain ⟨n, e, h1, h2⟩ := hk
    rintro ⟨n', e', h3, h4⟩
    obtain ⟨rfl, rfl⟩ := rsaKey_unique h1 h3
    have h5 := hi.rsaSign priv n e (c.md5 m) sig h2 h
    rw [hi.md5] at h5
    exact prefix_ne (by decide) (hd _ _ _ _ _ h4 h5)
  | RSA_SHA1 =>
    refine iff_of_false ?_ (by decide)
    obtain ⟨n, e, h1, h2⟩ := hk
    rintro ⟨n', e', h3, h4⟩
    obtain ⟨rfl, rfl⟩ := rsaKey_unique h1 h3
    have h5 := hi.rsaSign priv n e (c.sha1 m) sig h2 h
    rw [hi.sha1] at h5
    exact prefix_ne (by decide) (hd _ _ _ _ _ h4 h5)
  | DSA_SHA1 =>
    refine iff_of_false ?_ (by decide)
    obtain ⟨p, q, g, y, _, hk⟩ := hk
    rintro ⟨_, _, _, _, t, r, s, _, _, _, h2, h3, h4, _⟩
    obtain ⟨rs, h5, h6⟩ := Res.bind_ok.mp h
    obtain ⟨h7, h8⟩ := hi.dsaSign _ _ _ _ _ _ _ hk h5
    have := congrArg List.length (Res.ok.inj h6)
    rw [h2] at this
    simp only [List.length_append, List.length_cons] at this
    omega
  | indirect => exact hk.elim
  | privateDns => exact hk.elim
  | privateOid => exact hk.elim

/-- C119, exactly: what `from_dnskey` makes with a key pair of the RFCs is a signature as the RFCs define it if and only if
the algorithm is not RSA/MD5 or RSA/SHA-1, where the name of the digest algorithm is missing in front of the digest, and
not DSA, where the octet T is missing in front of the signature.  (For the names in the signature see C72 and C77, for the
times C54.) -/
theorem C119_signs_exact (cfg : Cfg) (c : Crypto) (S : Schemes) (hi : Implements c S) (hd : RsaDetermines S)
    (search : Search) (hs : search.Valid) (k : DnsKey) (s : RRSet) (inception expiration : SysTime) (priv : Bytes)
    (r : Rrsig) (hk : RfcPair S k.algorithm priv k.publicKey)
    (h : Rrsig.fromDnsKey cfg c search k s inception expiration priv = .ok r)
    (hc : CanonicalSet cfg r s.name s.records) :
    RfcSigned S cfg r k s.name s.class_ s.records ↔ k.algorithm ∉ [.RSA_MD5, .RSA_SHA1, .DSA_SHA1] := by
  obtain ⟨out, e1, e2, e3, e4, e5, e6, e7, e8, e9, e10⟩ := fromDnsKey_ok h
  have hn := (hc.owner.1.mono (show 63 ≤ 255 by decide)).nonempty
  have h1 := (C48_sorted cfg search hs s out hn).mp e1
  rw [Rrsig.message_eq (hc.signer.1.mono (show 63 ≤ 255 by decide)).nonempty] at e2
  rw [← rfc_signs hi hd hk e2]
  constructor
  · rintro ⟨_, m, h2, h3⟩
    obtain ⟨out', h4, rfl⟩ := (rfcOctets_iff hc e3 e6 m).mp h2
    rw [e4, sorted_one h4 h1] at h3
    exact h3
  · intro h2
    exact ⟨e4, _, (rfcOctets_iff hc e3 e6 _).mpr ⟨out, h1, rfl⟩, by rw [e4]; exact h2⟩


/-! ### Examples -/

/-- Schemes in which one message has a signature of Ed25519, which is 64 zeros, with the key of 32 zeros. -/
def exSchemes (m : Bytes) : Schemes where
  md5 := id
  sha1 := id
  sha256 := id
  sha512 := id
  rsaKey _ _ _ := True
  rsa _ _ t sig := t = sig
  dsaKey _ _ _ _ _ := False
  dsa _ _ _ _ _ _ _ := False
  ecdsa256Key _ _ _ := False
  ecdsa256 _ _ _ _ _ := False
  ecdsa384Key _ _ _ := False
  ecdsa384 _ _ _ _ _ := False
  ed25519Key _ _ := False
  ed25519 pub msg sig := pub = List.replicate 32 0 ∧ sig = List.replicate 64 0 ∧ msg = m
  ed448Key _ _ := False
  ed448 _ _ _ := False

/-- A library for them. -/
def exLibrary (m : Bytes) : Crypto where
  md5 := id
  sha1 := id
  sha256 := id
  sha384 := id
  sha512 := id
  rsaSign _ t := .ok t
  ringRsaPrivOk _ := true
  rsaKeyOk _ _ := true
  rsaVerify _ _ t sig := t == sig
  dsaSign _ _ := .err .dnsSecSigningError
  dsaKeyOk _ _ _ _ := false
  dsaSigOk _ := false
  dsaVerify _ _ _ _ _ _ := false
  ecdsa256Sign _ _ := .err .dnsSecSigningError
  ecdsa256Verify _ _ _ := false
  ecdsa384Sign _ _ := .err .dnsSecSigningError
  ecdsa384Verify _ _ _ := false
  ed25519Sign _ _ := .err .dnsSecSigningError
  ed25519Verify pub msg sig := pub == List.replicate 32 0 && sig == List.replicate 64 0 && msg == m
  ed448Sign _ _ := .err .dnsSecSigningError
  ed448KeyOk _ := false
  ed448Verify _ _ _ := false

theorem exLibrary_implements (m : Bytes) : Implements (exLibrary m) (exSchemes m) where
  md5 := rfl
  sha1 := rfl
  sha256 := rfl
  sha512 := rfl
  rsaVerify n e t sig _ := by simp [exLibrary, exSchemes]
  rsaSign priv n e t sig _ h := Res.ok.inj h
  dsaSig sig h := by cases h
  dsaSign _ _ _ _ _ _ _ h := h.elim
  ecdsa256Verify pub msg sig := by simp [exLibrary, exSchemes]
  ecdsa256Sign _ _ _ _ _ h := h.elim
  ecdsa384Verify pub msg sig := by simp [exLibrary, exSchemes]
  ecdsa384Sign _ _ _ _ _ h := h.elim
  ed25519Verify pub msg sig := by
    simp only [exLibrary, exSchemes, Bool.and_eq_true, beq_iff_eq, and_assoc]
    constructor
    · rintro ⟨rfl, rfl, h⟩
      exact ⟨by decide, by decide, rfl, rfl, h⟩
    · rintro ⟨_, _, h⟩
      exact h
  ed25519Sign _ _ _ _ h := h.elim
  ed448Verify pub msg sig := by simp [exLibrary, exSchemes]
  ed448Sign _ _ _ _ h := h.elim

theorem exSchemes_determines (m : Bytes) : RsaDetermines (exSchemes m) := by
  intro n e t t' sig h h'
  exact Eq.trans h (Eq.symm h')

/-- The octets that are signed for two addresses of the name `a`. -/
def exSignedOctets : Bytes :=
  [0, 1, 15, 1, 0, 0, 0, 60, 0, 0, 0, 7, 0, 0, 0, 5, 0, 9, 0, 1, 97, 0, 0, 1, 0, 1, 0, 0, 0, 60,
   0, 4, 1, 0, 0, 0, 1, 97, 0, 0, 1, 0, 1, 0, 0, 0, 60, 0, 4, 2, 0, 0, 0]

/-- The signature of another implementation. -/
def exEdSig : Rrsig := ⟨.A, .ED25519, 1, 60, 7, 5, 9, [], List.replicate 64 0⟩

/-- Its key. -/
def exEdKey : DnsKey := ⟨true, false, 3, .ED25519, List.replicate 32 0⟩

theorem exSet_rfc {r : Rrsig} {n : Fqdn} {out : Bytes} (owner : Fqdn)
    (hn : SignedName r.labels.toNat (lowerName n) owner)
    (hm : out = rrsigOctets { r with signersName := lowerName r.signersName } ++
      (rrOctets ⟨owner, r.typeCovered, .IN, r.originalTtl, exSet.records⟩ [1, 0, 0, 0] ++
        rrOctets ⟨owner, r.typeCovered, .IN, r.originalTtl, exSet.records⟩ [2, 0, 0, 0])) :
    RfcOctets ⟨true, true, true⟩ r n .IN exSet.records out := by
  refine ⟨owner, [[1, 0, 0, 0], [2, 0, 0, 0]], hn, ?_, ?_, ?_⟩
  · simp only [List.pairwise_cons, List.mem_singleton, forall_eq, List.not_mem_nil, IsEmpty.forall_iff,
      implies_true, List.Pairwise.nil, and_self, and_true]
    exact List.Lex.rel (by decide)
  · intro b
    simp only [exSet, List.mem_cons, List.not_mem_nil, or_false, exists_eq_or_imp, exists_eq_left]
    show _ ↔ (∃ its, its = [Item.u32 0x02000000] ∧ _) ∨ (∃ its, its = [Item.u32 0x01000000] ∧ _)
    simp only [exists_eq_left]
    rw [show Items.octets [Item.u32 0x02000000] = [2, 0, 0, 0] by decide,
      show Items.octets [Item.u32 0x01000000] = [1, 0, 0, 0] by decide]
    exact or_comm
  · rw [hm]
    simp

/-- C119: the hypotheses are met by a set with a signature of Ed25519 of another implementation, and it is accepted. -/
example : Implements (exLibrary exSignedOctets) (exSchemes exSignedOctets) ∧ RsaDetermines (exSchemes exSignedOctets) ∧
    exSearch.Valid ∧ CanonicalSet ⟨true, true, true⟩ exEdSig exSet.name exSet.records ∧
    RfcSigned (exSchemes exSignedOctets) ⟨true, true, true⟩ exEdSig exEdKey exSet.name exSet.class_ exSet.records ∧
    exEdSig.algorithm ∈ edAlgorithms ∧
    exEdSig.verify ⟨true, true, true⟩ (exLibrary exSignedOctets) exSearch exEdKey exSet = .ok true := by
  refine ⟨exLibrary_implements _, exSchemes_determines _, exSearch_valid, ⟨⟨by decide, by decide⟩, ⟨by decide, by decide⟩,
    Or.inl ⟨by decide, rfl⟩, by decide, ?_⟩, ⟨rfl, exSignedOctets, exSet_rfc [[97]] (Or.inl ⟨by decide, by decide⟩)
      (by decide +kernel), by decide, by decide, rfl, rfl, rfl⟩, by decide, by decide +kernel⟩
  intro d hd
  simp only [exSet, List.mem_cons, List.not_mem_nil, or_false] at hd
  rcases hd with rfl | rfl
  · exact ⟨rfl, trivial, trivial, rfl⟩
  · exact ⟨rfl, trivial, trivial, rfl⟩

/-- C119, counterexamples: signatures of Ed25519 as the RFCs define them that are refused.  The owner has an upper case
letter, the signer's name has one, or the set was made of a wildcard. -/
theorem C119_counterexamples : ∀ x ∈ ([
      ({ exSet with name := [[0x41]] }, exEdSig, exSignedOctets),
      (exSet, { exEdSig with signersName := [[0x41]] },
        exSignedOctets.take 18 ++ [1, 97, 0] ++ exSignedOctets.drop 19),
      ({ exSet with name := [[98], [97]] }, exEdSig,
        exSignedOctets.take 19 ++ [1, 0x2A] ++ (exSignedOctets.drop 19).take 17 ++ [1, 0x2A] ++
          exSignedOctets.drop 36)] : List (RRSet × Rrsig × Bytes)),
    Implements (exLibrary x.2.2) (exSchemes x.2.2) ∧
    RfcSigned (exSchemes x.2.2) ⟨true, true, true⟩ x.2.1 exEdKey x.1.name x.1.class_ x.1.records ∧
    x.2.1.typeCovered = x.1.type ∧ x.2.1.originalTtl = x.1.ttl ∧
    x.2.1.verify ⟨true, true, true⟩ (exLibrary x.2.2) exSearch exEdKey x.1 = .ok false := by
  intro x hx
  simp only [List.mem_cons, List.not_mem_nil, or_false] at hx
  refine ⟨exLibrary_implements _, ?_⟩
  rcases hx with rfl | rfl | rfl
  · exact ⟨⟨rfl, _, exSet_rfc [[97]] (Or.inl ⟨by decide, by decide⟩) (by decide +kernel), by decide, by decide,
      rfl, rfl, rfl⟩, rfl, rfl, by decide +kernel⟩
  · exact ⟨⟨rfl, _, exSet_rfc [[97]] (Or.inl ⟨by decide, by decide⟩) (by decide +kernel), by decide, by decide,
      rfl, rfl, rfl⟩, rfl, rfl, by decide +kernel⟩
  · exact ⟨⟨rfl, _, exSet_rfc [[0x2A], [97]] (Or.inr ⟨by decide, by decide⟩) (by decide +kernel), by decide, by decide,
      rfl, rfl, rfl⟩, rfl, rfl, by decide +kernel⟩

/-- The answer of another implementation. -/
def exEdPacket : Packet := ⟨⟨1, ⟨0x84, 0⟩, 1, 3, 0, 1⟩, [⟨[[97]], .rr .A, .IN, false⟩],
  [⟨[[97]], .A, false, .IN, 60, .A ⟨0x01000000⟩⟩, ⟨[[97]], .RRSIG, false, .IN, 60, .RRSIG exEdSig⟩,
   ⟨[[97]], .A, false, .IN, 60, .A ⟨0x02000000⟩⟩], [],
  [⟨[], .DNSKEY, false, .IN, 60, .DNSKEY exEdKey⟩]⟩

theorem exEdPacket_ok : PacketOk ⟨true, true, true⟩ 63 exEdPacket := by
  refine ⟨?_, ?_, by decide, by decide, by decide, by decide⟩
  · intro q hq
    simp only [exEdPacket, List.mem_cons, List.not_mem_nil, or_false] at hq
    subst hq
    exact ⟨by decide, by simp [QReadable, Readable, dnssecTypes], by decide⟩
  · intro r hr
    simp only [records, exEdPacket, List.append_nil, List.cons_append, List.nil_append, List.mem_cons,
      List.not_mem_nil, or_false] at hr
    rcases hr with rfl | rfl | rfl | rfl
    · exact ⟨by decide, by decide, rfl, trivial, by decide, by simp, trivial, fun b hb => by cases hb; decide⟩
    · refine ⟨by decide, by decide, rfl, trivial, by decide, by simp, ?_, ?_⟩
      · show _ ∧ _
        decide +kernel
      · intro b hb
        cases hb
        decide +kernel
    · exact ⟨by decide, by decide, rfl, trivial, by decide, by simp, trivial, fun b hb => by cases hb; decide⟩
    · exact ⟨by decide, by decide, rfl, trivial, by decide, by simp, trivial, fun b hb => by cases hb; decide +kernel⟩

theorem exEdPacket_names : NoCollision exHash (packetNames exEdPacket) := by
  have hs : ∀ n ∈ packetNames exEdPacket, n = [[97]] ∨ n = [] := by decide
  have hx : ∀ a, (∃ n ∈ packetNames exEdPacket, a <:+ n) → a = [[97]] ∨ a = [] := by
    rintro a ⟨n, hn, h⟩
    rcases hs n hn with rfl | rfl
    · rcases List.suffix_cons_iff.mp h with h | h
      · exact .inl h
      · exact .inr (List.suffix_nil.mp h)
    · exact .inr (List.suffix_nil.mp h)
  intro a b ha hb h
  rcases hx a ha with rfl | rfl <;> rcases hx b hb with rfl | rfl
  · rfl
  · exact absurd h (by decide)
  · exact absurd h (by decide)
  · rfl

/-- C119: the hypotheses of the theorem on messages are met. -/
example : ∃ d, ReceivedMessage ⟨true, true, true⟩ d exEdPacket d.length ∧
    (∀ r ∈ records exEdPacket, Writable ⟨true, true, true⟩ 63 r.rdata) ∧ (∀ r ∈ records exEdPacket, ReadWell r.rdata) ∧
    ∃ x ∈ exEdPacket.answers, x.rdata = .RRSIG exEdSig ∧ x.name = exSet.name ∧ x.class_ = exSet.class_ ∧
      (answersOf exEdPacket x.name exEdSig.typeCovered).Perm exSet.records ∧
      ∃ y ∈ exEdPacket.additional, y.rdata = .DNSKEY exEdKey := by
  have hw : ∀ r ∈ records exEdPacket, WrittenWell r.rdata ∧ ReadWell r.rdata := by
    intro r hr
    simp only [records, exEdPacket, List.append_nil, List.cons_append, List.nil_append, List.mem_cons,
      List.not_mem_nil, or_false] at hr
    rcases hr with rfl | rfl | rfl | rfl <;> exact ⟨trivial, trivial⟩
  obtain ⟨b, h1, h2, _⟩ := C111_shortest ⟨true, true, true⟩ exHash exEdPacket exEdPacket_ok ⟨rfl, rfl, rfl, rfl⟩
    exEdPacket_names (fun r hr => (hw r hr).1)
  obtain ⟨b', h3, h4⟩ := Res.exists_ok (x := exEdPacket.toBytesCompressed ⟨true, true, true⟩ exHash)
    (P := fun b => b.length ≤ 16384) (by decide +kernel)
  rw [h1] at h3
  cases h3
  exact ⟨b, (h2 h4).received, fun r hr => (exEdPacket_ok.2.1 r hr).2.2.2.2.2.2.1, fun r hr => (hw r hr).2,
    ⟨[[97]], .RRSIG, false, .IN, 60, .RRSIG exEdSig⟩, by decide +kernel, rfl, rfl, rfl, by decide +kernel,
    ⟨[], .DNSKEY, false, .IN, 60, .DNSKEY exEdKey⟩, by decide +kernel, rfl⟩

/-- C119: the hypotheses of the theorem on new signatures are met by a key of RSA. -/
example : RfcPair (exSchemes []) .RSA_SHA256 [] (exKey .RSA_SHA256).publicKey ∧
    ∃ r, Rrsig.fromDnsKey ⟨true, true, true⟩ (exLibrary []) exSearch (exKey .RSA_SHA256) exSet 5000000 7000000 [] = .ok r ∧
      CanonicalSet ⟨true, true, true⟩ r exSet.name exSet.records := by
  refine ⟨⟨5, 3, ⟨[3], [5], rfl, rfl, Or.inl ⟨by decide, by decide, rfl⟩⟩, trivial⟩, ?_⟩
  obtain ⟨r, h1, h2, h3, h4⟩ := Res.exists_ok (x := Rrsig.fromDnsKey ⟨true, true, true⟩ (exLibrary []) exSearch
    (exKey .RSA_SHA256) exSet 5000000 7000000 [])
    (P := fun r => r.labels = 1 ∧ r.signersName = [[97]] ∧ r.typeCovered = .A) (by decide +kernel)
  refine ⟨r, h1, ⟨by decide, by decide⟩, by rw [h3]; exact ⟨by decide, by decide⟩, Or.inl ⟨by rw [h2]; decide, rfl⟩,
    by decide, ?_⟩
  intro d hd
  simp only [exSet, List.mem_cons, List.not_mem_nil, or_false] at hd
  rcases hd with rfl | rfl
  · exact ⟨h4.symm, trivial, trivial, rfl⟩
  · exact ⟨h4.symm, trivial, trivial, rfl⟩

end Dns
