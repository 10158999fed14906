import Verif.Spec.Chain
import Verif.Lemmas.Distinct
import Verif.Props.Signed

/-! C118: chains of trust. -/

namespace Dns
open Spec Buf

theorem dnskeyFlags_inj {k l : DnsKey}
    (h : UInt16.ofNat (dnskeyFlags k) = UInt16.ofNat (dnskeyFlags l)) :
    k.zoneKey = l.zoneKey ∧ k.secureEntryPoint = l.secureEntryPoint := by
  revert h
  unfold dnskeyFlags
  cases k.zoneKey <;> cases l.zoneKey <;> cases k.secureEntryPoint <;> cases l.secureEntryPoint <;> decide

theorem dnskeyOctets_inj {k l : DnsKey} (h : dnskeyOctets k = dnskeyOctets l) : k = l := by
  simp only [dnskeyOctets, Items.octets, Item.octets, o16, o8, List.map_cons, List.map_nil,
    List.flatten_cons, List.flatten_nil, List.append_nil] at h
  obtain ⟨h1, h⟩ := octets16_inj h
  simp only [List.cons_append, List.nil_append, List.cons.injEq] at h
  obtain ⟨h2, h3, h4⟩ := h
  obtain ⟨h5, h6⟩ := dnskeyFlags_inj h1
  obtain ⟨a, b, c, d, e⟩ := k
  obtain ⟨a', b', c', d', e'⟩ := l
  simp only at h2 h4 h5 h6
  have h3 : d = d' := secAlgorithm_inj h3
  rw [h2, h3, h4, h5, h6]

theorem Spec.NameOk.nonempty {max : Nat} {n : Fqdn} (h : NameOk max n) : ∀ l ∈ n, l ≠ [] :=
  fun l hl => List.length_pos_iff.mp (h l hl).1

theorem ofDnsKey_ok {cfg : Cfg} {c : Crypto} {owner : Fqdn} {k : DnsKey} {t : DigestType} {ds : Ds}
    (hn : ∀ l ∈ owner, l ≠ []) (h : Ds.ofDnsKey cfg c owner k t = .ok ds) :
    ds.algorithm = k.algorithm ∧ ds.digestType = t ∧ ds.digest = digestOf c t (dsInput owner k) := by
  obtain ⟨tag, _, h⟩ := Res.bind_ok.mp h
  cases h
  refine ⟨rfl, rfl, ?_⟩
  show t.hashData c (owner.toBytes ++ k.toBytes) = _
  rw [DnsKey.toBytes_eq, Fqdn.toBytes_eq (fun l hl => List.length_pos_iff.mpr (hn l hl))]
  cases t <;> rfl

/-- C118: DS records with the same digest stand for the same owner and the same key, in all its fields, unless the hash
function has a collision. -/
theorem C118_ds_binds (cfg : Cfg) (c : Crypto) (owner owner' : Fqdn) (k k' : DnsKey) (t : DigestType) (ds ds' : Ds)
    (hn : NameOk 255 owner) (hn' : NameOk 255 owner')
    (h : Ds.ofDnsKey cfg c owner k t = .ok ds) (h' : Ds.ofDnsKey cfg c owner' k' t = .ok ds')
    (hc : digestOf c t (dsInput owner k) = digestOf c t (dsInput owner' k') → dsInput owner k = dsInput owner' k')
    (he : ds.digest = ds'.digest) : owner = owner' ∧ k = k' := by
  obtain ⟨_, _, h1⟩ := ofDnsKey_ok hn.nonempty h
  obtain ⟨_, _, h2⟩ := ofDnsKey_ok hn'.nonempty h'
  rw [h1, h2] at he
  obtain ⟨h3, h4⟩ := nameOctets_inj hn hn' (hc he)
  exact ⟨h3, dnskeyOctets_inj h4⟩

/-- C118: keys and owners of which the DS records have different digests. -/
example : NameOk 255 [[97]] ∧ NameOk 255 [[98]] ∧
    Ds.ofDnsKey ⟨true, true, true⟩ exCrypto [[97]] (exKey .ED25519) .SHA256
      = .ok ⟨2578, .ED25519, .SHA256, [1, 97, 0, 1, 0, 3, 15, 1, 3, 5]⟩ ∧
    Ds.ofDnsKey ⟨true, true, true⟩ exCrypto [[98]] (exKey .RSA_SHA1) .SHA256
      = .ok ⟨2568, .RSA_SHA1, .SHA256, [1, 98, 0, 1, 0, 3, 5, 1, 3, 5]⟩ := by
  refine ⟨by decide, by decide, by decide +kernel, by decide +kernel⟩

/-- What is known of a record that was read. -/
theorem record_parsed {cfg : Cfg} {d : Bytes} {p : Packet} (h : Packet.parse cfg d = .ok p) {r : ResourceRecord}
    (hm : r ∈ records p) : NameOk 191 r.name ∧ r.rdata.type = r.type ∧
      (TextFits r.rdata → Writable cfg 191 r.rdata) := by
  obtain ⟨e, _, _, _, _, i1, i2, i3, i4, _, hq, ha, hu, hd⟩ := Packet.parse_ok.mp h
  have : ∃ a b, RecordAtWith (ParsedData cfg) Decodes cfg d a r b := by
    simp only [records, List.mem_append] at hm
    rcases hm with (hm | hm) | hm
    · exact listAt_mem ha hm
    · exact listAt_mem hu hm
    · exact listAt_mem hd hm
  obtain ⟨a, b, h5, h6, v, len, k, ⟨h7, h8⟩, h9, hj, _, e, h10⟩ := this
  exact ⟨name_mem h9 (by simp [recordHead]), RecordData.parse_type h10, RecordData.parsed h10 (by have := len.toNat_lt; simp only [List.length_take]; omega)⟩

/-- C118: whatever octets are received, from whomever: a DNSKEY record in them for which the DS record stands has the
owner and the key of which the DS record has the digest. -/
theorem C118_key (cfg : Cfg) (c : Crypto) (zone : Fqdn) (k : DnsKey) (ds : Ds) (hz : NameOk 255 zone)
    (hc : OnlyPreimage c ds (dsInput zone k))
    (d : Bytes) (p : Packet) (hp : Packet.parse cfg d = .ok p) (y : ResourceRecord) (hy : y ∈ records p)
    (h : KeyTrusted cfg c ds y) : y.name = zone ∧ y.rdata = .DNSKEY k := by
  obtain ⟨k', h1, h2⟩ := h
  have hn := (record_parsed hp hy).1.mono (show 191 ≤ 255 by decide)
  obtain ⟨_, _, h3⟩ := ofDnsKey_ok hn.nonempty h2
  obtain ⟨h4, h5⟩ := nameOctets_inj hn hz (hc _ h3.symm)
  exact ⟨h4, by rw [h1, dnskeyOctets_inj h5]⟩

theorem perm_of_map {α β : Type} [DecidableEq α] {f : α → β} : ∀ {as bs : List α}, (as.map f).Perm (bs.map f) →
    (∀ a ∈ as, ∀ b ∈ bs, f a = f b → a = b) → as.Perm bs := by
  intro as
  induction as with
  | nil =>
    intro bs h _
    have := h.length_eq
    simp only [List.map_nil, List.length_nil, List.length_map] at this
    rw [List.length_eq_zero_iff.mp this.symm]
  | cons a as ih =>
    intro bs h hi
    have hm : f a ∈ bs.map f := h.mem_iff.mp (by simp)
    obtain ⟨b, hb, hab⟩ := List.mem_map.mp hm
    have := hi a (by simp) b hb hab.symm
    subst this
    have hp := List.perm_cons_erase hb
    have h2 : (as.map f).Perm ((bs.erase a).map f) := by
      have := h.trans (hp.map f)
      simp only [List.map_cons] at this
      exact List.Perm.cons_inv this
    exact ((ih h2 (fun x hx y hy => hi x (by simp [hx]) y (List.mem_of_mem_erase hy))).cons a).trans hp.symm

/-- C118 (partial): whatever octets are received, from whomever: if a set of records in them validates with a chain of
trust from the DS record of the zone, then it is one of the sets that were signed with the key of the zone: same owner,
type, TTL and class, and the same records.  What is missing: records that become too long when their names are written
out or their texts are made UTF-8 (`Rewritable`; false, see `C118_counterexample`); and that the signature is one to be
used now, which is not checked (C77). -/
theorem C118_accepted_partial (cfg : Cfg) (c : Crypto) (search search' : Search) (hs : search'.Valid)
    (zone : Fqdn) (k : DnsKey) (ds : Ds) (hz : NameOk 255 zone)
    (hc : OnlyPreimage c ds (dsInput zone k))
    (priv : Bytes) (signed : List (Rrsig × RRSet))
    (hsig : ∀ s ∈ signed, SetOk cfg s.2 ∧ ∃ inception expiration,
      Rrsig.fromDnsKey cfg c search k s.2 inception expiration priv = .ok s.1)
    (hf : NoForgery cfg c k signed)
    (d : Bytes) (p : Packet) (hp : Packet.parse cfg d = .ok p) (ha : ∀ r ∈ p.answers, Rewritable cfg r)
    (x y : ResourceRecord) (h : ChainValidates cfg c search' ds p x y) :
    ∃ r, x.rdata = .RRSIG r ∧ ∃ s ∈ signed, { r with signature := [] } = { s.1 with signature := [] } ∧
      x.name = s.2.name ∧ x.class_.toU16 = s.2.class_.toU16 ∧
      r.typeCovered = s.2.type ∧ r.originalTtl = s.2.ttl ∧
      (answersOf p x.name r.typeCovered).Perm s.2.records := by
  obtain ⟨⟨hx, hy, r, k', hr, hk', hv⟩, hk⟩ := h
  have hy' : y ∈ records p := by simp [records, hy]
  have hx' : x ∈ records p := by simp [records, hx]
  obtain ⟨_, e⟩ := C118_key cfg c zone k ds hz hc d p hp y hy' hk
  rw [hk'] at e
  cases e
  have n1 := (record_parsed hp hx').1.mono (show 191 ≤ 255 by decide)
  have n2 : NameOk 255 r.signersName := by
    have := (record_parsed hp hx').2.2
    rw [hr] at this
    exact (this trivial).2.mono (by decide)
  obtain ⟨h1, out, h2, h3⟩ := (C53_accepted cfg c search' hs r k _ n1.nonempty n2.nonempty).mp hv
  rw [h1] at h3
  obtain ⟨s, hm, out', h4, h5⟩ := hf _ _ h3
  obtain ⟨⟨g1, g2, g3⟩, inc, exp, g4⟩ := hsig s hm
  obtain ⟨o, e1, e2, e3, e4, e5, e6, e7, e8, e9, e10⟩ := fromDnsKey_ok g4
  have mem : ∀ a ∈ answersOf p x.name r.typeCovered, a.type = r.typeCovered ∧ Writable cfg 191 a ∧
      ∀ b, a.toBytes cfg = .ok b → b.length < 65536 := by
    intro a hm
    obtain ⟨z, hz, rfl⟩ := List.mem_map.mp hm
    obtain ⟨hz, hzt⟩ := List.mem_filter.mp hz
    simp only [decide_eq_true_eq] at hzt
    have hz' : z ∈ records p := by simp [records, hz]
    obtain ⟨_, w1, w2⟩ := record_parsed hp hz'
    obtain ⟨f1, f2⟩ := ha z hz
    exact ⟨w1.trans hzt.2, w2 f1, f2⟩
  obtain ⟨q1, q2, q3⟩ := C60_octets_determine cfg s.1 r s.2 _ out' out
    ⟨g2.mono (by decide), n1, e10 ▸ g2.mono (by decide), n2⟩ (fun x hx => (g3 x hx).2.2)
    (fun x hx => (mem x hx).2.2) h4 h2 h5.symm
  obtain ⟨q4, q5, q6, q7⟩ := q3 g1
  refine ⟨r, hr, s, hm, q1.symm, q4.symm, q6.symm, q5.symm, q7.symm, (perm_of_map q2 ?_).symm⟩
  intro a ha b hb hab
  obtain ⟨a1, a2, _⟩ := g3 a ha
  obtain ⟨b1, b2, _⟩ := mem b hb
  obtain ⟨v, hv⟩ : ∃ v, a.toBytes cfg = .ok v := by
    obtain ⟨rd, p1, _, _⟩ := h4
    have : a.toBytes cfg ∈ rd.map Res.ok := p1.mem_iff.mpr (List.mem_map_of_mem ha)
    obtain ⟨v, _, hv⟩ := List.mem_map.mp this
    exact ⟨v, hv.symm⟩
  exact data_same a2 b2 (a1.trans (q5.trans b1.symm)) hv (hab ▸ hv)

/-- C118 (partial): what the zone signs and publishes validates with the chain: a set of records is signed with
`from_dnskey`, and the records, the signature and the key are put into a packet, which is written with
`to_bytes_compressed()`; who parses the message and has the DS record that `try_from_dnskey` makes of the key accepts
the set.  What is missing: see C100. -/
theorem C118_published_partial (cfg : Cfg) (c : Crypto) (search search' : Search) (hv : search.Valid)
    (hv' : search'.Valid) (hash : Hash) (k : DnsKey) (set : RRSet) (inception expiration : SysTime) (priv : Bytes)
    (r : Rrsig) (ha : k.algorithm ∉ [.RSA_SHA256, .RSA_SHA512, .DSA_SHA1])
    (hk : KeyPair c k.algorithm priv k.publicKey)
    (hr : Rrsig.fromDnsKey cfg c search k set inception expiration priv = .ok r)
    (p : Packet) (hp : PacketOk cfg 191 p) (hc : CountsOk p) (hs : ∀ r ∈ records p, r.rdata.type ≠ .SSHFP)
    (hh : NoCollision hash (packetNames p)) (x y : ResourceRecord)
    (hset : (answersOf p set.name set.type).Perm set.records)
    (hx : x ∈ p.answers ∧ x.name = set.name ∧ x.class_ = set.class_ ∧ x.rdata = .RRSIG r)
    (hy : y ∈ p.additional ∧ y.rdata = .DNSKEY k) (t : DigestType) :
    ∃ b ds, p.toBytesCompressed cfg hash = .ok b ∧ Ds.ofDnsKey cfg c y.name k t = .ok ds ∧
      (b.length ≤ 16384 → ∃ p', Packet.parse cfg b = .ok p' ∧ ChainValidates cfg c search' ds p' x y) := by
  obtain ⟨b, h1, h2⟩ := C100_signed_answer_partial cfg c search search' hv hv' hash k set inception expiration priv r ha
    hk hr p hp hc hs hh x y hset hx hy
  obtain ⟨o, e1, e2, e3, e4, e5, e6, e7, e8, e9, e10⟩ := fromDnsKey_ok hr
  have h3 : Ds.ofDnsKey cfg c y.name k t = .ok ⟨r.keyTag, k.algorithm, t, t.hashData c (y.name.toBytes ++ k.toBytes)⟩ :=
    Res.bind_ok.mpr ⟨_, e9, rfl⟩
  refine ⟨b, _, h1, h3, fun hl => ?_⟩
  obtain ⟨p', h4, h5⟩ := h2 hl
  exact ⟨p', h4, h5, k, hy.2, h3⟩

/-- The DS record of the key of the examples. -/
def exDs : Ds := ⟨2578, .ED25519, .SHA256, [1, 97, 0, 1, 0, 3, 15, 1, 3, 5]⟩

/-- A library that accepts one signature for one message only. -/
def exOneCrypto : Crypto := { exCrypto with ed25519Verify := fun _ m sig => m == signedSig.signature && m == sig }

/-- C118: the hypotheses of the second theorem are met by the signed answer of the examples (C100). -/
example : NameOk 255 [[97]] ∧ OnlyPreimage exOneCrypto exDs (dsInput [[97]] (exKey .ED25519)) ∧
    NoForgery ⟨true, true, true⟩ exOneCrypto (exKey .ED25519) [(signedSig, exSet)] ∧
    SetOk ⟨true, true, true⟩ exSet ∧
    Rrsig.fromDnsKey ⟨true, true, true⟩ exOneCrypto exSearch (exKey .ED25519) exSet 5000000 7000000 [] = .ok signedSig ∧
    ∃ b, signedPacket.toBytesCompressed ⟨true, true, true⟩ exHash = .ok b ∧
      Packet.parse ⟨true, true, true⟩ b = .ok signedPacket ∧
      (∀ r ∈ signedPacket.answers, Rewritable ⟨true, true, true⟩ r) ∧
      ∃ x y, ChainValidates ⟨true, true, true⟩ exOneCrypto exSearch exDs signedPacket x y := by
  refine ⟨by decide, ?_, ?_, ?_, by decide +kernel, ?_⟩
  · intro m h
    exact h
  · intro m sig h
    refine ⟨_, List.mem_singleton.mpr rfl, _, ⟨[[1, 0, 0, 0], [2, 0, 0, 0]], List.Perm.swap _ _ _, ?_, rfl⟩, ?_⟩
    · simp only [List.pairwise_cons, List.mem_singleton, forall_eq, List.not_mem_nil, IsEmpty.forall_iff,
        implies_true, List.Pairwise.nil, and_self, and_true]
      exact Or.inl (List.Lex.rel (by decide))
    · have h : (m == signedSig.signature && m == sig) = true := h
      simp only [Bool.and_eq_true, beq_iff_eq] at h
      rw [h.1]
      decide +kernel
  · refine ⟨by decide, by decide, ?_⟩
    intro r hr
    simp only [exSet, List.mem_cons, List.not_mem_nil, or_false] at hr
    rcases hr with rfl | rfl
    · exact ⟨rfl, trivial, fun b hb => by cases hb; decide⟩
    · exact ⟨rfl, trivial, fun b hb => by cases hb; decide⟩
  · obtain ⟨b, h1, h2⟩ := Res.exists_ok (x := signedPacket.toBytesCompressed ⟨true, true, true⟩ exHash)
      (P := fun b => Packet.parse ⟨true, true, true⟩ b = .ok signedPacket) (by decide +kernel)
    refine ⟨b, h1, h2, ?_, ⟨[[97]], .RRSIG, false, .IN, 60, .RRSIG signedSig⟩,
      ⟨[[97]], .DNSKEY, false, .IN, 60, .DNSKEY (exKey .ED25519)⟩, ⟨by decide, by decide, signedSig, exKey .ED25519, rfl,
        rfl, by decide +kernel⟩, exKey .ED25519, rfl, by decide +kernel⟩
    intro r hr
    simp only [signedPacket, List.mem_cons, List.not_mem_nil, or_false] at hr
    rcases hr with rfl | rfl | rfl
    · exact ⟨trivial, fun b hb => by cases hb; decide⟩
    · exact ⟨trivial, fun b hb => by cases hb; decide⟩
    · exact ⟨trivial, fun b hb => by cases hb; decide⟩

/-- The set that the zone signs: a record with three texts, one of them with the character U+FFFD. -/
def forgedSet : RRSet := ⟨[[97]], .TXT, .IN, 60,
  [.TXT ⟨[[], List.replicate 124 97 ++ [0xEF, 0xBF, 0xBD], List.replicate 127 98]⟩]⟩

/-- Its signature. -/
def forgedSig : Rrsig := ⟨.TXT, .ED25519, 1, 60, 7, 5, 2578, [[97]], [7]⟩

/-- The octets that are signed. -/
def forgedOctets : Bytes :=
  [0, 16, 15, 1, 0, 0, 0, 60, 0, 0, 0, 7, 0, 0, 0, 5, 10, 18, 1, 97, 0,
   1, 97, 0, 0, 16, 0, 1, 0, 0, 0, 60, 1, 1, 0, 127] ++ List.replicate 124 97 ++ [0xEF, 0xBF, 0xBD, 127] ++
   List.replicate 127 98

/-- A library that accepts no signature but that of these octets. -/
def forgedCrypto : Crypto :=
  { exCrypto with
    ed25519Sign := fun _ _ => .ok [7]
    ed25519Verify := fun _ m sig => m == forgedOctets && sig == [7] }

/-- What the attacker sends: a record with one text that is not UTF-8, and the signature and the key of the zone. -/
def forgedMessage : Bytes :=
  [0, 1, 0x84, 0, 0, 0, 0, 2, 0, 0, 0, 1,
   1, 97, 0, 0, 16, 0, 1, 0, 0, 0, 60, 0, 255, 254, 127] ++ List.replicate 124 97 ++ [0xFF, 127] ++ List.replicate 127 98 ++
  [1, 97, 0, 0, 46, 0, 1, 0, 0, 0, 60, 0, 22, 0, 16, 15, 1, 0, 0, 0, 60, 0, 0, 0, 7, 0, 0, 0, 5, 10, 18, 1, 97, 0, 7,
   1, 97, 0, 0, 48, 0, 1, 0, 0, 0, 60, 0, 7, 1, 0, 3, 15, 1, 3, 5]

/-- What is read. -/
def forgedPacket : Packet := ⟨⟨1, ⟨0x84, 0⟩, 0, 2, 0, 1⟩, [],
  [⟨[[97]], .TXT, false, .IN, 60, .TXT ⟨[127 :: (List.replicate 124 97 ++ [0xEF, 0xBF, 0xBD, 127] ++
     List.replicate 127 98)]⟩⟩, ⟨[[97]], .RRSIG, false, .IN, 60, .RRSIG forgedSig⟩], [],
  [⟨[[97]], .DNSKEY, false, .IN, 60, .DNSKEY (exKey .ED25519)⟩]⟩

/-- C118, counterexample to the claim without `Rewritable`: a record that the zone has never signed is accepted with the
signature of another one.  The text of the record is not UTF-8; it gets longer than 255 octets when it is read, and the
octet for its length is 0 when its octets are made for the signature: they are those of the record with three texts that
was signed. -/
theorem C118_counterexample : ∃ (cfg : Cfg) (c : Crypto) (search : Search) (zone : Fqdn) (k : DnsKey) (ds : Ds)
    (priv : Bytes) (s : Rrsig × RRSet) (d : Bytes) (p : Packet) (x y : ResourceRecord),
    search.Valid ∧ NameOk 255 zone ∧ OnlyPreimage c ds (dsInput zone k) ∧ SetOk cfg s.2 ∧
    Rrsig.fromDnsKey cfg c search k s.2 5000000 7000000 priv = .ok s.1 ∧ NoForgery cfg c k [s] ∧
    Packet.parse cfg d = .ok p ∧ ChainValidates cfg c search ds p x y ∧ x.rdata = .RRSIG s.1 ∧
    answersOf p x.name s.2.type ≠ [] ∧ ∀ r ∈ answersOf p x.name s.2.type, r ∉ s.2.records := by
  refine ⟨⟨true, true, true⟩, forgedCrypto, exSearch, [[97]], exKey .ED25519, exDs, [], (forgedSig, forgedSet),
    forgedMessage, forgedPacket, ⟨[[97]], .RRSIG, false, .IN, 60, .RRSIG forgedSig⟩,
    ⟨[[97]], .DNSKEY, false, .IN, 60, .DNSKEY (exKey .ED25519)⟩, exSearch_valid, by decide, fun m h => h, ?_,
    by decide +kernel, ?_, by decide +kernel, ?_, rfl, by decide +kernel, by decide +kernel⟩
  · refine ⟨by decide, by decide, ?_⟩
    intro r hr
    rw [show forgedSet.records = [.TXT ⟨[[], List.replicate 124 97 ++ [0xEF, 0xBF, 0xBD], List.replicate 127 98]⟩]
      from rfl, List.mem_singleton] at hr
    subst hr
    refine ⟨rfl, ?_, fun b hb => by cases hb; decide +kernel⟩
    intro s hs
    simp only [List.mem_cons, List.not_mem_nil, or_false] at hs
    rcases hs with rfl | rfl | rfl
    · exact ⟨by decide, [], rfl⟩
    · exact ⟨by decide +kernel, List.replicate 124 'a' ++ [Char.ofNat 0xFFFD], by decide +kernel⟩
    · exact ⟨by decide +kernel, List.replicate 127 'b', by decide +kernel⟩
  · intro m sig h
    have h : (m == forgedOctets && sig == [7]) = true := h
    simp only [Bool.and_eq_true, beq_iff_eq] at h
    refine ⟨_, List.mem_singleton.mpr rfl, _,
      ⟨[[0, 127] ++ List.replicate 124 97 ++ [0xEF, 0xBF, 0xBD, 127] ++ List.replicate 127 98], ?_, ?_, rfl⟩, ?_⟩
    · exact List.Perm.of_eq (by decide +kernel)
    · exact List.pairwise_singleton _ _
    · rw [h.1]
      decide +kernel
  · exact ⟨⟨by decide +kernel, by decide +kernel, forgedSig, exKey .ED25519, rfl, rfl, by decide +kernel⟩,
      exKey .ED25519, rfl, by decide +kernel⟩

end Dns
