import Verif.Spec.Period
import Verif.Props.Canonical
import Verif.Props.Dnssec
import Verif.Props.Chain

/-! C130: during which time a signature is accepted by a validator that makes all checks of RFC 4035. -/

namespace Dns
open Spec

/-- C130, exactly: a signature made by `from_dnskey` is one to be used at `now` (in seconds; the times given to
`from_dnskey` are in nanoseconds) if and only if the set is at the apex of the zone, is not one of a wildcard, the key is
a zone key, and the *milliseconds* of the times, as serial numbers, are before and after `now`. -/
theorem C130_exact (cfg : Cfg) (c : Crypto) (search : Search) (k : DnsKey) (set : RRSet) (zone : Fqdn)
    (inception expiration : SysTime) (priv : Bytes) (r : Rrsig) (now : Nat)
    (h : Rrsig.fromDnsKey cfg c search k set inception expiration priv = .ok r)
    (hk : k.publicKey.length ≤ 131066) (ha : k.algorithm ≠ .RSA_MD5) (hn : set.name.length < 256) :
    UsableAt r k set zone now ↔
      SameName set.name zone ∧ (∀ l ∈ set.name.head?, l ≠ [0x2A]) ∧ k.zoneKey = true ∧ k.protocol = 3 ∧
      ((now : Int) - inception / 1000000) % 4294967296 < 2147483648 ∧
      (expiration / 1000000 - (now : Int)) % 4294967296 < 2147483648 := by
  obtain ⟨_, _, t1, t2⟩ := C54_times_partial cfg c search k set inception expiration priv r h
  obtain ⟨_, _, _, h1, h2, h3, _, _, _, h4, h5⟩ := fromDnsKey_ok h
  have hp : InPeriod r now ↔ ((now : Int) - inception / 1000000) % 4294967296 < 2147483648 ∧
      (expiration / 1000000 - (now : Int)) % 4294967296 < 2147483648 := by
    unfold InPeriod SerialLe
    rw [t1, t2, show (2 ^ 32 : Int) = 4294967296 from rfl, Int.sub_emod_emod, Int.emod_sub_emod]
  have ht : r.keyTag.toNat = keyTag k := by
    obtain ⟨tag, ht, htag⟩ := C50_key_tag_partial cfg k hk ha
    rw [h4] at ht
    cases Res.ok.inj ht
    exact htag
  have hl : r.labels.toNat ≤ rrsigLabels set.name ↔ ∀ l ∈ set.name.head?, l ≠ [0x2A] := by
    have h256 : set.name.labelCount.toNat = set.name.length := by
      simp [Fqdn.labelCount, lenU8, Nat.mod_eq_of_lt hn]
    rw [h3, h256]
    cases set.name with
    | nil => simp [rrsigLabels]
    | cons l ls => by_cases hl : l = [0x2A] <;> simp [rrsigLabels, hl]
  constructor
  · intro u
    exact ⟨h5 ▸ u.signer, hl.mp u.labels, u.zoneKey, u.protocol, hp.mp u.period⟩
  · rintro ⟨a, b, d, e, f⟩
    exact ⟨h5.symm ▸ a, h1, hl.mpr b, hp.mpr f, h2, ht, d, e⟩

/-- C130: a signature that is used at some time. -/
example : ∃ r, Rrsig.fromDnsKey ⟨true, true, true⟩ exCrypto exSearch (exKey .ED25519) exSet
      1794000000000000 1794086400000000 [] = .ok r ∧
    UsableAt r (exKey .ED25519) exSet [[65]] 1794003600 := by
  obtain ⟨r, h1, -⟩ := Res.exists_ok (P := fun _ : Rrsig => True)
    (x := Rrsig.fromDnsKey ⟨true, true, true⟩ exCrypto exSearch (exKey .ED25519) exSet 1794000000000000 1794086400000000 [])
    (by decide +kernel)
  refine ⟨r, h1, (C130_exact _ _ _ _ _ _ _ _ _ _ _ h1 (by decide) (by decide) (by decide)).mpr
    ⟨?_, by decide, rfl, rfl, by decide, by decide⟩⟩
  unfold SameName; decide

/-- C130 (partial): a signature is accepted in its period and at no other time, if the caller gives `from_dnskey` a
thousandth of the times: `s` milliseconds after the epoch where the period begins `s` seconds after it.  (Serial numbers
tell only times less than 68 years apart.)  What is missing: the times themselves (false, see below), sets below the
apex and of wildcards (false, see below), and RSA/SHA-256, RSA/SHA-512 and DSA (see C51). -/
theorem C130_thousandth_partial (cfg : Cfg) (c : Crypto) (search search' : Search) (hv : search.Valid)
    (hv' : search'.Valid) (k : DnsKey) (set : RRSet) (s e : Nat) (priv : Bytes) (r : Rrsig)
    (h : Rrsig.fromDnsKey cfg c search k set (s * 1000000 : Int) (e * 1000000 : Int) priv = .ok r)
    (hk : k.publicKey.length ≤ 131066) (hp : KeyPair c k.algorithm priv k.publicKey)
    (ha : k.algorithm ∉ [.RSA_MD5, .RSA_SHA256, .RSA_SHA512, .DSA_SHA1])
    (hn : set.name.length < 256) (hw : ∀ l ∈ set.name.head?, l ≠ [0x2A]) (hz : k.zoneKey = true) (h3 : k.protocol = 3)
    (now : Nat) (n1 : now < s + 2147483648) (n2 : s ≤ now + 2147483648) (n3 : e < now + 2147483648)
    (n4 : now ≤ e + 2147483648) :
    (UsableAt r k set set.name now ∧ r.verify cfg c search' k set = .ok true) ↔ s ≤ now ∧ now ≤ e := by
  have ha' : k.algorithm ≠ .RSA_MD5 ∧ k.algorithm ∉ [.RSA_SHA256, .RSA_SHA512, .DSA_SHA1] := by
    simpa only [List.mem_cons, not_or] using ha
  have hver := C51_fresh_signature_partial cfg c search search' hv hv' k set _ _ priv r set.records (List.Perm.refl _)
    ha'.2 hp h
  have hx := C130_exact cfg c search k set set.name _ _ priv r now h hk ha'.1 hn
  have e1 : ((s * 1000000 : Int)) / 1000000 = s := by omega
  have e2 : ((e * 1000000 : Int)) / 1000000 = e := by omega
  rw [e1, e2] at hx
  clear e1 e2
  rw [hx]
  constructor
  · rintro ⟨⟨_, _, _, _, g1, g2⟩, _⟩
    have g3 : ((e : Int) - now) % 4294967296 < 2147483648 := g2
    omega
  · rintro ⟨g1, g2⟩
    have g3 : ((e : Int) - now) % 4294967296 < 2147483648 := by omega
    exact ⟨⟨rfl, hw, hz, h3, by omega, g3⟩, hver⟩

/-- C130: a signature for one day. -/
example : ∃ r, Rrsig.fromDnsKey ⟨true, true, true⟩ exCrypto exSearch (exKey .ED25519) exSet
      ((1794000000 : Nat) * 1000000 : Int) ((1794086400 : Nat) * 1000000 : Int) [] = .ok r ∧
    KeyPair exCrypto (exKey .ED25519).algorithm [] (exKey .ED25519).publicKey ∧
    (exKey .ED25519).algorithm ∉ [SecAlgorithm.RSA_MD5, .RSA_SHA256, .RSA_SHA512, .DSA_SHA1] ∧
    (∀ l ∈ exSet.name.head?, l ≠ [0x2A]) ∧ (exKey .ED25519).zoneKey = true ∧ (exKey .ED25519).protocol = 3 := by
  obtain ⟨r, h1, -⟩ := Res.exists_ok (P := fun _ : Rrsig => True)
    (x := Rrsig.fromDnsKey ⟨true, true, true⟩ exCrypto exSearch (exKey .ED25519) exSet
      ((1794000000 : Nat) * 1000000 : Int) ((1794086400 : Nat) * 1000000 : Int) [])
    (by decide +kernel)
  refine ⟨r, h1, ?_, by decide, by decide, rfl, rfl⟩
  intro m sig h; cases h; simp [exCrypto]

/-- C130 is false: how long a signature is used.  One that is made for a period of `d` seconds, up to 24 days, is used
for a thousand times as long, in every 136 years, and from another time on: the begin of the period times 1000. -/
theorem C130_thousand_times (cfg : Cfg) (c : Crypto) (search : Search) (k : DnsKey) (set : RRSet) (s d : Nat)
    (priv : Bytes) (r : Rrsig)
    (h : Rrsig.fromDnsKey cfg c search k set (s * 1000000000 : Int) ((s + d : Nat) * 1000000000 : Int) priv = .ok r)
    (hd : d ≤ 2147483) (now : Nat) (n1 : 1000 * s ≤ now) (n2 : now < 1000 * s + 4294967296) :
    InPeriod r now ↔ now ≤ 1000 * s + 1000 * d := by
  obtain ⟨_, _, t1, t2⟩ := C54_times_partial cfg c search k set _ _ priv r h
  unfold InPeriod SerialLe
  rw [t1, t2, show (2 ^ 32 : Int) = 4294967296 from rfl, Int.sub_emod_emod, Int.emod_sub_emod]
  have e1 : ((s * 1000000000 : Int)) / 1000000 = 1000 * s := by omega
  have e2 : (((s + d : Nat) * 1000000000 : Int)) / 1000000 = 1000 * s + 1000 * d := by push_cast; omega
  rw [e1, e2]
  constructor
  · rintro ⟨g1, g2⟩
    omega
  · intro g
    omega

/-- C130 is false, whatever the key and the set: a signature made for the day from 1 794 000 000 s on (November 2026) is
not used at any time of this day, and one for the day from 1 797 110 400 s on is used 500 days later. -/
theorem C130_counterexample (cfg : Cfg) (c : Crypto) (search : Search) (k : DnsKey) (set : RRSet) (priv : Bytes)
    (r r' : Rrsig)
    (h : Rrsig.fromDnsKey cfg c search k set 1794000000000000000 1794086400000000000 priv = .ok r)
    (h' : Rrsig.fromDnsKey cfg c search k set 1797110400000000000 1797196800000000000 priv = .ok r') :
    (∀ now, 1794000000 ≤ now → now ≤ 1794086400 → ¬ InPeriod r now) ∧ InPeriod r' (1797110400 + 500 * 86400) := by
  obtain ⟨_, _, t1, t2⟩ := C54_times_partial cfg c search k set _ _ priv r h
  obtain ⟨_, _, t3, t4⟩ := C54_times_partial cfg c search k set _ _ priv r' h'
  unfold InPeriod SerialLe
  constructor
  · intro now n1 n2
    rw [t1, t2]
    omega
  · rw [t3, t4]
    omega

example : (∃ r, Rrsig.fromDnsKey ⟨true, true, true⟩ exCrypto exSearch (exKey .ED25519) exSet
      1794000000000000000 1794086400000000000 [] = .ok r) ∧
    (∃ r, Rrsig.fromDnsKey ⟨true, true, true⟩ exCrypto exSearch (exKey .ED25519) exSet
      1797110400000000000 1797196800000000000 [] = .ok r) := by
  constructor
  · obtain ⟨r, h1, -⟩ := Res.exists_ok (P := fun _ : Rrsig => True)
      (x := Rrsig.fromDnsKey ⟨true, true, true⟩ exCrypto exSearch (exKey .ED25519) exSet
        1794000000000000000 1794086400000000000 []) (by decide +kernel)
    exact ⟨r, h1⟩
  · obtain ⟨r, h1, -⟩ := Res.exists_ok (P := fun _ : Rrsig => True)
      (x := Rrsig.fromDnsKey ⟨true, true, true⟩ exCrypto exSearch (exKey .ED25519) exSet
        1797110400000000000 1797196800000000000 []) (by decide +kernel)
    exact ⟨r, h1⟩

/-- C130: whatever octets are received, from whomever: what validates with a chain of trust (C118) and is in its period at
`now` is a set that the zone has signed, and for a period with which its signature is used at `now` (C130_exact).  So a
signature is accepted again after its period only as far as the milliseconds make it so.  What is missing: records that
are not `Rewritable` (see C118), and that the periods are those that were meant (see below). -/
theorem C130_replay_partial (cfg : Cfg) (c : Crypto) (search search' : Search) (hs : search'.Valid)
    (zone : Fqdn) (k : DnsKey) (ds : Ds) (hz : NameOk 255 zone)
    (hc : OnlyPreimage c ds (dsInput zone k))
    (priv : Bytes) (signed : List (Rrsig × RRSet × SysTime × SysTime))
    (hsig : ∀ s ∈ signed, SetOk cfg s.2.1 ∧ Rrsig.fromDnsKey cfg c search k s.2.1 s.2.2.1 s.2.2.2 priv = .ok s.1)
    (hf : NoForgery cfg c k (signed.map (fun s => (s.1, s.2.1))))
    (d : Bytes) (p : Packet) (hp : Packet.parse cfg d = .ok p) (ha : ∀ r ∈ p.answers, Rewritable cfg r)
    (x y : ResourceRecord) (h : ChainValidates cfg c search' ds p x y) (r : Rrsig) (hr : x.rdata = .RRSIG r)
    (now : Nat) (hn : InPeriod r now) :
    ∃ s ∈ signed, (answersOf p x.name r.typeCovered).Perm s.2.1.records ∧ x.name = s.2.1.name ∧
      r.typeCovered = s.2.1.type ∧
      ((now : Int) - s.2.2.1 / 1000000) % 4294967296 < 2147483648 ∧
      (s.2.2.2 / 1000000 - (now : Int)) % 4294967296 < 2147483648 := by
  obtain ⟨r', hr', s, hm, he, h1, _, h2, _, h3⟩ := C118_accepted_partial cfg c search search' hs zone k ds hz hc priv
    (signed.map (fun s => (s.1, s.2.1))) (by
      intro s hm
      obtain ⟨s', hm', rfl⟩ := List.mem_map.mp hm
      exact ⟨(hsig s' hm').1, _, _, (hsig s' hm').2⟩) hf d p hp ha x y h
  rw [hr] at hr'
  cases hr'
  obtain ⟨s', hm', rfl⟩ := List.mem_map.mp hm
  obtain ⟨_, _, t1, t2⟩ := C54_times_partial cfg c search k s'.2.1 _ _ priv s'.1 (hsig s' hm').2
  have e1 : r.sigInception = s'.1.sigInception := (congrArg Rrsig.sigInception he :)
  have e2 : r.sigExpiration = s'.1.sigExpiration := (congrArg Rrsig.sigExpiration he :)
  unfold InPeriod SerialLe at hn
  rw [e1, e2, t1, t2, show (2 ^ 32 : Int) = 4294967296 from rfl, Int.sub_emod_emod, Int.emod_sub_emod] at hn
  exact ⟨s', hm', h3, h1, h2, hn⟩

/-- C130: the message of the example of C118, at a time in the period of its signature, which was made with the times 5
and 7 milliseconds after the epoch. -/
example : signedSig.sigInception = 5 ∧ signedSig.sigExpiration = 7 ∧ InPeriod signedSig 6 ∧
    Rrsig.fromDnsKey ⟨true, true, true⟩ exOneCrypto exSearch (exKey .ED25519) exSet 5000000 7000000 [] = .ok signedSig ∧
    ChainValidates ⟨true, true, true⟩ exOneCrypto exSearch exDs signedPacket
      ⟨[[97]], .RRSIG, false, .IN, 60, .RRSIG signedSig⟩ ⟨[[97]], .DNSKEY, false, .IN, 60, .DNSKEY (exKey .ED25519)⟩ := by
  refine ⟨rfl, rfl, ⟨by unfold SerialLe; decide, by unfold SerialLe; decide⟩, by decide +kernel,
    ⟨by decide, by decide, signedSig, exKey .ED25519, rfl, rfl, by decide +kernel⟩, exKey .ED25519, rfl, by decide +kernel⟩

/-- C130 is false of sets below the apex: the name of the signer is the owner of the set and not the zone, so that the
signature is never one to be used. -/
theorem C130_below_apex (cfg : Cfg) (c : Crypto) (search : Search) (k : DnsKey) (set : RRSet) (zone : Fqdn)
    (inception expiration : SysTime) (priv : Bytes) (r : Rrsig)
    (h : Rrsig.fromDnsKey cfg c search k set inception expiration priv = .ok r)
    (hz : ¬ SameName set.name zone) (now : Nat) : ¬ UsableAt r k set zone now := by
  obtain ⟨_, _, _, _, _, _, _, _, _, _, h5⟩ := fromDnsKey_ok h
  exact fun u => hz (h5 ▸ u.signer)

/-- C130 is false of wildcards: the asterisk is counted, so that the signature is never one to be used. -/
theorem C130_wildcard (cfg : Cfg) (c : Crypto) (search : Search) (k : DnsKey) (set : RRSet) (zone rest : Fqdn)
    (inception expiration : SysTime) (priv : Bytes) (r : Rrsig)
    (h : Rrsig.fromDnsKey cfg c search k set inception expiration priv = .ok r)
    (hw : set.name = [0x2A] :: rest) (hr : rest.length < 255) (now : Nat) : ¬ UsableAt r k set zone now := by
  obtain ⟨_, _, _, _, _, h3, _, _, _, _, _⟩ := fromDnsKey_ok h
  intro u
  have := u.labels
  rw [h3, hw] at this
  have e : (Fqdn.labelCount ([0x2A] :: rest)).toNat = rest.length + 1 := by
    simp [Fqdn.labelCount, lenU8]
    omega
  rw [e] at this
  simp [rrsigLabels] at this

/-- C130: such sets are signed. -/
example : (∃ r, Rrsig.fromDnsKey ⟨true, true, true⟩ exCrypto exSearch (exKey .ED25519) { exSet with name := [[0x2A], [97]] }
      0 1000000000 [] = .ok r) ∧ ¬ SameName [[0x2A], [97]] [[97]] := by
  refine ⟨?_, by unfold SameName; decide⟩
  obtain ⟨r, h1, -⟩ := Res.exists_ok (P := fun _ : Rrsig => True)
    (x := Rrsig.fromDnsKey ⟨true, true, true⟩ exCrypto exSearch (exKey .ED25519) { exSet with name := [[0x2A], [97]] }
      0 1000000000 []) (by decide +kernel)
  exact ⟨r, h1⟩

end Dns
