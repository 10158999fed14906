import Verif.Props.Canonical
import Verif.Props.PacketWire
import Verif.Props.Exactly
import Verif.Spec.Signed

/-! C100: signed answers verify at the receiver. -/

namespace Dns
open Spec Buf

/-- C100 (partial): a set of records is signed with `from_dnskey`, and the records (in any order, between any
other records), the signature and the key are put into a packet, which is written with
`to_bytes_compressed()`.  Who parses the message finds the signature, the set and the key in it, and the
signature verifies.  What is missing: RSA/SHA-256, RSA/SHA-512 and DSA (see C51), SSHFP records and long
messages (see C28), and `to_bytes()`, with which it is false. -/
theorem C100_signed_answer_partial (cfg : Cfg) (c : Crypto) (search search' : Search) (hv : search.Valid)
    (hv' : search'.Valid) (hash : Hash) (k : DnsKey) (set : RRSet) (inception expiration : SysTime) (priv : Bytes)
    (r : Rrsig) (ha : k.algorithm ∉ [.RSA_SHA256, .RSA_SHA512, .DSA_SHA1])
    (hk : KeyPair c k.algorithm priv k.publicKey)
    (hr : Rrsig.fromDnsKey cfg c search k set inception expiration priv = .ok r)
    (p : Packet) (hp : PacketOk cfg 191 p) (hc : CountsOk p) (hs : ∀ r ∈ records p, r.rdata.type ≠ .SSHFP)
    (hh : NoCollision hash (packetNames p)) (x y : ResourceRecord)
    (hset : (answersOf p set.name set.type).Perm set.records)
    (hx : x ∈ p.answers ∧ x.name = set.name ∧ x.class_ = set.class_ ∧ x.rdata = .RRSIG r)
    (hy : y ∈ p.additional ∧ y.rdata = .DNSKEY k) :
    ∃ b, p.toBytesCompressed cfg hash = .ok b ∧
      (b.length ≤ 16384 → ∃ p', Packet.parse cfg b = .ok p' ∧ Validates cfg c search' p' x y) := by
  obtain ⟨b, h1, h2⟩ := C28_compressed_round_trip_partial cfg hash p hp hc hs hh
  refine ⟨b, h1, fun hl => ⟨p, ?_, hx.1, hy.1, r, k, hx.2.2.2, hy.2, ?_⟩⟩
  · have := (h2 hl []).1
    rwa [List.append_nil] at this
  · have h3 := C51_fresh_signature_partial cfg c search search' hv hv' k set inception expiration priv r
      (answersOf p set.name set.type) hset ha hk hr
    obtain ⟨out, e1, e2, e3, e4, e5, e6, e7⟩ := fromDnsKey_ok hr
    rw [hx.2.1, hx.2.2.1, e3, e6]
    exact h3

/-- The signature of the set of the examples with an Ed25519 key. -/
def signedSig : Rrsig := ⟨.A, .ED25519, 1, 60, 7, 5, 2578, [[97]],
  [0, 1, 15, 1, 0, 0, 0, 60, 0, 0, 0, 7, 0, 0, 0, 5, 10, 18, 1, 97, 0, 1, 97, 0, 0, 1, 0, 1, 0, 0, 0, 60,
   0, 4, 1, 0, 0, 0, 1, 97, 0, 0, 1, 0, 1, 0, 0, 0, 60, 0, 4, 2, 0, 0, 0]⟩

/-- The answer with the set, its signature and the key. -/
def signedPacket : Packet := ⟨⟨1, ⟨0x84, 0⟩, 1, 3, 0, 1⟩, [⟨[[97]], .rr .A, .IN, false⟩],
  [⟨[[97]], .A, false, .IN, 60, .A ⟨0x01000000⟩⟩, ⟨[[97]], .RRSIG, false, .IN, 60, .RRSIG signedSig⟩,
   ⟨[[97]], .A, false, .IN, 60, .A ⟨0x02000000⟩⟩], [],
  [⟨[[97]], .DNSKEY, false, .IN, 60, .DNSKEY (exKey .ED25519)⟩]⟩

theorem signedSig_eq : Rrsig.fromDnsKey ⟨true, true, true⟩ exCrypto exSearch (exKey .ED25519) exSet
    5000000 7000000 [] = .ok signedSig := by decide +kernel

theorem signedPacket_ok : PacketOk ⟨true, true, true⟩ 191 signedPacket := by
  refine ⟨?_, ?_, by decide, by decide, by decide, by decide⟩
  · intro q hq
    simp only [signedPacket, List.mem_cons, List.not_mem_nil, or_false] at hq
    subst hq
    exact ⟨by decide, by simp [QReadable, Readable, dnssecTypes], by decide⟩
  · intro r hr
    simp only [records, signedPacket, List.append_nil, List.cons_append, List.nil_append, List.mem_cons,
      List.not_mem_nil, or_false] at hr
    rcases hr with rfl | rfl | rfl | rfl
    · exact ⟨by decide, by decide, rfl, trivial, by decide, by simp, trivial, fun b hb => by cases hb; decide⟩
    · refine ⟨by decide, by decide, rfl, trivial, by decide, by simp, ?_, ?_⟩
      · show _ ∧ _
        decide +kernel
      · intro b hb
        cases hb
        decide
    · exact ⟨by decide, by decide, rfl, trivial, by decide, by simp, trivial, fun b hb => by cases hb; decide⟩
    · exact ⟨by decide, by decide, rfl, trivial, by decide, by simp, trivial, fun b hb => by cases hb; decide⟩

/-- C100: the hypotheses hold for a signed answer with two addresses. -/
example : Rrsig.fromDnsKey ⟨true, true, true⟩ exCrypto exSearch (exKey .ED25519) exSet 5000000 7000000 [] =
      .ok signedSig ∧ KeyPair exCrypto .ED25519 [] (exKey .ED25519).publicKey ∧
    PacketOk ⟨true, true, true⟩ 191 signedPacket ∧ CountsOk signedPacket ∧
    (∀ r ∈ records signedPacket, r.rdata.type ≠ .SSHFP) ∧
    (answersOf signedPacket exSet.name exSet.type).Perm exSet.records ∧
    NoCollision exHash (packetNames signedPacket) ∧
    ∃ b, signedPacket.toBytesCompressed ⟨true, true, true⟩ exHash = .ok b ∧ b.length ≤ 16384 := by
  refine ⟨signedSig_eq, ?_, signedPacket_ok, ⟨rfl, rfl, rfl, rfl⟩, by decide, by decide, ?_, ?_⟩
  · intro m sig h; cases h; simp [exCrypto]
  · have hs : ∀ n ∈ packetNames signedPacket, n = [[97]] := by decide
    have hx : ∀ a, (∃ n ∈ packetNames signedPacket, a <:+ n) → a = [[97]] ∨ a = [] := by
      rintro a ⟨n, hn, h⟩
      rw [hs n hn] at h
      rcases List.suffix_cons_iff.mp h with h | h
      · exact .inl h
      · exact .inr (List.suffix_nil.mp h)
    intro a b ha hb h
    rcases hx a ha with rfl | rfl <;> rcases hx b hb with rfl | rfl
    · rfl
    · exact absurd h (by decide)
    · exact absurd h (by decide)
    · rfl
  · exact Res.exists_ok (by decide +kernel)

/-- C100 is false with `to_bytes()`: the same answer, written without compression, is not even accepted. -/
theorem C100_counterexample : Rrsig.fromDnsKey ⟨true, true, true⟩ exCrypto exSearch (exKey .ED25519) exSet
      5000000 7000000 [] = .ok signedSig ∧ KeyPair exCrypto .ED25519 [] (exKey .ED25519).publicKey ∧
    PacketOk ⟨true, true, true⟩ 191 signedPacket ∧
    ∃ b, signedPacket.toBytes ⟨true, true, true⟩ = .ok b ∧
      Packet.parse ⟨true, true, true⟩ b = .err (.invalidType 353) := by
  refine ⟨signedSig_eq, ?_, signedPacket_ok, ?_⟩
  · intro m sig h; cases h; simp [exCrypto]
  · exact Res.exists_ok (by decide +kernel)

end Dns
