import Verif.Model.Dnssec

/-! C98: the length of the digest of a DNSSEC algorithm. -/

namespace Dns
open SecAlgorithm

/-- The hash function of the DNSSEC algorithm numbers (RFC 4034, appendix A.1; RFC 5702), for the algorithms
that sign a digest with RSA or DSA. -/
def Spec.hashOf (c : Crypto) : SecAlgorithm → Option (Bytes → Bytes)
  | .RSA_MD5 => some c.md5
  | .DSA_SHA1 | .RSA_SHA1 => some c.sha1
  | .RSA_SHA256 => some c.sha256
  | .RSA_SHA512 => some c.sha512
  | _ => none

/-- The hash functions have outputs of 128, 160, 256, 384 and 512 bits. -/
structure Spec.HashLengths (c : Crypto) : Prop where
  md5 : ∀ b, (c.md5 b).length = 128 / 8
  sha1 : ∀ b, (c.sha1 b).length = 160 / 8
  sha256 : ∀ b, (c.sha256 b).length = 256 / 8
  sha384 : ∀ b, (c.sha384 b).length = 384 / 8
  sha512 : ∀ b, (c.sha512 b).length = 512 / 8

open Spec

/-- C98 (partial): for the algorithms that sign a digest, `len()` is the number of octets of the digest.
What is missing: algorithms without digest, see the counterexample. -/
theorem C98_digest_length_partial (c : Crypto) (hc : HashLengths c) (a : SecAlgorithm) (hash : Bytes → Bytes)
    (h : hashOf c a = some hash) (data : Bytes) : a.len = some (hash data).length := by
  cases a <;> simp only [hashOf, Option.some.injEq, reduceCtorEq] at h <;> subst h
  · rw [hc.md5]; rfl
  · rw [hc.sha1]; rfl
  · rw [hc.sha1]; rfl
  · rw [hc.sha256]; rfl
  · rw [hc.sha512]; rfl
example (c : Crypto) (hc : HashLengths c) (data : Bytes) : SecAlgorithm.len .RSA_SHA1 = some (c.sha1 data).length :=
  C98_digest_length_partial c hc .RSA_SHA1 c.sha1 rfl data

/-- C98: a signature depends on the data only through that digest. -/
theorem C98_signs_digest (c : Crypto) (a : SecAlgorithm) (hash : Bytes → Bytes) (h : hashOf c a = some hash)
    (data data' priv : Bytes) (hd : hash data = hash data') : a.signData c data priv = a.signData c data' priv := by
  cases a <;> simp only [hashOf, Option.some.injEq, reduceCtorEq] at h <;> subst h <;> simp only [signData, hd]
example (c : Crypto) (data data' priv : Bytes) (hd : c.sha1 data = c.sha1 data') :=
  C98_signs_digest c .RSA_SHA1 c.sha1 rfl data data' priv hd

/-- C98 is false for the algorithms without digest: `len()` of Ed25519 and Ed448 is a number, although
nothing is hashed before signing, and it is not the length of the signatures either (64 and 114 octets). -/
theorem C98_counterexample (c : Crypto) : ∀ a ∈ ([.ED25519, .ED448] : List SecAlgorithm),
    hashOf c a = none ∧ a.len ≠ none ∧ a.len ≠ some 114 ∧ (a = .ED25519 → a.len ≠ some 64) := by
  intro a ha
  simp only [List.mem_cons, List.not_mem_nil, or_false] at ha
  rcases ha with rfl | rfl <;> exact ⟨rfl, by decide, by decide, by decide⟩

/-- C98: for all other algorithms without digest there is no length. -/
theorem C98_no_digest (c : Crypto) (a : SecAlgorithm) (h : hashOf c a = none) (h1 : a ≠ .ED25519)
    (h2 : a ≠ .ED448) : a.len = none := by
  cases a <;> simp_all [hashOf, len]

/-- Hash functions with these lengths, for the examples: the number of octets, padded with zeros. -/
def exHashes : Crypto → Crypto := fun c =>
  let pad (n : Nat) (b : Bytes) : Bytes := UInt8.ofNat b.length :: List.replicate (n - 1) 0
  { c with md5 := pad 16, sha1 := pad 20, sha256 := pad 32, sha384 := pad 48, sha512 := pad 64 }

example (c : Crypto) : HashLengths (exHashes c) :=
  ⟨by simp [exHashes], by simp [exHashes], by simp [exHashes], by simp [exHashes], by simp [exHashes]⟩

example (c : Crypto) : hashOf (exHashes c) .RSA_SHA256 = some (exHashes c).sha256 ∧
    SecAlgorithm.len .RSA_SHA256 = some ((exHashes c).sha256 [1, 2, 3]).length := by
  refine ⟨rfl, by simp [exHashes, len]⟩

end Dns
