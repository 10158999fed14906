import Verif.Model.Fqdn

/-
The hash function of the compressing writers, src/util.rs:8-14.  `DefaultHasher` is in the standard library, not in the
repository: it is SipHash-1-3 with the key 0.  The other modules of the model take the hash function as a parameter;
here is the one the crate uses.
-/

namespace Dns

/-- What the octets that are hashed depend on besides the name: the byte order and the size of `usize`.
Used at src/util.rs:8-14. -/
structure Target where
  bigEndian : Bool
  wordBytes : Nat

/-- The state of SipHash.  Used at src/util.rs:8-14. -/
structure Sip where
  v0 : UInt64
  v1 : UInt64
  v2 : UInt64
  v3 : UInt64
  deriving DecidableEq, Repr

namespace Sip

/-- `u64::rotate_left`.  Used at src/util.rs:8-14. -/
def rotl (x : UInt64) (k : UInt64) : UInt64 := (x <<< k) ||| (x >>> (64 - k))

/-- The keys 0 and 0 of `DefaultHasher::new()`.  Used at src/util.rs:8-14. -/
def init : Sip := ⟨0x736f6d6570736575, 0x646f72616e646f6d, 0x6c7967656e657261, 0x7465646279746573⟩

/-- One SipRound.  Used at src/util.rs:8-14. -/
def round (s : Sip) : Sip :=
  let v0 := s.v0 + s.v1
  let v1 := rotl s.v1 13 ^^^ v0
  let v0 := rotl v0 32
  let v2 := s.v2 + s.v3
  let v3 := rotl s.v3 16 ^^^ v2
  let v0 := v0 + v3
  let v3 := rotl v3 21 ^^^ v0
  let v2 := v2 + v1
  let v1 := rotl v1 17 ^^^ v2
  let v2 := rotl v2 32
  ⟨v0, v1, v2, v3⟩

/-- One word of the message: one round.  Used at src/util.rs:8-14. -/
def absorb (s : Sip) (m : UInt64) : Sip :=
  let s := round { s with v3 := s.v3 ^^^ m }
  { s with v0 := s.v0 ^^^ m }

/-- The end: three rounds.  Used at src/util.rs:8-14. -/
def finish (s : Sip) : UInt64 :=
  let s := round (round (round { s with v2 := s.v2 ^^^ 0xff }))
  s.v0 ^^^ s.v1 ^^^ s.v2 ^^^ s.v3

end Sip

/-- Octets as a number, the lowest octet first.  Used at src/util.rs:8-14. -/
def ofLE : Bytes → Nat
  | [] => 0
  | b :: bs => b.toNat + 256 * ofLE bs

/-- The words of the message from the state `s` on; `n` is the length of the whole message.  Simplified: the code keeps
the octets that do not fill a word between the calls of `write`, here they are all there.  Used at src/util.rs:8-14. -/
def sipLoop (n : Nat) (s : Sip) (d : Bytes) : UInt64 :=
  if h : 8 ≤ d.length then sipLoop n (s.absorb (UInt64.ofNat (ofLE (d.take 8)))) (d.drop 8)
  else (s.absorb (UInt64.ofNat (ofLE d + 2 ^ 56 * (n % 256)))).finish
termination_by d.length
decreasing_by simp [List.length_drop]; omega

/-- SipHash-1-3 with the key 0.  Used at src/util.rs:8-14. -/
def sipHash13 (d : Bytes) : UInt64 := sipLoop d.length .init d

/-- `usize::to_ne_bytes`.  Used at src/util.rs:8-14. -/
def Target.usize (t : Target) (n : Nat) : Bytes :=
  if t.bigEndian then toBE t.wordBytes n else (toBE t.wordBytes n).reverse

/-- `Hash` of a slice of vectors (std): the number of the elements, and of each its length and its octets.
Used at src/util.rs:8-14. -/
def Target.hashInput (t : Target) (n : Fqdn) : Bytes :=
  t.usize n.length ++ n.flatMap (fun l => t.usize l.length ++ l)

/-- src/util.rs:8-14 `hash_fqdn`. -/
def Target.hashFqdn (t : Target) : Hash := fun n => sipHash13 (t.hashInput n)

end Dns
