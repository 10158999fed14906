import Verif.Model.SipHash
import Verif.Props.Hash

/-
C83 for the hash function of the crate, SipHash-1-3 of the labels of the name.
-/

namespace Dns
open Spec Buf

/-- A name can be in the memory of the machine: the numbers of its labels and octets fit into a `usize`. -/
def Target.Fits (t : Target) (n : Fqdn) : Prop :=
  n.length < 256 ^ t.wordBytes ∧ ∀ l ∈ n, l.length < 256 ^ t.wordBytes

theorem Target.usize_length (t : Target) (n : Nat) : (t.usize n).length = t.wordBytes := by
  unfold Target.usize
  split <;> simp

theorem Target.usize_inj (t : Target) {a b : Nat} (ha : a < 256 ^ t.wordBytes) (hb : b < 256 ^ t.wordBytes)
    (h : t.usize a = t.usize b) : a = b := by
  unfold Target.usize at h
  split at h
  · exact toBE_inj ha hb h
  · exact toBE_inj ha hb (List.reverse_inj.mp h)

theorem Target.labels_inj (t : Target) : ∀ (a b : List Bytes) (x y : Bytes), a.length = b.length →
    (∀ l ∈ a, l.length < 256 ^ t.wordBytes) → (∀ l ∈ b, l.length < 256 ^ t.wordBytes) →
    a.flatMap (fun l => t.usize l.length ++ l) ++ x = b.flatMap (fun l => t.usize l.length ++ l) ++ y →
    a = b ∧ x = y := by
  intro a
  induction a with
  | nil => intro b x y hl _ _ h; cases b with
    | nil => exact ⟨rfl, by simpa using h⟩
    | cons => simp at hl
  | cons l a ih => intro b x y hl ha hb h; cases b with
    | nil => simp at hl
    | cons m b =>
      simp only [List.flatMap_cons, List.append_assoc] at h
      obtain ⟨h1, h2⟩ := List.append_inj h (by rw [t.usize_length, t.usize_length])
      have e := t.usize_inj (ha l (by simp)) (hb m (by simp)) h1
      obtain ⟨h3, h4⟩ := List.append_inj h2 e
      obtain ⟨h5, h6⟩ := ih b x y (by simpa using hl) (fun k hk => ha k (by simp [hk]))
        (fun k hk => hb k (by simp [hk])) h4
      exact ⟨by rw [h3, h5], h6⟩

/-- C83: the octets that are hashed determine the name, even if other octets follow, on machines of all byte orders
and word sizes.  So only a collision of SipHash-1-3 can make the writer take a name for another one. -/
theorem C83_hashed_octets (t : Target) (a b : Fqdn) (x y : Bytes) (ha : t.Fits a) (hb : t.Fits b)
    (h : t.hashInput a ++ x = t.hashInput b ++ y) : a = b ∧ x = y := by
  unfold Target.hashInput at h
  rw [List.append_assoc, List.append_assoc] at h
  obtain ⟨h1, h2⟩ := List.append_inj h (by rw [t.usize_length, t.usize_length])
  exact t.labels_inj a b x y (t.usize_inj ha.1 hb.1 h1) ha.2 hb.2 h2
example (x y : Bytes) (b : Fqdn) (hb : Target.Fits ⟨false, 8⟩ b)
    (h : Target.hashInput ⟨false, 8⟩ [[97], [98]] ++ x = Target.hashInput ⟨false, 8⟩ b ++ y) : [[97], [98]] = b :=
  (C83_hashed_octets ⟨false, 8⟩ [[97], [98]] b x y (by simp [Target.Fits]) hb h).1

/-- SipHash-1-3 has different values for what is hashed for the names and their endings. -/
def Target.NoSipCollision (t : Target) (names : List Fqdn) : Prop :=
  ∀ a b : Fqdn, (∃ n ∈ names, a <:+ n) → (∃ n ∈ names, b <:+ n) →
    sipHash13 (t.hashInput a) = sipHash13 (t.hashInput b) → t.hashInput a = t.hashInput b

theorem Target.Fits.suffix {t : Target} {n s : Fqdn} (h : t.Fits n) (hs : s <:+ n) : t.Fits s :=
  ⟨Nat.lt_of_le_of_lt hs.length_le h.1, fun l hl => h.2 l (hs.subset hl)⟩

/-- The hash function of the crate meets the condition of the theorems on compression unless SipHash-1-3 has a
collision on the octets hashed for the names of the packet. -/
theorem hashFqdn_noCollision (t : Target) (names : List Fqdn) (hn : ∀ n ∈ names, t.Fits n)
    (hs : t.NoSipCollision names) : NoCollision t.hashFqdn names := by
  rintro a b ⟨n, h1, h2⟩ ⟨m, h3, h4⟩ h
  have e := hs a b ⟨n, h1, h2⟩ ⟨m, h3, h4⟩ h
  exact (C83_hashed_octets t a b [] [] ((hn n h1).suffix h2) ((hn m h3).suffix h4) (by simpa using e)).1

/-- C83 for the crate (partial): on two machines of any byte order and word size a packet is written with compression
to the same octets, and these are what any hash function without collisions gives.  What is missing: packets with
names on which SipHash-1-3 has a collision (false, `C83_counterexample` holds for `t.hashFqdn` too). -/
theorem C83_machines_partial (cfg : Cfg) (t u : Target) (p : Packet)
    (ht : ∀ n ∈ packetNames p, t.Fits n ∧ u.Fits n) (hs : t.NoSipCollision (packetNames p))
    (hs' : u.NoSipCollision (packetNames p)) :
    p.toBytesCompressed cfg t.hashFqdn = p.toBytesCompressed cfg u.hashFqdn ∧
    ∀ h, NoCollision h (packetNames p) → p.toBytesCompressed cfg t.hashFqdn = p.toBytesCompressed cfg h := by
  have h1 := hashFqdn_noCollision t _ (fun n hn => (ht n hn).1) hs
  have h2 := hashFqdn_noCollision u _ (fun n hn => (ht n hn).2) hs'
  exact ⟨C83_hash_independent_partial cfg _ _ p h1 h2, fun h hh => C83_hash_independent_partial cfg _ _ p h1 hh⟩

/-- The hypotheses hold for the packet of the example on a machine of 64 bits with the low octet first and one of
32 bits with the high octet first. -/
example : (∀ n ∈ packetNames exPacket, Target.Fits ⟨false, 8⟩ n ∧ Target.Fits ⟨true, 4⟩ n) ∧
    Target.NoSipCollision ⟨false, 8⟩ (packetNames exPacket) ∧ Target.NoSipCollision ⟨true, 4⟩ (packetNames exPacket) := by
  have key : ∀ a ∈ (packetNames exPacket).flatMap List.tails, ∀ b ∈ (packetNames exPacket).flatMap List.tails,
      (sipHash13 (Target.hashInput ⟨false, 8⟩ a) = sipHash13 (Target.hashInput ⟨false, 8⟩ b) → a = b) ∧
      (sipHash13 (Target.hashInput ⟨true, 4⟩ a) = sipHash13 (Target.hashInput ⟨true, 4⟩ b) → a = b) := by
    decide +kernel
  refine ⟨?_, ?_, ?_⟩
  · unfold Target.Fits
    decide +kernel
  · rintro a b ⟨n, hn, ha⟩ ⟨m, hm, hb⟩ h
    rw [(key a (List.mem_flatMap.mpr ⟨n, hn, (List.mem_tails _ _).mpr ha⟩) b
      (List.mem_flatMap.mpr ⟨m, hm, (List.mem_tails _ _).mpr hb⟩)).1 h]
  · rintro a b ⟨n, hn, ha⟩ ⟨m, hm, hb⟩ h
    rw [(key a (List.mem_flatMap.mpr ⟨n, hn, (List.mem_tails _ _).mpr ha⟩) b
      (List.mem_flatMap.mpr ⟨m, hm, (List.mem_tails _ _).mpr hb⟩)).2 h]

/-- What `DefaultHasher` gives for no octets (from the standard library), and two names that the crate hashes. -/
example : sipHash13 [] = 15130871412783076140 ∧
    Target.hashInput ⟨false, 8⟩ [[97, 98]] = [1, 0, 0, 0, 0, 0, 0, 0, 2, 0, 0, 0, 0, 0, 0, 0, 97, 98] ∧
    Target.hashFqdn ⟨false, 8⟩ [[97, 98]] ≠ Target.hashFqdn ⟨false, 8⟩ [[97], [98]] := by decide +kernel

end Dns
