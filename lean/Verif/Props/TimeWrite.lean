import Verif.Lemmas.OutputLength
import Verif.Lemmas.TimedWriteLower
import Verif.Props.Time

/-
C106: steps of writing with compression (Model/TimedWrite.lean).
-/

namespace Dns
open Spec

/-- C106: counting steps does not change the outcome of `to_bytes_compressed`. -/
theorem C106_same (cfg : Cfg) (h : Hash) (p : Packet) :
    (Timed.packetCompressed cfg h p).1 = p.toBytesCompressed cfg h := Timed.packetCompressed_fst cfg h p

/-- C106: what has been read from a message of `n` octets is written with compression in at most
`800 * (n + 1) ^ 2` steps and three for each octet of the result, whatever the hash function is. -/
theorem C106_steps (cfg cfg' : Cfg) (h : Hash) (d out : Bytes) (p : Packet) (hd : Packet.parse cfg d = .ok p)
    (ho : p.toBytesCompressed cfg' h = .ok out) :
    (Timed.packetCompressed cfg' h p).2 ≤ 800 * (d.length + 1) ^ 2 + 3 * out.length := by
  have h1 := Timed.packetCompressed_steps (Timed.allNames_closed d)
    (fun n hn => .inr (Timed.packetNames_mem hd n hn)) ho
  obtain ⟨h2, _, h3⟩ := C94_bounded cfg d p hd
  rw [Timed.allNames_length] at h1
  have h4 : ∀ rs : List ResourceRecord, (rs.map (fun r => rdataElements r.rdata)).sum ≤
      (rs.map (fun r => rdataSize r.rdata)).sum := by
    intro rs
    induction rs with
    | nil => simp
    | cons r rs ih => simp only [List.map_cons, List.sum_cons, rdataSize] at ih ⊢; omega
  have h4 := h4 (records p)
  have h5 := Nat.mul_le_mul_left (2 * (192 * d.length) + 6) h2
  have e1 : (2 * (192 * d.length) + 4) * d.length = 384 * (d.length * d.length) + 4 * d.length := by ring
  have e2 : (2 * (192 * d.length) + 6) * d.length = 384 * (d.length * d.length) + 6 * d.length := by ring
  have e3 : 800 * (d.length + 1) ^ 2 = 800 * (d.length * d.length) + 1600 * d.length + 800 := by ring
  omega
example (h : Hash) := C106_steps ⟨true, true, true⟩ ⟨true, true, true⟩ h
  [0, 1, 1, 0, 0, 1, 0, 0, 0, 0, 0, 0, 1, 97, 0, 0, 1, 0, 1] _ ⟨⟨1, ⟨1, 0⟩, 1, 0, 0, 0⟩, [⟨[[97]], .rr .A, .IN, false⟩], [], [], []⟩
  (by decide +kernel) rfl

/-- C106: the result has at most `200 * (n + 1) ^ 2` octets. -/
theorem C106_output (cfg cfg' : Cfg) (h : Hash) (d out : Bytes) (p : Packet) (hd : Packet.parse cfg d = .ok p)
    (ho : p.toBytesCompressed cfg' h = .ok out) : out.length ≤ 200 * (d.length + 1) ^ 2 := by
  have h1 := Timed.packet_length ho
  obtain ⟨h2, h3, h4⟩ := C94_bounded cfg d p hd
  have key : ∀ ns : List Fqdn, (∀ n ∈ ns, nameSize n ≤ 192 * d.length) →
      Timed.namesSize ns ≤ (192 * d.length + 2) * ns.length := by
    intro ns
    induction ns with
    | nil => simp [Timed.namesSize]
    | cons n ns ih =>
      intro hn
      have h5 := ih (fun m hm => hn m (by simp [hm]))
      have h6 := hn n (by simp)
      simp only [Timed.namesSize, List.map_cons, List.sum_cons, List.length_cons, Nat.mul_add] at h5 ⊢
      omega
  have h5 := key _ h3
  have h6 := Nat.mul_le_mul_left (192 * d.length + 2) h2
  have e1 : (192 * d.length + 2) * d.length = 192 * (d.length * d.length) + 2 * d.length := by ring
  have e3 : 200 * (d.length + 1) ^ 2 = 200 * (d.length * d.length) + 400 * d.length + 200 := by ring
  omega
example (h : Hash) := C106_output ⟨true, true, true⟩ ⟨true, true, true⟩ h
  [0, 1, 1, 0, 0, 1, 0, 0, 0, 0, 0, 0, 1, 97, 0, 0, 1, 0, 1] _ ⟨⟨1, ⟨1, 0⟩, 1, 0, 0, 0⟩, [⟨[[97]], .rr .A, .IN, false⟩], [], [], []⟩
  (by decide +kernel) rfl

/-- C106: altogether at most `1400 * (n + 1) ^ 2` steps. -/
theorem C106_time (cfg cfg' : Cfg) (h : Hash) (d out : Bytes) (p : Packet) (hd : Packet.parse cfg d = .ok p)
    (ho : p.toBytesCompressed cfg' h = .ok out) :
    (Timed.packetCompressed cfg' h p).2 ≤ 1400 * (d.length + 1) ^ 2 := by
  have h1 := C106_steps cfg cfg' h d out p hd ho
  have h2 := C106_output cfg cfg' h d out p hd ho
  omega
example (h : Hash) := C106_time ⟨true, true, true⟩ ⟨true, true, true⟩ h
  [0, 1, 1, 0, 0, 1, 0, 0, 0, 0, 0, 0, 1, 97, 0, 0, 1, 0, 1] _ ⟨⟨1, ⟨1, 0⟩, 1, 0, 0, 0⟩, [⟨[[97]], .rr .A, .IN, false⟩], [], [], []⟩
  (by decide +kernel) rfl

theorem long_name_steps (k : Nat) (hk : k ≤ 2000) : ∀ (j : Nat) (names : Names) (offset : Nat), j ≤ k →
    (∀ i, 1 ≤ i → i ≤ j → names (UInt64.ofNat i) = none) →
    j * j ≤ (Timed.nameCompressed lengthHash (List.replicate j [97]) names offset).2 := by
  intro j
  induction j with
  | zero => intros; omega
  | succ j ih =>
    intro names offset hj hn
    have h0 : names (lengthHash ([97] :: List.replicate j [97])) = none := by
      simp only [lengthHash, List.length_cons, List.length_replicate]
      exact hn _ (by omega) (by omega)
    have h1 := ih (names.insert (lengthHash ([97] :: List.replicate j [97])) offset) (offset + 2) (by omega) (by
      intro i h1 h2
      simp only [Names.insert, lengthHash, List.length_cons, List.length_replicate]
      rw [if_neg, hn i h1 (by omega)]
      intro h3
      have := congrArg UInt64.toNat h3
      simp only [UInt64.toNat_ofNat'] at this
      omega)
    simp only [List.replicate_succ, Timed.nameCompressed, h0, Timed.hashing]
    simp at h1 ⊢
    have : (j + 1) * (j + 1) = j * j + 2 * j + 1 := by ring
    omega

/-- C106, from below: apart from the header each octet of the result is written and copied to the message. -/
theorem C106_at_least (cfg : Cfg) (h : Hash) (p : Packet) (out : Bytes) (ho : p.toBytesCompressed cfg h = .ok out) :
    2 * out.length ≤ (Timed.packetCompressed cfg h p).2 + 12 := Timed.packetCompressed_lower ho
example (h : Hash) := C106_at_least ⟨true, true, true⟩ h ⟨⟨1, ⟨1, 0⟩, 1, 0, 0, 0⟩, [⟨[[97]], .rr .A, .IN, false⟩], [], [], []⟩ _ rfl

/-- C106: the growth is reached, even by one question.  There are messages of at most `2 * k + 17` octets, for every `k`
up to 2000, with one question that is written in not less than `k * k` steps. -/
theorem C106_reached (cfg : Cfg) (k : Nat) (hk : 1 ≤ k) (hk2 : k ≤ 2000) : ∃ d p, Packet.parse cfg d = .ok p ∧
    d.length ≤ 2 * k + 17 ∧ NoCollision lengthHash (packetNames p) ∧
    k * k ≤ (Timed.packetCompressed cfg lengthHash p).2 := by
  obtain ⟨b, hb, h⟩ := C28_compressed_round_trip_partial cfg lengthHash (longPacket k 1)
    (longPacket_ok cfg k 1 (by decide)) ⟨by simp [longPacket], rfl, rfl, rfl⟩ (by simp [longPacket, records])
    (longPacket_hash k 1 hk2)
  have hl : b.length ≤ 2 * k + 17 := longPacket_length cfg k hk hk2 0 (by decide) b hb
  have hp : Packet.parse cfg b = .ok (longPacket k 1) := by
    have := (h (by omega) []).1
    rwa [List.append_nil] at this
  refine ⟨b, longPacket k 1, hp, hl, longPacket_hash k 1 hk2, ?_⟩
  have h1 := long_name_steps k hk2 k Names.empty 12 (Nat.le_refl _) (fun _ _ _ => rfl)
  have hb : (longPacket k 1).header.toBytes.length = 12 := by simp [Header.toBytes, u16be]
  simp only [Timed.packetCompressed]
  have h2 : (Timed.questionsCompressed cfg lengthHash (longPacket k 1).questions Names.empty
      (longPacket k 1).header.toBytes).2 ≥ (Timed.nameCompressed lengthHash (List.replicate k [97]) Names.empty 12).2 := by
    have : (longPacket k 1).questions = [longQuestion k] := rfl
    rw [this]
    simp only [Timed.questionsCompressed, Timed.questionCompressed, hb, longQuestion]
    omega
  omega

/-- Non-vacuity: a message with two questions, the name of the second one is a pointer to that of the first one; 54
steps for the 25 octets written. -/
example : ∃ p out, Packet.parse ⟨true, true, true⟩
      [0, 1, 0, 0, 0, 2, 0, 0, 0, 0, 0, 0, 1, 97, 0, 0, 1, 0, 1, 0xC0, 12, 0, 1, 0, 1] = .ok p ∧
    p.toBytesCompressed ⟨true, true, true⟩ lengthHash = .ok out ∧ out.length = 25 ∧
    (Timed.packetCompressed ⟨true, true, true⟩ lengthHash p).2 = 54 :=
  ⟨⟨⟨1, ⟨0, 0⟩, 2, 0, 0, 0⟩, [⟨[[97]], .rr .A, .IN, false⟩, ⟨[[97]], .rr .A, .IN, false⟩], [], [], []⟩,
    [0, 1, 0, 0, 0, 2, 0, 0, 0, 0, 0, 0, 1, 97, 0, 0, 1, 0, 1, 0xC0, 12, 0, 1, 0, 1], by decide +kernel⟩

end Dns
