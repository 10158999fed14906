import Verif.Lemmas.TimedSize
import Verif.Props.Size
import Verif.Props.Robust

/-
C105: reading a message takes at most quadratic time.

The reader is modelled a second time in Verif/Model/Timed.lean, counting steps: each call of the buffer, each round of
a loop and each octet read, copied or checked is one.
-/

namespace Dns
open Spec

/-- C105: the reader that counts its steps does what the reader does. -/
theorem C105_same (cfg : Cfg) (d : Bytes) : (Timed.Packet.parse cfg d).1 = Packet.parse cfg d := by
  show (Timed.Packet.parseBuf cfg d 0).1.1 = (Packet.parseBuf cfg d 0).1
  rw [(Timed.packet cfg).same]

theorem parse_steps (cfg : Cfg) (d : Bytes) (h : Packet.parse cfg d ≠ .hang) :
    (Timed.Packet.parse cfg d).2 ≤ (Timed.weight d + 45) * d.length + Timed.weight d + 31 := by
  have hb := (Timed.packet cfg).bound d 0 (Nat.zero_le _)
  rw [← C105_same] at h
  unfold Timed.Packet.parse at h ⊢
  rcases hr : Timed.Packet.parseBuf cfg d 0 with ⟨⟨x, j⟩, t⟩
  rw [hr] at hb h
  cases x with
  | hang => exact absurd rfl h
  | ok x =>
    obtain ⟨_, h2, h3⟩ := hb
    have : (Timed.weight d + 45) * (j - 0) ≤ (Timed.weight d + 45) * d.length := Nat.mul_le_mul_left _ h2
    simp only
    omega
  | err e => exact hb
  | panic e => exact hb

/-- C105, for the messages that are not read for ever (`C32_terminates_partial` tells which): a message of `n` octets is
accepted or refused in at most `400 * (n + 2) ^ 2` steps.  Missing: the messages with a cycle of pointers
(`C105_counterexample`). -/
theorem C105_time_partial (cfg : Cfg) (d : Bytes) (h : Packet.parse cfg d ≠ .hang) :
    (Timed.Packet.parse cfg d).2 ≤ 400 * (d.length + 2) ^ 2 := by
  have := parse_steps cfg d h
  have hw : Timed.weight d ≤ 384 * d.length + 576 := by unfold Timed.weight; split <;> omega
  have h1 : (Timed.weight d + 45) * d.length ≤ (384 * d.length + 621) * d.length := Nat.mul_le_mul_right _ (by omega)
  have h2 : (384 * d.length + 621) * d.length = 384 * (d.length * d.length) + 621 * d.length := by ring
  have h3 : 400 * (d.length + 2) ^ 2 = 400 * (d.length * d.length) + 1600 * d.length + 1600 := by ring
  omega
example : (Timed.Packet.parse ⟨true, true, true⟩ [0, 1, 1, 0, 0, 1, 0, 0, 0, 0, 0, 0, 1, 97, 0, 0, 1, 0, 1]).2 ≤ 400 * 21 ^ 2 :=
  C105_time_partial ⟨true, true, true⟩ [0, 1, 1, 0, 0, 1, 0, 0, 0, 0, 0, 0, 1, 97, 0, 0, 1, 0, 1] (by decide +kernel)

/-- C105: without octets from 192 the time is linear. -/
theorem C105_linear (cfg : Cfg) (d : Bytes) (h : ∀ b ∈ d, b.toNat < 192) :
    (Timed.Packet.parse cfg d).2 ≤ 240 * (d.length + 1) := by
  have h1 := parse_steps cfg d (C32_terminates_without_pointers_partial cfg d h)
  have hw : Timed.weight d = 192 := if_pos h
  rw [hw] at h1
  omega
example (cfg : Cfg) : (Timed.Packet.parse cfg [0, 1, 1, 0, 0, 1, 0, 0, 0, 0, 0, 0, 1, 97, 0, 0, 1, 0, 1]).2 ≤ 240 * 20 :=
  C105_linear cfg [0, 1, 1, 0, 0, 1, 0, 0, 0, 0, 0, 0, 1, 97, 0, 0, 1, 0, 1] (by decide)

/-- A name that is not read to the end takes more than any number of steps. -/
theorem endless_steps (d : Bytes) : ∀ (k : Nat) (s : Buf.FqdnState), Buf.fqdnLoop d k s = none →
    k ≤ (Timed.fqdnLoop d k s).2
  | 0, _, _ => Nat.zero_le _
  | k + 1, s, h => by
    have hr : 1 ≤ Timed.fqdnRound d s := by
      unfold Timed.fqdnRound
      split
      · exact Nat.le_refl _
      · split <;> omega
    unfold Buf.fqdnLoop at h
    unfold Timed.fqdnLoop
    cases hs : Buf.fqdnStep d s with
    | inl s' =>
      rw [hs] at h
      have := endless_steps d k s' h
      simp only
      omega
    | inr r => rw [hs] at h; cases h

/-- C105 is false: there are messages of twenty octets for which no number of steps is enough, in any build. -/
theorem C105_counterexample (cfg : Cfg) : ∃ d : Bytes, d.length = 20 ∧ Packet.parse cfg d = .hang ∧
    ∀ k, (Timed.fqdnLoop d k ⟨12, [], none⟩).1 = none ∧ k ≤ (Timed.fqdnLoop d k ⟨12, [], none⟩).2 := by
  refine ⟨exCut ++ [1, 97, 0xC0, 12, 0, 1, 0, 1], by decide, (C32_counterexample cfg).1, fun k => ?_⟩
  have h : (Buf.extractFqdn (exCut ++ [1, 97, 0xC0, 12, 0, 1, 0, 1]) 12).1 = .hang := by decide +kernel
  have := (C09_hang_is_endless _ _).mp h k
  exact ⟨by rw [Timed.fqdnLoop_same]; exact this, endless_steps _ _ _ this⟩

/-- C105, from below: the octets and elements of the packet that is built (C94) are at most twice the steps. -/
theorem C105_size (cfg : Cfg) (d : Bytes) (p : Packet) (h : Packet.parse cfg d = .ok p) :
    packetSize p ≤ 2 * (Timed.Packet.parse cfg d).2 := by
  rw [← C105_same] at h
  unfold Timed.Packet.parse at h ⊢
  rcases hr : Timed.Packet.parseBuf cfg d 0 with ⟨⟨x, j⟩, t⟩
  rw [hr] at h
  cases h
  simp only
  unfold Timed.Packet.parseBuf at hr
  obtain ⟨_, _, _, _, -, g1, e1⟩ := timed_bind_ok hr
  obtain ⟨qs, _, _, _, h1, g2, e2⟩ := timed_bind_ok g1
  have k1 := times_pays _ (fun _ _ _ _ _ => question_pays) _ _ _ _ _ _ h1
  obtain ⟨an, _, _, _, h2, g3, e3⟩ := timed_bind_ok g2
  have k2 := times_pays2 _ (fun _ _ _ _ _ => record_pays) _ _ _ _ _ _ h2
  obtain ⟨au, _, _, _, h3, g4, e4⟩ := timed_bind_ok g3
  have k3 := times_pays2 _ (fun _ _ _ _ _ => record_pays) _ _ _ _ _ _ h3
  obtain ⟨ad, _, _, _, h4, g5, e5⟩ := timed_bind_ok g4
  have k4 := times_pays2 _ (fun _ _ _ _ _ => record_pays) _ _ _ _ _ _ h4
  cases g5
  have split : ∀ l : List ResourceRecord, (l.map (fun r => nameSize r.name + dataSize r.rdata)).sum =
      ((l.flatMap (fun r => r.name :: rdataNames r.rdata)).map nameSize).sum +
        (l.map (fun r => rdataSize r.rdata)).sum := by
    intro l
    induction l with
    | nil => rfl
    | cons r l ih =>
      simp only [List.map_cons, List.sum_cons, List.flatMap_cons, List.map_append, List.sum_append, dataSize] at ih ⊢
      omega
  rw [split] at k2 k3 k4
  simp only [packetSize, packetNames, records, List.map_append, List.sum_append, List.flatMap_append, List.map_map,
    Function.comp_def] at k1 k2 k3 k4 ⊢
  omega
example := C105_size ⟨true, true, true⟩ [0, 1, 1, 0, 0, 1, 0, 0, 0, 0, 0, 0, 1, 97, 0, 0, 1, 0, 1] ⟨⟨1, ⟨1, 0⟩, 1, 0, 0, 0⟩, [⟨[[97]], .rr .A, .IN, false⟩], [], [], []⟩
  (by decide +kernel)

/-- C105: the octets of the names of the questions are among the steps. -/
theorem C105_names (cfg : Cfg) (d : Bytes) (p : Packet) (h : Packet.parse cfg d = .ok p) :
    (p.questions.map (fun q => nameSize q.qName)).sum ≤ (Timed.Packet.parse cfg d).2 := by
  rw [← C105_same] at h
  unfold Timed.Packet.parse at h ⊢
  rcases hr : Timed.Packet.parseBuf cfg d 0 with ⟨⟨x, j⟩, t⟩
  rw [hr] at h
  cases h
  simp only
  unfold Timed.Packet.parseBuf at hr
  obtain ⟨_, _, _, _, -, g1, e1⟩ := timed_bind_ok hr
  obtain ⟨_, _, _, _, h1, g2, e2⟩ := timed_bind_ok g1
  have := times_pays _ (fun _ _ _ _ _ => question_pays) _ _ _ _ _ _ h1
  obtain ⟨_, _, _, _, -, g3, e3⟩ := timed_bind_ok g2
  obtain ⟨_, _, _, _, -, g4, e4⟩ := timed_bind_ok g3
  obtain ⟨_, _, _, _, -, g5, e5⟩ := timed_bind_ok g4
  cases g5
  simp only
  omega
example := C105_names ⟨true, true, true⟩ [0, 1, 1, 0, 0, 1, 0, 0, 0, 0, 0, 0, 1, 97, 0, 0, 1, 0, 1] ⟨⟨1, ⟨1, 0⟩, 1, 0, 0, 0⟩, [⟨[[97]], .rr .A, .IN, false⟩], [], [], []⟩
  (by decide +kernel)

/-- C105: the growth is reached.  There are messages of at most `8 * k + 11` octets, for every `k` up to 2000, that are
read in not less than `2 * k * k` steps. -/
theorem C105_reached (cfg : Cfg) (k : Nat) (hk : 1 ≤ k) (hk2 : k ≤ 2000) : ∃ d p, Packet.parse cfg d = .ok p ∧
    d.length ≤ 8 * k + 11 ∧ 2 * k * k ≤ (Timed.Packet.parse cfg d).2 := by
  obtain ⟨b, hb, h⟩ := C28_compressed_round_trip_partial cfg lengthHash (longPacket k k)
    (longPacket_ok cfg k k hk2) ⟨by simp [longPacket]; omega, rfl, rfl, rfl⟩ (by simp [longPacket, records])
    (longPacket_hash k k hk2)
  have hl : b.length ≤ 8 * k + 11 := by
    obtain ⟨m, rfl⟩ : ∃ m, k = m + 1 := ⟨k - 1, by omega⟩
    have := longPacket_length cfg (m + 1) hk hk2 m hk2 b hb
    omega
  have hp : Packet.parse cfg b = .ok (longPacket k k) := by
    have := (h (by omega) []).1
    rwa [List.append_nil] at this
  refine ⟨b, longPacket k k, hp, hl, ?_⟩
  have := C105_names cfg b _ hp
  simp [longPacket, longQuestion, nameSize] at this
  have : k * (k + k) = 2 * k * k := by ring
  omega

/-- Non-vacuity: a message with two questions, the name of the second one is a pointer to that of the first one. -/
example : Packet.parse ⟨true, true, true⟩
      [0, 1, 0, 0, 0, 2, 0, 0, 0, 0, 0, 0, 1, 97, 0, 0, 1, 0, 1, 0xC0, 12, 0, 1, 0, 1] ≠ .hang ∧
    (Timed.Packet.parse ⟨true, true, true⟩
      [0, 1, 0, 0, 0, 2, 0, 0, 0, 0, 0, 0, 1, 97, 0, 0, 1, 0, 1, 0xC0, 12, 0, 1, 0, 1]).2 = 43 := by
  decide +kernel

/-- Non-vacuity: what is built from it. -/
example : ∃ p, Packet.parse ⟨true, true, true⟩
      [0, 1, 0, 0, 0, 2, 0, 0, 0, 0, 0, 0, 1, 97, 0, 0, 1, 0, 1, 0xC0, 12, 0, 1, 0, 1] = .ok p ∧ packetSize p = 4 :=
  ⟨⟨⟨1, ⟨0, 0⟩, 2, 0, 0, 0⟩, [⟨[[97]], .rr .A, .IN, false⟩, ⟨[[97]], .rr .A, .IN, false⟩], [], [], []⟩,
    by decide +kernel, by decide⟩

/-- Non-vacuity: a message without octets from 192. -/
example : (∀ b ∈ exCut ++ [1, 97, 0, 0, 1, 0, 1], b.toNat < 192) ∧
    (Timed.Packet.parse ⟨true, true, true⟩ (exCut ++ [1, 97, 0, 0, 1, 0, 1])).2 = 30 := by
  decide +kernel

end Dns
