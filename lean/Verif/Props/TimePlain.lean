import Verif.Lemmas.TimedPlain
import Verif.Props.Time
import Verif.Spec.Labels

/-
C141: steps of writing without compression (Model/TimedPlain.lean).
-/

namespace Dns
open Spec

/-- C141: counting steps does not change the outcome of `to_bytes`. -/
theorem C141_same (cfg : Cfg) (p : Packet) : (Timed.packetPlain cfg p).1 = p.toBytes cfg := Timed.packetPlain_fst cfg p

/-- C141: whatever packet is written, the steps are at most nine for each octet of the result, six for each label and
five for each element of a list. -/
theorem C141_steps (cfg : Cfg) (p : Packet) (out : Bytes) (h : p.toBytes cfg = .ok out) :
    (Timed.packetPlain cfg p).2 ≤ 9 * out.length + 6 * packetLabels p + 5 * packetElements p :=
  (Timed.packetPlain_steps h).1
example := C141_steps ⟨true, true, true⟩ ⟨⟨1, ⟨1, 0⟩, 1, 0, 0, 0⟩, [⟨[[97], [], [98, 99]], .rr .A, .IN, false⟩], [], [], []⟩ _ rfl

/-- C141, from below: apart from the header each octet of the result is written and copied to the message. -/
theorem C141_at_least (cfg : Cfg) (p : Packet) (out : Bytes) (h : p.toBytes cfg = .ok out) :
    2 * out.length ≤ (Timed.packetPlain cfg p).2 + 12 := (Timed.packetPlain_steps h).2.2
example := C141_at_least ⟨true, true, true⟩ ⟨⟨1, ⟨1, 0⟩, 1, 0, 0, 0⟩, [⟨[[97], [], [98, 99]], .rr .A, .IN, false⟩], [], [], []⟩ _ rfl

theorem labels_plain {n : Fqdn} (h : ∀ l ∈ n, 1 ≤ l.length) : 2 * n.length + 1 ≤ n.toBytes.length := by
  induction n with
  | nil => simp [Fqdn.toBytes, Fqdn.labelBytes]
  | cons l ls ih =>
    have h1 := ih (fun m hm => h m (by simp [hm]))
    have h2 := h l (by simp)
    have h3 : l.isEmpty = false := by cases l <;> simp at h2 ⊢
    simp only [Fqdn.toBytes, Fqdn.labelBytes, h3, List.length_append, List.length_cons, List.length_nil, Bool.not_false,
      if_true] at h1 ⊢
    omega

theorem packetLabels_le {p : Packet} (h : ∀ n ∈ packetNames p, ∀ l ∈ n, 1 ≤ l.length) :
    2 * packetLabels p ≤ Timed.plainSize (packetNames p) := by
  unfold packetLabels Timed.plainSize
  generalize packetNames p = ns at h
  induction ns with
  | nil => simp
  | cons n ns ih =>
    have h1 := ih (fun m hm => h m (by simp [hm]))
    have h2 := labels_plain (h n (by simp))
    simp only [List.map_cons, List.sum_cons]
    omega

theorem nameWith_nonempty {max : Nat} {a : Nat → Nat → Prop} {d : Bytes} {i j : Nat} {n : Fqdn}
    (h : NameWith max a d i n j) : ∀ l ∈ n, 1 ≤ l.length := by
  induction h with
  | root => simp
  | label h1 _ h2 _ _ ih =>
    intro m hm
    rcases List.mem_cons.mp hm with rfl | hm
    · omega
    · exact ih m hm
  | pointer _ _ _ _ ih => exact ih

/-- The labels of a packet that has been read have octets. -/
theorem parsed_labels {cfg : Cfg} {d : Bytes} {p : Packet} (h : Packet.parse cfg d = .ok p) :
    ∀ n ∈ packetNames p, ∀ l ∈ n, 1 ≤ l.length := by
  intro n hn
  have h1 := Timed.packetNames_mem h n hn
  simp only [Timed.allNames, List.mem_map] at h1
  obtain ⟨i, _, rfl⟩ := h1
  unfold Timed.nameAt
  split
  · rename_i hx
    obtain ⟨_, j, h2⟩ := hx.choose_spec
    exact nameWith_nonempty h2
  · simp

/-- C141: what has been read from a message of `n` octets is written in time linear in what was read and what is
written: at most twelve steps for each octet of the result and forty for each octet of the message. -/
theorem C141_linear (cfg cfg' : Cfg) (d out : Bytes) (p : Packet) (hd : Packet.parse cfg d = .ok p)
    (ho : p.toBytes cfg' = .ok out) : (Timed.packetPlain cfg' p).2 ≤ 12 * out.length + 40 * d.length := by
  obtain ⟨h1, h2, _⟩ := Timed.packetPlain_steps ho
  have h3 := packetLabels_le (parsed_labels hd)
  have h4 := (C94_bounded cfg d p hd).2.2
  have h5 : ∀ rs : List ResourceRecord, (rs.map (fun r => rdataElements r.rdata)).sum ≤
      (rs.map (fun r => rdataSize r.rdata)).sum := by
    intro rs
    induction rs with
    | nil => simp
    | cons r rs ih => simp only [List.map_cons, List.sum_cons, rdataSize] at ih ⊢; omega
  have h5 := h5 (records p)
  have h6 : Timed.labels (packetNames p) = packetLabels p := rfl
  omega
example := C141_linear ⟨true, true, true⟩ ⟨true, true, true⟩
  [0, 1, 1, 0, 0, 1, 0, 0, 0, 0, 0, 0, 1, 97, 0, 0, 1, 0, 1] _ ⟨⟨1, ⟨1, 0⟩, 1, 0, 0, 0⟩, [⟨[[97]], .rr .A, .IN, false⟩], [], [], []⟩
  (by decide +kernel) rfl

/-- C141: the result has at most `200 * (n + 1) ^ 2` octets. -/
theorem C141_output (cfg cfg' : Cfg) (d out : Bytes) (p : Packet) (hd : Packet.parse cfg d = .ok p)
    (ho : p.toBytes cfg' = .ok out) : out.length ≤ 200 * (d.length + 1) ^ 2 := by
  have h1 := Timed.packet_length_plain ho
  obtain ⟨h2, h3, h4⟩ := C94_bounded cfg d p hd
  have key : ∀ ns : List Fqdn, (∀ n ∈ ns, nameSize n ≤ 192 * d.length) →
      Timed.namesSize ns ≤ (192 * d.length + 2) * ns.length := by
    intro ns
    induction ns with
    | nil => simp [Timed.namesSize]
    | cons n ns ih =>
      intro hn
      have h5 := ih (fun m hm => hn m (by simp [hm]))
      have h6 := hn n (by simp)
      simp only [Timed.namesSize, List.map_cons, List.sum_cons, List.length_cons, Nat.mul_add] at h5 ⊢
      omega
  have h5 := key _ h3
  have h6 := Nat.mul_le_mul_left (192 * d.length + 2) h2
  have e1 : (192 * d.length + 2) * d.length = 192 * (d.length * d.length) + 2 * d.length := by ring
  have e3 : 200 * (d.length + 1) ^ 2 = 200 * (d.length * d.length) + 400 * d.length + 200 := by ring
  omega
example := C141_output ⟨true, true, true⟩ ⟨true, true, true⟩
  [0, 1, 1, 0, 0, 1, 0, 0, 0, 0, 0, 0, 1, 97, 0, 0, 1, 0, 1] _ ⟨⟨1, ⟨1, 0⟩, 1, 0, 0, 0⟩, [⟨[[97]], .rr .A, .IN, false⟩], [], [], []⟩
  (by decide +kernel) rfl

theorem longPlain_length (cfg : Cfg) (k m : Nat) : ∃ out, (longPacket k m).toBytes cfg = .ok out ∧
    out.length = 12 + m * (2 * k + 5) := by
  have h2 : ∀ k, (Fqdn.labelBytes (List.replicate k [97])).length = 2 * k := by
    intro k
    induction k with
    | zero => rfl
    | succ k ih => simp only [List.replicate_succ, Fqdn.labelBytes, List.length_append, ih]; simp; omega
  refine ⟨_, rfl, ?_⟩
  have key : ∀ (m : Nat) (b : Bytes), ((List.replicate m (longQuestion k)).foldl (fun bin q => bin ++ q.toBytes cfg) b).length =
      b.length + m * (2 * k + 5) := by
    intro m
    induction m with
    | zero => intro b; simp
    | succ m ih =>
      intro b
      rw [List.replicate_succ, List.foldl_cons, ih, List.length_append]
      have : ((longQuestion k).toBytes cfg).length = 2 * k + 5 := by
        simp [longQuestion, Question.toBytes, Fqdn.toBytes, h2, u16be]
      rw [this]
      ring
  show ((List.replicate m (longQuestion k)).foldl _ (longPacket k m).headerBytes).length = _
  rw [key]
  rfl

/-- C141: the growth is reached.  From `8 * k + 11` octets at most, which are read as a packet, more than `2 * k * k`
octets are written, for every `k` up to 2000: 16011 octets make eight million. -/
theorem C141_reached (cfg : Cfg) (k : Nat) (hk : 1 ≤ k) (hk2 : k ≤ 2000) : ∃ d p out, Packet.parse cfg d = .ok p ∧
    p.toBytes cfg = .ok out ∧ d.length ≤ 8 * k + 11 ∧ 2 * k * k < out.length ∧
    4 * k * k < (Timed.packetPlain cfg p).2 := by
  obtain ⟨b, hb, h⟩ := C28_compressed_round_trip_partial cfg lengthHash (longPacket k k)
    (longPacket_ok cfg k k hk2) ⟨by simp [longPacket]; omega, rfl, rfl, rfl⟩ (by simp [longPacket, records])
    (longPacket_hash k k hk2)
  have hl : b.length ≤ 8 * k + 11 := by
    obtain ⟨m, rfl⟩ : ∃ m, k = m + 1 := ⟨k - 1, by omega⟩
    have := longPacket_length cfg (m + 1) hk hk2 m hk2 b hb
    omega
  obtain ⟨out, ho, hlen⟩ := longPlain_length cfg k k
  have h1 := C141_at_least cfg (longPacket k k) out ho
  have e1 : k * (2 * k + 5) = 2 * (k * k) + 5 * k := by ring
  have e2 : 2 * k * k = 2 * (k * k) := by ring
  have e3 : 4 * k * k = 4 * (k * k) := by ring
  refine ⟨b, longPacket k k, out, ?_, ho, hl, by omega, by omega⟩
  have := (h (by omega) []).1
  rwa [List.append_nil] at this
example (cfg : Cfg) := C141_reached cfg 1000 (by decide) (by decide)

/-- C141: labels without octets, which only a program can put into a name, are not for nothing: the same 17 octets of a
question take as many steps as there are such labels. -/
theorem C141_empty_labels (cfg : Cfg) (k : Nat) : ∃ p out, p.toBytes cfg = .ok out ∧ out.length = 17 ∧
    k ≤ (Timed.packetPlain cfg p).2 := by
  refine ⟨⟨⟨1, ⟨0, 0⟩, 1, 0, 0, 0⟩, [⟨List.replicate k [], .rr .A, .IN, false⟩], [], [], []⟩, _, rfl, ?_, ?_⟩
  · have h : Fqdn.labelBytes (List.replicate k []) = [] := by
      induction k with
      | zero => rfl
      | succ k ih => simp [List.replicate_succ, Fqdn.labelBytes, ih]
    simp [Question.toBytes, Fqdn.toBytes, h, Packet.headerBytes, Header.toBytes, u16be]
  · simp only [Timed.packetPlain, Timed.packetSizing, Timed.questionSizing, Timed.nameSizing_eq, List.map_cons,
      List.sum_cons, List.length_replicate]
    omega
example := C141_empty_labels ⟨true, true, true⟩ 1000000

/-- Non-vacuity: a message with two questions, the name of the second one is a pointer to that of the first one; it is
written in 26 octets and 64 steps. -/
example : ∃ p out, Packet.parse ⟨true, true, true⟩
      [0, 1, 0, 0, 0, 2, 0, 0, 0, 0, 0, 0, 1, 97, 0, 0, 1, 0, 1, 0xC0, 12, 0, 1, 0, 1] = .ok p ∧
    p.toBytes ⟨true, true, true⟩ = .ok out ∧ out.length = 26 ∧
    (Timed.packetPlain ⟨true, true, true⟩ p).2 = 64 :=
  ⟨⟨⟨1, ⟨0, 0⟩, 2, 0, 0, 0⟩, [⟨[[97]], .rr .A, .IN, false⟩, ⟨[[97]], .rr .A, .IN, false⟩], [], [], []⟩,
    [0, 1, 0, 0, 0, 2, 0, 0, 0, 0, 0, 0, 1, 97, 0, 0, 1, 0, 1, 1, 97, 0, 0, 1, 0, 1], by decide +kernel⟩

end Dns
