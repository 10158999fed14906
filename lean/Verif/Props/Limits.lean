import Verif.Props.PacketWire
import Verif.Lemmas.NameWrite

/-! C87, C88: what a message can make the reader produce, and that both encodings mean the same. -/

namespace Dns
open Spec Buf

/-- A question takes at least five octets of the message. -/
theorem questionAt_length {cfg : Cfg} {d : Bytes} {i j : Nat} {q : Question}
    (h : QuestionAt Decodes cfg d i q j) : i + 5 ≤ j ∧ j ≤ d.length := by
  obtain ⟨_, v, _, k1, h1, k2, h2, k3, h3, rfl⟩ := h
  have h1 := codeName_end_le (extractFqdn_ok.mp h1)
  obtain ⟨h2, _, _⟩ := octets_iff.mp h2
  obtain ⟨h3, h4, _⟩ := octets_iff.mp h3
  simp [octets16] at h2 h3
  omega

/-- A record takes at least eleven octets of the message, beside its data. -/
theorem recordAt_length {RD : RecordType → Bytes → Nat → RecordData → Prop} {cfg : Cfg} {d : Bytes} {i j : Nat}
    {r : ResourceRecord} (h : RecordAtWith RD Decodes cfg d i r j) : i + 11 ≤ j ∧ j ≤ d.length := by
  obtain ⟨_, _, v, len, k, _, ⟨k1, h1, k2, h2, k3, h3, k4, h4, k5, h5, rfl⟩, rfl, h6, _⟩ := h
  have h1 := codeName_end_le (extractFqdn_ok.mp h1)
  obtain ⟨h2, _, _⟩ := octets_iff.mp h2
  obtain ⟨h3, _, _⟩ := octets_iff.mp h3
  obtain ⟨h4, _, _⟩ := octets_iff.mp h4
  obtain ⟨h5, _, _⟩ := octets_iff.mp h5
  simp [octets16, octets32] at h2 h3 h4 h5
  omega

theorem listAt_length {α : Type} {R : Nat → α → Nat → Prop} {c : Nat} (hR : ∀ i x j, R i x j → i + c ≤ j) :
    ∀ {xs : List α} {i j : Nat}, ListAt R i xs j → i + c * xs.length ≤ j
  | [], i, j, h => by cases h; simp
  | x :: xs, i, j, ⟨k, h1, h2⟩ => by
    have := hR _ _ _ h1
    have := listAt_length hR h2
    simp only [List.length_cons, Nat.mul_add]
    omega

/-- C87: whatever counts the header claims, the packet read from a message has so few questions and
records that they fit into the message: twelve octets for the header, at least five for each question and
eleven for each record. -/
theorem C87_sections_fit (cfg : Cfg) (d : Bytes) (p : Packet) (h : Packet.parse cfg d = .ok p) :
    12 + 5 * p.questions.length + 11 * (records p).length ≤ d.length := by
  obtain ⟨e, _, _, _, _, i1, i2, i3, i4, hh, hq, ha, hu, hd⟩ := Packet.parse_ok.mp h
  have h0 : i1 = 12 ∧ i1 ≤ d.length := by
    obtain ⟨k1, h1, k2, h2, k3, h3, k4, h4, k5, h5, k6, h6, k7, h7, rfl⟩ := hh
    obtain ⟨h1, _, _⟩ := octets_iff.mp h1
    obtain ⟨h2, _, _⟩ := octets_iff.mp h2
    obtain ⟨h3, _, _⟩ := octets_iff.mp h3
    obtain ⟨h4, _, _⟩ := octets_iff.mp h4
    obtain ⟨h5, _, _⟩ := octets_iff.mp h5
    obtain ⟨h6, _, _⟩ := octets_iff.mp h6
    obtain ⟨h7, h8, _⟩ := octets_iff.mp h7
    simp [octets16] at *
    omega
  have e1 := listAt_length (c := 5) (fun i x j h => (questionAt_length h).1) hq
  have e2 := listAt_length (c := 11) (fun i x j h => (recordAt_length h).1) ha
  have e3 := listAt_length (c := 11) (fun i x j h => (recordAt_length h).1) hu
  have e4 := listAt_length (c := 11) (fun i x j h => (recordAt_length h).1) hd
  have hle : ∀ {α : Type} {R : Nat → α → Nat → Prop} {i j : Nat} {xs : List α},
      (∀ i x j, R i x j → j ≤ d.length) → i ≤ d.length → ListAt R i xs j → j ≤ d.length := by
    intro α R i j xs hR hi hl
    induction xs generalizing i with
    | nil => cases hl; exact hi
    | cons x xs ih => obtain ⟨k, h1, h2⟩ := hl; exact ih (hR _ _ _ h1) h2
  have := hle (fun i x j h => (recordAt_length h).2) (hle (fun i x j h => (recordAt_length h).2)
    (hle (fun i x j h => (recordAt_length h).2) (hle (fun i x j h => (questionAt_length h).2) h0.2 hq) ha) hu) hd
  simp only [records, List.length_append]
  omega

/-- C87: the bound is reached: a message of 28 octets with one question and one record. -/
example : Packet.parse ⟨true, true, true⟩ [0, 1, 0x80, 0, 0, 1, 0, 1, 0, 0, 0, 0, 0, 0, 10, 0, 1,
    0, 0, 10, 0, 1, 0, 0, 0, 0, 0, 0] =
    .ok ⟨⟨1, ⟨0x80, 0⟩, 1, 1, 0, 0⟩, [⟨[], .rr .NULL, .IN, false⟩],
      [⟨[], .NULL, false, .IN, 0, .NULL ⟨[]⟩⟩], [], []⟩ := by decide +kernel

/-- C88 is false: the counts of a packet made by `with_questions` are only right in the plain encoding,
and the RDLENGTH of an OPT record is only right in the compressed encoding. -/
theorem C88_counterexample (cfg : Cfg) :
    (∃ plain compressed, (Packet.withQuestions 1 true [exQuestion]).toBytes cfg = .ok plain ∧
      (Packet.withQuestions 1 true [exQuestion]).toBytesCompressed cfg exHash = .ok compressed ∧
      Packet.parse cfg compressed ≠ Packet.parse cfg plain) ∧
    (∃ plain compressed, (onePacket ⟨[], .OPT, false, .udpPayloadSize 1232, 0, .OPT ⟨[(10, [1, 2])]⟩⟩).toBytes cfg
        = .ok plain ∧
      (onePacket ⟨[], .OPT, false, .udpPayloadSize 1232, 0, .OPT ⟨[(10, [1, 2])]⟩⟩).toBytesCompressed cfg exHash
        = .ok compressed ∧
      Packet.parse cfg compressed ≠ Packet.parse cfg plain) := by
  obtain ⟨a, b, c⟩ := cfg
  refine ⟨⟨_, _, rfl, rfl, ?_⟩, ⟨_, _, rfl, rfl, ?_⟩⟩ <;> cases a <;> cases b <;> cases c <;> decide +kernel

/-- C88 (partial): both encodings of a packet are read as the same packet.  What is missing: packets with
wrong counts, with records whose size is computed wrongly (false, see the counterexample), with SSHFP
records, names with colliding hashes, and messages beyond the reach of compression pointers. -/
theorem C88_same_meaning_partial (cfg : Cfg) (h : Hash) (p : Packet) (hp : PacketOk cfg 191 p)
    (hc : CountsOk p) (hs : ∀ r ∈ records p, r.rdata.type ≠ .SSHFP ∧ sizeError r.rdata = 0)
    (hh : NoCollision h (packetNames p)) :
    ∃ plain compressed, p.toBytes cfg = .ok plain ∧ p.toBytesCompressed cfg h = .ok compressed ∧
      (compressed.length ≤ 16384 → Packet.parse cfg compressed = Packet.parse cfg plain ∧
        Packet.parse cfg plain = .ok p) := by
  obtain ⟨b, h1, h2⟩ := C27_packet_round_trip_partial cfg p hp hs
  obtain ⟨c, h3, h4⟩ := C28_compressed_round_trip_partial cfg h p hp hc (fun r hr => (hs r hr).1) hh
  refine ⟨b, c, h1, h3, fun hl => ?_⟩
  have e1 := (h2 []).1
  have e2 := (h4 hl []).1
  rw [List.append_nil] at e1 e2
  rw [C27_counts p hc] at e1
  exact ⟨by rw [e1, e2], e1⟩

/-- C88: the hypotheses hold for the packet of the example, and its two encodings differ. -/
example : PacketOk ⟨true, true, true⟩ 63 exPacket ∧ CountsOk exPacket ∧
    (∀ r ∈ records exPacket, r.rdata.type ≠ .SSHFP ∧ sizeError r.rdata = 0) ∧
    exPacket.toBytes ⟨true, true, true⟩ ≠ exPacket.toBytesCompressed ⟨true, true, true⟩ exHash :=
  ⟨exPacket_ok, ⟨rfl, rfl, rfl, rfl⟩, by decide, by decide +kernel⟩

end Dns
