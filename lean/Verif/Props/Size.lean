import Verif.Lemmas.Size
import Verif.Props.Repeat
import Verif.Props.PacketSize
import Verif.Props.Robust

/-! C94: how much a message can make the reader produce. -/

namespace Dns
open Spec Buf

/-! ## C94 -/

theorem name_size {d : Bytes} {a b : Nat} {n : Fqdn} (h : extractFqdn d a = (.ok n, b)) :
    nameSize n ≤ 192 * d.length := by
  have h1 := C57_name_bounded d a b n h
  have h2 : ∀ m : Fqdn, (∀ l ∈ m, l.length ≤ 191) → nameSize m ≤ 192 * m.length := by
    intro m
    induction m with
    | nil => simp [nameSize]
    | cons l m ih =>
      intro hm
      have := ih (fun l hl => hm l (by simp [hl]))
      have := hm l (by simp)
      simp only [nameSize, List.map_cons, List.sum_cons, List.length_cons] at *
      omega
  have := h2 n (fun l hl => (C57_label_bounded d a b n h l hl).2.1)
  omega

theorem listAt_sum {α : Type} {R : Nat → α → Nat → Prop} (f : α → Nat) (hR : ∀ i x j, R i x j → f x + i ≤ j) :
    ∀ {xs : List α} {i j : Nat}, ListAt R i xs j → (xs.map f).sum + i ≤ j
  | [], i, j, h => by cases h; simp
  | x :: xs, i, j, ⟨k, h1, h2⟩ => by
    have := hR _ _ _ h1
    have := listAt_sum f hR h2
    simp only [List.map_cons, List.sum_cons]
    omega

/-- What a record read from a message holds. -/
theorem recordAt_size {cfg : Cfg} {d : Bytes} {i j : Nat} {r : ResourceRecord}
    (h : RecordAtWith (ParsedData cfg) Decodes cfg d i r j) :
    rdataSize r.rdata + 8 * i ≤ 8 * j ∧ (r.name :: rdataNames r.rdata).length + i ≤ j ∧
      ∀ n ∈ r.name :: rdataNames r.rdata, nameSize n ≤ 192 * d.length := by
  obtain ⟨_, _, v, len, k, _, ⟨k1, h1, k2, h2, k3, h3, k4, h4, k5, h5, rfl⟩, rfl, h6, e, h7⟩ := h
  have h1' := name_size h1
  have h1 := codeName_end_le (extractFqdn_ok.mp h1)
  obtain ⟨h2, _, _⟩ := octets_iff.mp h2
  obtain ⟨h3, _, _⟩ := octets_iff.mp h3
  obtain ⟨h4, _, _⟩ := octets_iff.mp h4
  obtain ⟨h5, _, _⟩ := octets_iff.mp h5
  simp [octets16, octets32] at h2 h3 h4 h5
  have h8 := RecordData.size_le h7
  have h9 := RecordData.bounded cfg r.type (d.take (k5 + len.toNat)) k5 (by rw [List.length_take]; omega)
  rw [h7, List.length_take] at h9
  simp only at h9
  refine ⟨by omega, by simp only [List.length_cons]; omega, ?_⟩
  intro n hn
  rcases List.mem_cons.mp hn with rfl | hn
  · exact h1'
  · obtain ⟨a, b, hab⟩ := h8.2.2 n hn
    have := name_size hab
    rw [List.length_take] at this
    omega

theorem questionAt_name {cfg : Cfg} {d : Bytes} {i j : Nat} {q : Question} (h : QuestionAt Decodes cfg d i q j) :
    nameSize q.qName ≤ 192 * d.length := by
  obtain ⟨_, v, _, k1, h1, _⟩ := h
  exact name_size h1

theorem listAt_le {α : Type} {d : Bytes} {R : Nat → α → Nat → Prop} {i j : Nat} {xs : List α}
    (hR : ∀ i x j, R i x j → j ≤ d.length) (hi : i ≤ d.length) (hl : ListAt R i xs j) : j ≤ d.length := by
  induction xs generalizing i with
  | nil => cases hl; exact hi
  | cons x xs ih => obtain ⟨k, h1, h2⟩ := hl; exact ih (hR _ _ _ h1) h2

/-- C94: a packet read from a message of `n` octets has at most `n` names, each of which has at most
`192 * n` octets, and its strings, lists, sets and maps together have at most `8 * n` octets and
elements. -/
theorem C94_bounded (cfg : Cfg) (d : Bytes) (p : Packet) (h : Packet.parse cfg d = .ok p) :
    (packetNames p).length ≤ d.length ∧ (∀ n ∈ packetNames p, nameSize n ≤ 192 * d.length) ∧
      ((records p).map (fun r => rdataSize r.rdata)).sum ≤ 8 * d.length := by
  obtain ⟨e, _, _, _, _, i1, i2, i3, i4, hh, hq, ha, hu, hd⟩ := Packet.parse_ok.mp h
  have h0 := items_weight hh
  have hle : i1 ≤ d.length := by
    obtain ⟨k1, h1, k2, h2, k3, h3, k4, h4, k5, h5, k6, h6, k7, h7, rfl⟩ := hh
    exact (octets_iff.mp h7).2.1
  have hend : e ≤ d.length :=
    listAt_le (fun i x j h => (recordAt_length h).2) (listAt_le (fun i x j h => (recordAt_length h).2)
      (listAt_le (fun i x j h => (recordAt_length h).2)
        (listAt_le (fun i x j h => (questionAt_length h).2) hle hq) ha) hu) hd
  have hq1 := listAt_sum (fun _ => 1) (fun i x j h => by have := (questionAt_length h).1; omega) hq
  have hn : ∀ i x j, RecordAtWith (ParsedData cfg) Decodes cfg d i x j →
      (x.name :: rdataNames x.rdata).length + i ≤ j := fun i x j h => (recordAt_size h).2.1
  have a1 := listAt_sum (fun r => (r.name :: rdataNames r.rdata).length) hn ha
  have u1 := listAt_sum (fun r => (r.name :: rdataNames r.rdata).length) hn hu
  have d1 := listAt_sum (fun r => (r.name :: rdataNames r.rdata).length) hn hd
  have hm : ∀ {xs : List ResourceRecord} {i j : Nat}, ListAt (RecordAtWith (ParsedData cfg) Decodes cfg d) i xs j →
      (xs.map (fun r => rdataSize r.rdata)).sum + 8 * i ≤ 8 * j := by
    intro xs
    induction xs with
    | nil => intro i j h; cases h; simp
    | cons x xs ih =>
      rintro i j ⟨k, h1, h2⟩
      have := (recordAt_size h1).1
      have := ih h2
      simp only [List.map_cons, List.sum_cons]
      omega
  have a2 := hm ha
  have u2 := hm hu
  have d2 := hm hd
  refine ⟨?_, ?_, ?_⟩
  · simp only [packetNames, records, List.length_append, List.length_map, List.length_flatMap, List.map_append,
      List.sum_append]
    simp at hq1
    omega
  · intro n hn
    have hr : ∀ {xs : List ResourceRecord} {i j : Nat}, ListAt (RecordAtWith (ParsedData cfg) Decodes cfg d) i xs j →
        ∀ r ∈ xs, n ∈ r.name :: rdataNames r.rdata → nameSize n ≤ 192 * d.length := by
      intro xs i j hl r hr hn
      obtain ⟨a, b, h⟩ := listAt_mem hl hr
      exact (recordAt_size h).2.2 n hn
    simp only [packetNames, records, List.mem_append, List.mem_map, List.mem_flatMap] at hn
    rcases hn with ⟨q, hq2, rfl⟩ | ⟨r, (hr1 | hr1) | hr1, hn⟩
    · obtain ⟨a, b, h⟩ := listAt_mem hq hq2
      exact questionAt_name h
    · exact hr ha r hr1 hn
    · exact hr hu r hr1 hn
    · exact hr hd r hr1 hn
  · simp only [records, List.map_append, List.sum_append]
    omega
example := C94_bounded ⟨true, true, true⟩ [0, 1, 1, 0, 0, 1, 0, 0, 0, 0, 0, 0, 1, 97, 0, 0, 1, 0, 1]
  ⟨⟨1, ⟨1, 0⟩, 1, 0, 0, 0⟩, [⟨[[97]], .rr .A, .IN, false⟩], [], [], []⟩ (by decide +kernel)

/-- C94: together at most `192 * n * n + 8 * n` octets and elements. -/
theorem C94_quadratic (cfg : Cfg) (d : Bytes) (p : Packet) (h : Packet.parse cfg d = .ok p) :
    packetSize p ≤ 192 * d.length * d.length + 8 * d.length := by
  obtain ⟨h1, h2, h3⟩ := C94_bounded cfg d p h
  have key : ∀ ns : List Fqdn, (∀ n ∈ ns, nameSize n ≤ 192 * d.length) →
      (ns.map nameSize).sum ≤ 192 * d.length * ns.length := by
    intro ns
    induction ns with
    | nil => simp
    | cons n ns ih =>
      intro hn
      have := ih (fun m hm => hn m (by simp [hm]))
      have := hn n (by simp)
      simp only [List.map_cons, List.sum_cons, List.length_cons, Nat.mul_add]
      omega
  have h4 := key _ h2
  have h5 := Nat.mul_le_mul_left (192 * d.length) h1
  unfold packetSize
  omega

example : ∃ p, Packet.parse ⟨true, true, true⟩ (exOne 16 [2, 104, 105, 1, 255]) = .ok p ∧ packetSize p = 7 :=
  ⟨onePacket ⟨[], .TXT, false, .IN, 0, .TXT ⟨[[104, 105], [239, 191, 189]]⟩⟩, by decide +kernel⟩

/-- The question of the example: a name of `k` labels of one octet. -/
def longQuestion (k : Nat) : Question := ⟨List.replicate k [97], .rr .A, .IN, false⟩

/-- A packet with this question `m` times. -/
def longPacket (k m : Nat) : Packet :=
  ⟨⟨1, ⟨0, 0⟩, UInt16.ofNat m, 0, 0, 0⟩, List.replicate m (longQuestion k), [], [], []⟩

theorem longPacket_names (k m : Nat) : packetNames (longPacket k m) = List.replicate m (List.replicate k [97]) := by
  simp [packetNames, longPacket, records, longQuestion]

/-- A hash function for names of which all labels are the same. -/
def lengthHash : Hash := fun n => UInt64.ofNat n.length

theorem longPacket_hash (k m : Nat) (hk : k ≤ 2000) : NoCollision lengthHash (packetNames (longPacket k m)) := by
  rw [longPacket_names]
  rintro a b ⟨n, hn, ha⟩ ⟨n', hn', hb⟩ h
  cases List.eq_of_mem_replicate hn
  cases List.eq_of_mem_replicate hn'
  have h1 := ha.length_le
  have h2 := hb.length_le
  rw [List.length_replicate] at h1 h2
  have h3 : a.length = b.length := by
    have := congrArg UInt64.toNat h
    simp only [lengthHash, UInt64.toNat_ofNat'] at this
    omega
  exact (List.suffix_of_suffix_length_le ha hb (by omega)).eq_of_length h3

theorem longPacket_ok (cfg : Cfg) (k m : Nat) (hm : m ≤ 2000) : PacketOk cfg 191 (longPacket k m) := by
  refine ⟨?_, by simp [records, longPacket], by simp [longPacket]; omega, by simp [longPacket], by simp [longPacket],
    by simp [longPacket]⟩
  intro q hq
  cases List.eq_of_mem_replicate hq
  refine ⟨?_, ?_, by simp [longQuestion]⟩
  · intro l hl
    cases List.eq_of_mem_replicate hl
    decide
  · show Readable cfg .A
    exact ⟨by decide, by decide, fun h => absurd h (by decide)⟩

/-- Each further question takes six octets. -/
theorem longPacket_length (cfg : Cfg) (k : Nat) (hk : 1 ≤ k) (hk2 : k ≤ 2000) : ∀ m, m + 1 ≤ 2000 → ∀ b,
    (longPacket k (m + 1)).toBytesCompressed cfg lengthHash = .ok b → b.length ≤ 2 * k + 6 * m + 17 := by
  have h12 : ∀ p b, Packet.toBytesCompressed cfg lengthHash p = .ok b → 12 ≤ b.length := by
    intro p b h
    rw [toBytesCompressed_parts] at h
    obtain ⟨x, _, h⟩ := Res.bind_eq_ok.mp h
    cases h
    simp only [List.length_append]
    have : p.header.toBytes.length = 12 := rfl
    omega
  intro m
  induction m with
  | zero =>
    intro _ b hb
    have h1 := C19_compression_never_longer cfg lengthHash (longPacket k 1) _ b (by
      rw [longPacket_names]
      intro n hn l hl
      cases List.eq_of_mem_replicate hn
      cases List.eq_of_mem_replicate hl
      simp) rfl hb
    have h2 : ∀ k, (Fqdn.labelBytes (List.replicate k [97])).length = 2 * k := by
      intro k
      induction k with
      | zero => rfl
      | succ k ih => simp only [List.replicate_succ, Fqdn.labelBytes, List.length_append, ih]; simp; omega
    refine Nat.le_trans h1 ?_
    simp [longPacket, longQuestion, Question.toBytes, Fqdn.toBytes, h2, u16be, toBE, Packet.headerBytes,
      Header.toBytes]
  | succ m ih =>
    intro hm b hb
    obtain ⟨a, ha, _⟩ := C28_compressed_round_trip_partial cfg lengthHash (longPacket k (m + 1))
      (longPacket_ok cfg k (m + 1) (by omega)) ⟨by simp [longPacket]; omega, rfl, rfl, rfl⟩ (by simp [longPacket, records])
      (longPacket_hash k (m + 1) hk2)
    have h1 := ih (by omega) a ha
    obtain ⟨e, he, n, c, he2, hs⟩ := C93_repeated_names cfg lengthHash (longPacket k (m + 1)) (longPacket k (m + 2))
      (.question (longQuestion k)) (by simp [parts, longPacket, List.replicate_succ' (n := m + 1)])
      (longPacket_hash k (m + 2) hk2) a b ha hb
    have h2 := hs [] (List.replicate k [97]) rfl (by simp; omega)
      ⟨List.replicate k [97], by simp [parts, longPacket, Part.names, longQuestion], List.suffix_refl _⟩
    have h3 := congrArg List.length he
    have h4 := h12 _ _ ha
    have h5 := h12 _ _ hb
    subst he2
    simp [octets16] at h2 h3
    omega

/-- C94: the growth is reached.  From `8 * k + 11` octets at most the reader builds a packet with
`2 * k * k` octets, for every `k` up to 2000: 16011 octets make eight million. -/
theorem C94_reached (cfg : Cfg) (k : Nat) (hk : 1 ≤ k) (hk2 : k ≤ 2000) : ∃ d p, Packet.parse cfg d = .ok p ∧
    d.length ≤ 8 * k + 11 ∧ 2 * k * k ≤ packetSize p := by
  obtain ⟨b, hb, h⟩ := C28_compressed_round_trip_partial cfg lengthHash (longPacket k k)
    (longPacket_ok cfg k k hk2) ⟨by simp [longPacket]; omega, rfl, rfl, rfl⟩ (by simp [longPacket, records])
    (longPacket_hash k k hk2)
  have hl : b.length ≤ 8 * k + 11 := by
    obtain ⟨m, rfl⟩ : ∃ m, k = m + 1 := ⟨k - 1, by omega⟩
    have := longPacket_length cfg (m + 1) hk hk2 m hk2 b hb
    omega
  refine ⟨b, longPacket k k, ?_, hl, ?_⟩
  · have := (h (by omega) []).1
    rwa [List.append_nil] at this
  · simp [packetSize, longPacket_names, nameSize]
    have : k * (k * 2) = 2 * k * k := by ring
    omega
example (cfg : Cfg) := C94_reached cfg 1000 (by decide) (by decide)

end Dns
