import Verif.Spec.Shorten
import Verif.Props.Append
import Verif.Props.Header
import Verif.Props.Conform
import Verif.Props.Write
import Verif.Props.Represented

/-
C142: a server that takes records off a reply until it fits sends as many as have room, and the client can tell whether
some are missing.
-/

namespace Dns
open Spec Buf

theorem keep_records (p : Packet) (k : Nat) : records (keep p k) = (records p).take k := by
  simp only [records, keep, Packet.setAnswers, Packet.setAuthorities, Packet.setAdditionals, List.take_append,
    List.length_append, Nat.sub_sub]

theorem keep_questions (p : Packet) (k : Nat) : (keep p k).questions = p.questions := rfl

theorem parts_records (p : Packet) : parts p = p.questions.map .question ++ (records p).map .record := rfl

/-- Packets with the same questions are written with at least as many octets if they have more records. -/
theorem compressed_mono {cfg : Cfg} {h : Hash} {p q : Packet} (hq : p.questions = q.questions)
    (hr : records p <+: records q) {a b : Bytes} (ha : p.toBytesCompressed cfg h = .ok a)
    (hb : q.toBytesCompressed cfg h = .ok b) : a.length ≤ b.length := by
  have hp : parts p <+: parts q := by
    rw [parts_records, parts_records, hq]
    exact (List.prefix_append_right_inj _).mpr (hr.map _)
  have h1 := ((C92_append cfg h p q hp a b).2 ha hb).length_le
  have h2 : ∀ (r : Packet) (c : Bytes), r.toBytesCompressed cfg h = .ok c → 12 ≤ c.length := by
    intro r c hc
    rw [toBytesCompressed_parts, Res.bind_eq_ok] at hc
    obtain ⟨x, -, hx⟩ := hc
    cases hx
    rw [List.length_append, show r.header.toBytes.length = 12 from rfl]
    omega
  have := h2 p a ha
  have := h2 q b hb
  simp only [List.length_drop] at h1
  omega

theorem fits_iff {cfg : Cfg} {h : Hash} {limit : Nat} {p : Packet} : fits cfg h limit p = true ↔
    ∃ b, p.toBytesCompressed cfg h = .ok b ∧ b.length ≤ limit := by
  unfold fits
  split
  · rename_i b hb
    simp [hb]
  · rename_i hb
    simp only [Bool.false_eq_true, false_iff, not_exists, not_and]
    exact fun b h => absurd h (hb b)

theorem shorten_keep (cfg : Cfg) (h : Hash) (limit : Nat) (p : Packet) (h0 : fits cfg h limit (keep p 0) = true) (n : Nat) :
    ∃ k, k ≤ n ∧ shorten cfg h limit p n = keep p k ∧ fits cfg h limit (keep p k) = true ∧
      ∀ j, k < j → j ≤ n → fits cfg h limit (keep p j) = false := by
  induction n with
  | zero => exact ⟨0, Nat.le_refl _, rfl, h0, fun j h1 h2 => by omega⟩
  | succ n ih =>
    rw [shorten]
    split
    · rename_i hf
      exact ⟨n + 1, Nat.le_refl _, rfl, hf, fun j h1 h2 => by omega⟩
    · rename_i hf
      obtain ⟨k, h1, h2, h3, h4⟩ := ih
      refine ⟨k, by omega, h2, h3, fun j h5 h6 => ?_⟩
      rcases Nat.lt_or_ge n j with h7 | h7
      · obtain rfl : j = n + 1 := by omega
        simpa using hf
      · exact h4 j h5 h7

theorem keep_counts (p : Packet) (k : Nat) (hc : p.header.quesCount.toNat = p.questions.length)
    (h1 : p.answers.length < 65536) (h2 : p.authorities.length < 65536) (h3 : p.additional.length < 65536) :
    CountsOk (keep p k) := by
  have key : ∀ (l : List ResourceRecord) (n : Nat), l.length < 65536 →
      (lenU16 (l.take n).length).toNat = (l.take n).length := by
    intro l n hl
    have : (l.take n).length ≤ l.length := List.length_take_le' n l
    simp only [lenU16, UInt16.toNat_ofNat']
    omega
  exact ⟨hc, key _ _ h1, key _ _ h2, key _ _ h3⟩

theorem keep_ok {cfg : Cfg} {m : Nat} {p : Packet} (hp : PacketOk cfg m p) (k : Nat) : PacketOk cfg m (keep p k) := by
  obtain ⟨a, b, c, d, e, f⟩ := hp
  refine ⟨a, fun r hr => b r ?_, c, ?_, ?_, ?_⟩
  · rw [keep_records] at hr
    exact List.mem_of_mem_take hr
  · exact Nat.lt_of_le_of_lt (List.length_take_le' _ _) d
  · exact Nat.lt_of_le_of_lt (List.length_take_le' _ _) e
  · exact Nat.lt_of_le_of_lt (List.length_take_le' _ _) f

theorem noCollision_fewer {h : Hash} {p q : Packet} (hq : q.questions = p.questions) (hr : ∀ r ∈ records q, r ∈ records p)
    (hh : NoCollision h (packetNames p)) : NoCollision h (packetNames q) := by
  have hs : ∀ n ∈ packetNames q, n ∈ packetNames p := by
    intro n hn
    simp only [packetNames, List.mem_append, List.mem_flatMap, hq] at hn ⊢
    rcases hn with hn | ⟨r, h1, h2⟩
    · exact .inl hn
    · exact .inr ⟨r, hr r h1, h2⟩
  rintro a b ⟨n, hn, ha⟩ ⟨m, hm, hb⟩
  exact hh a b ⟨n, hs n hn, ha⟩ ⟨m, hs m hm, hb⟩

/-- C142: what is sent if the questions have room.  Either all records have room and `p` is sent as it is; or the
message says that it is truncated, has the questions and only the first of the records, each in its section, and no
message with these questions and more of the records has room. -/
theorem C142_most (cfg : Cfg) (h : Hash) (limit : Nat) (p : Packet) (b0 : Bytes)
    (h0 : Packet.toBytesCompressed cfg h (keep p 0) = .ok b0) (hl : b0.length ≤ limit) :
    ∃ b, (limited cfg h limit p).toBytesCompressed cfg h = .ok b ∧ b.length ≤ limit ∧
      (limited cfg h limit p = p ∨
        (limited cfg h limit p).truncation = true ∧ (limited cfg h limit p).questions = p.questions ∧
        (limited cfg h limit p).answers <+: p.answers ∧ (limited cfg h limit p).authorities <+: p.authorities ∧
        (limited cfg h limit p).additional <+: p.additional ∧
        records (limited cfg h limit p) <+: records p ∧
        ∀ (q : Packet) (b' : Bytes), q.questions = p.questions → records q <+: records p →
          (records (limited cfg h limit p)).length < (records q).length → q.toBytesCompressed cfg h = .ok b' →
          limit < b'.length) := by
  unfold limited
  split
  · rename_i hf
    obtain ⟨b, h1, h2⟩ := fits_iff.mp hf
    exact ⟨b, h1, h2, .inl rfl⟩
  · rename_i hf
    obtain ⟨k, h1, h2, h3, h4⟩ := shorten_keep cfg h limit p (fits_iff.mpr ⟨b0, h0, hl⟩) (records p).length
    obtain ⟨b, h5, h6⟩ := fits_iff.mp h3
    rw [h2]
    have ht : ∃ b, ((keep p k).setTruncation true).toBytesCompressed cfg h = .ok b ∧ b.length ≤ limit := by
      rw [toBytesCompressed_parts, Res.bind_eq_ok] at h5
      obtain ⟨x, h7, h8⟩ := h5
      cases h8
      refine ⟨((keep p k).setTruncation true).header.toBytes ++ x.1, ?_, ?_⟩
      · rw [toBytesCompressed_parts, show parts ((keep p k).setTruncation true) = parts (keep p k) from rfl, h7]
        rfl
      · rw [List.length_append] at h6 ⊢
        exact h6
    obtain ⟨b, h7, h8⟩ := ht
    have hrec : records ((keep p k).setTruncation true) = (records p).take k := keep_records p k
    refine ⟨b, h7, h8, .inr ⟨?_, rfl, List.take_prefix _ _, List.take_prefix _ _, List.take_prefix _ _, ?_, ?_⟩⟩
    · have := congrArg (fun v => v.truncation) (C21_set_truncation (keep p k).header true)
      exact this
    · rw [hrec]
      exact List.take_prefix _ _
    · intro q b' hq hr hlen hb'
      by_contra hc
      rw [hrec, List.length_take, Nat.min_eq_left h1] at hlen
      have hq' : records q = (records p).take (records q).length := List.prefix_iff_eq_take.mp hr
      have hj := h4 (records q).length hlen hr.length_le
      -- The same records in the sections of `keep`.
      have hs : parts (keep p (records q).length) = parts q := by
        rw [parts_records, parts_records, keep_questions, keep_records, ← hq', hq]
      rw [toBytesCompressed_parts, Res.bind_eq_ok] at hb'
      obtain ⟨x, h9, h10⟩ := hb'
      cases h10
      have : fits cfg h limit (keep p (records q).length) = true := by
        refine fits_iff.mpr ⟨(keep p (records q).length).header.toBytes ++ x.1, ?_, ?_⟩
        · rw [toBytesCompressed_parts, hs, h9]
          rfl
        · rw [List.length_append] at hc ⊢
          exact Nat.not_lt.mp hc
      rw [hj] at this
      cases this

/-- C142: more records never need less room, so a server may as well search the number of records by halving. -/
theorem C142_mono (cfg : Cfg) (h : Hash) (p q : Packet) (hq : p.questions = q.questions) (hr : records p <+: records q)
    (a b : Bytes) (ha : p.toBytesCompressed cfg h = .ok a) (hb : q.toBytesCompressed cfg h = .ok b) :
    a.length ≤ b.length := compressed_mono hq hr ha hb

/-- C142 (partial): what is sent arrives, and the flag tells the client whether something is missing.  What is missing:
SSHFP records, which are not read back (C28), and limits over 16384 octets. -/
theorem C142_arrives_partial (cfg : Cfg) (h : Hash) (limit : Nat) (p : Packet) (hp : PacketOk cfg 191 p) (hc : CountsOk p)
    (hs : ∀ r ∈ records p, r.rdata.type ≠ .SSHFP) (hh : NoCollision h (packetNames p)) (ht : p.truncation = false)
    (b0 : Bytes) (h0 : Packet.toBytesCompressed cfg h (keep p 0) = .ok b0) (hl : b0.length ≤ limit) (hm : limit ≤ 16384) :
    ∃ b c, (limited cfg h limit p).toBytesCompressed cfg h = .ok b ∧ b.length ≤ limit ∧ Packet.parse cfg b = .ok c ∧
      c.questions = p.questions ∧ c.answers <+: p.answers ∧ c.authorities <+: p.authorities ∧
      c.additional <+: p.additional ∧ (c.truncation = false ↔ c = p) ∧
      (c.truncation = false ↔ ∃ b', p.toBytesCompressed cfg h = .ok b' ∧ b'.length ≤ limit) := by
  obtain ⟨b, h1, h2, h3⟩ := C142_most cfg h limit p b0 h0 hl
  have key : ∃ k, limited cfg h limit p = p ∨ limited cfg h limit p = (keep p k).setTruncation true := by
    unfold limited
    split
    · exact ⟨0, .inl rfl⟩
    · obtain ⟨k, -, h5, -⟩ := shorten_keep cfg h limit p (fits_iff.mpr ⟨b0, h0, hl⟩) (records p).length
      exact ⟨k, .inr (by rw [h5])⟩
  have hparse : Packet.parse cfg b = .ok (limited cfg h limit p) := by
    have hok : PacketOk cfg 191 (limited cfg h limit p) ∧ CountsOk (limited cfg h limit p) ∧
        (∀ r ∈ records (limited cfg h limit p), r ∈ records p) ∧ (limited cfg h limit p).questions = p.questions := by
      obtain ⟨k, hk | hk⟩ := key
      · rw [hk]
        exact ⟨hp, hc, fun r hr => hr, rfl⟩
      · rw [hk]
        refine ⟨keep_ok hp k, keep_counts p k hc.1 hp.2.2.2.1 hp.2.2.2.2.1 hp.2.2.2.2.2, fun r hr => ?_, rfl⟩
        have : r ∈ (records p).take k := by rw [← keep_records]; exact hr
        exact List.mem_of_mem_take this
    obtain ⟨b2, e1, e2⟩ := C28_compressed_round_trip_partial cfg h _ hok.1 hok.2.1 (fun r hr => hs r (hok.2.2.1 r hr))
      (noCollision_fewer hok.2.2.2 hok.2.2.1 hh)
    rw [h1] at e1
    cases e1
    simpa using (e2 (by omega) []).1
  refine ⟨b, limited cfg h limit p, h1, h2, hparse, ?_⟩
  rcases h3 with h3 | ⟨e1, e2, e3, e4, e5, e6, e7⟩
  · rw [h3]
    refine ⟨rfl, List.prefix_rfl, List.prefix_rfl, List.prefix_rfl, by simp [ht], ?_⟩
    rw [h3] at h1
    simp only [ht, true_iff]
    exact ⟨b, h1, h2⟩
  · refine ⟨e2, e3, e4, e5, ?_, ?_⟩
    · constructor
      · intro hf; rw [e1] at hf; cases hf
      · intro hf; rw [hf]; exact ht
    · constructor
      · intro hf; rw [e1] at hf; cases hf
      · rintro ⟨b', f1, f2⟩
        have : limited cfg h limit p = p := by
          unfold limited
          rw [if_pos (fits_iff.mpr ⟨b', f1, f2⟩)]
        rw [this]; exact ht

/-- C142 is false with SSHFP records: a packet that is sent as it is does not arrive. -/
theorem C142_counterexample : ∃ p : Packet, PacketOk ⟨true, true, true⟩ 63 p ∧ CountsOk p ∧ ∀ h : Hash, ∃ b,
    limited ⟨true, true, true⟩ h 16384 p = p ∧ p.toBytesCompressed ⟨true, true, true⟩ h = .ok b ∧ b.length ≤ 16384 ∧
      Packet.parse ⟨true, true, true⟩ b ≠ .ok p := by
  obtain ⟨p, h1, h2, h3⟩ := C28_counterexample
  refine ⟨p, h1, h2, fun h => ?_⟩
  obtain ⟨b, h4, h5, h6⟩ := h3 h
  exact ⟨b, by rw [limited, if_pos (fits_iff.mpr ⟨b, h4, h5⟩)], h4, h5, h6⟩

/-- C142, exactly: what is sent arrives if and only if what is left can be represented and has no SSHFP record. -/
theorem C142_arrives_exact (cfg : Cfg) (h : Hash) (limit : Nat) (p : Packet)
    (hh : NoCollision h (packetNames (limited cfg h limit p)))
    (b0 : Bytes) (h0 : Packet.toBytesCompressed cfg h (keep p 0) = .ok b0) (hl : b0.length ≤ limit) (hm : limit ≤ 16384) :
    ∃ b, (limited cfg h limit p).toBytesCompressed cfg h = .ok b ∧ b.length ≤ limit ∧
      (Packet.parse cfg b = .ok (limited cfg h limit p) ↔ (PacketOk cfg 191 (limited cfg h limit p) ∧
        CountsOk (limited cfg h limit p) ∧ ∀ r ∈ records (limited cfg h limit p), r.rdata.type ≠ .SSHFP)) := by
  obtain ⟨b, h1, h2, -⟩ := C142_most cfg h limit p b0 h0 hl
  refine ⟨b, h1, h2, ?_⟩
  have := C28_any_packet_exact cfg h _ hh b [] h1 (by omega)
  rwa [List.append_nil] at this
example := C142_arrives_exact ⟨true, true, true⟩ exHash 60 exPacket (noCollision_fewer (p := exPacket) (by decide +kernel)
  (by decide +kernel) exPacket_noCollision) _ rfl (by decide) (by decide)

/-- The hypotheses are met, for every limit from that of the questions on; in 60 octets some records have room and some
have not. -/
example := fun limit (hl : 22 ≤ limit) => C142_arrives_partial ⟨true, true, true⟩ exHash limit exPacket
  (exPacket_ok.mono (by decide)) ⟨rfl, rfl, rfl, rfl⟩ (by decide) exPacket_noCollision (by decide) _ rfl
  (Nat.le_trans (by decide) hl)
example : (records (limited ⟨true, true, true⟩ exHash 60 exPacket)).length = 2 ∧ (records exPacket).length = 4 := by
  decide +kernel
example := C142_most ⟨true, true, true⟩ exHash 60 exPacket _ rfl (by decide)
example := C142_mono ⟨true, true, true⟩ exHash (keep exPacket 2) exPacket rfl (by decide) _ _ rfl rfl

end Dns
