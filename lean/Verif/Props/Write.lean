import Verif.Props.PacketSize

/-! C66: writing does not fail.  C67: different packets are written differently. -/

namespace Dns
open Spec Buf

/-! ## C66 -/

/-- A parameter whose value has 65532 to 65535 octets (modulo 65536). -/
def LongParam (p : Param) : Prop := 65532 ≤ p.valueBytes.length % 65536

/-- SVCB data with such a parameter. -/
def LongSvcb : RecordData → Prop
  | .SVCB r => ∃ p ∈ r.params, LongParam p
  | _ => False

theorem Param.written (cfg : Cfg) (p : Param) :
    ((cfg.overflowChecks = true ∧ LongParam p) ∧ p.toBytes cfg = .panic .overflow) ∨
    (¬ (cfg.overflowChecks = true ∧ LongParam p) ∧ ∃ b, p.toBytes cfg = .ok b) := by
  unfold Param.toBytes subU16 LongParam
  rw [Param.value_size]
  by_cases h : 4 ≤ (4 + p.valueBytes.length) % 65536
  · rw [if_pos h]
    exact .inr ⟨by omega, _, rfl⟩
  · rw [if_neg h]
    by_cases hc : cfg.overflowChecks = true
    · rw [if_pos hc]; exact .inl ⟨⟨hc, by omega⟩, rfl⟩
    · rw [if_neg hc]; exact .inr ⟨fun h => hc h.1, _, rfl⟩

theorem Svcb.params_written (cfg : Cfg) (ps : List Param) :
    ((cfg.overflowChecks = true ∧ ∃ p ∈ ps, LongParam p) ∧ Svcb.paramBytes cfg ps = .panic .overflow) ∨
    (¬ (cfg.overflowChecks = true ∧ ∃ p ∈ ps, LongParam p) ∧ ∃ b, Svcb.paramBytes cfg ps = .ok b) := by
  induction ps with
  | nil => exact .inr ⟨by simp, _, rfl⟩
  | cons p ps ih =>
    unfold Svcb.paramBytes
    rcases Param.written cfg p with ⟨⟨h1, h2⟩, h3⟩ | ⟨h1, b, h3⟩
    · exact .inl ⟨⟨h1, p, List.mem_cons_self, h2⟩, by rw [h3]; rfl⟩
    · rcases ih with ⟨⟨g1, q, g2, g3⟩, g4⟩ | ⟨g1, b', g2⟩
      · exact .inl ⟨⟨g1, q, List.mem_cons_of_mem _ g2, g3⟩, by rw [h3, g4]; rfl⟩
      · refine .inr ⟨?_, _, by rw [h3, g2]; rfl⟩
        rintro ⟨e1, q, e2, e3⟩
        rcases List.mem_cons.mp e2 with rfl | e2
        · exact h1 ⟨e1, e3⟩
        · exact g1 ⟨e1, q, e2, e3⟩

theorem Svcb.written (cfg : Cfg) (r : Svcb) :
    ((cfg.overflowChecks = true ∧ LongSvcb (.SVCB r)) ∧ r.toBytes cfg = .panic .overflow) ∨
    (¬ (cfg.overflowChecks = true ∧ LongSvcb (.SVCB r)) ∧ ∃ b, r.toBytes cfg = .ok b) := by
  unfold Svcb.toBytes
  rcases Svcb.params_written cfg r.params with ⟨h1, h2⟩ | ⟨h1, b, h2⟩
  · exact .inl ⟨h1, by rw [h2]; rfl⟩
  · exact .inr ⟨h1, _, by rw [h2]; rfl⟩

/-- Writing record data, with and without compression. -/
theorem RecordData.written (cfg : Cfg) (r : RecordData) (hs : SetsOk r) :
    ((cfg.overflowChecks = true ∧ LongSvcb r) ∧ r.toBytes cfg = .panic .overflow ∧
      ∀ h names offset, r.toBytesCompressed cfg h names offset = .panic .overflow) ∨
    (¬ (cfg.overflowChecks = true ∧ LongSvcb r) ∧ (∃ b, r.toBytes cfg = .ok b) ∧
      ∀ h names offset, ∃ b, r.toBytesCompressed cfg h names offset = .ok b) := by
  cases r with
  | SVCB r =>
    rcases Svcb.written cfg r with ⟨h1, h2⟩ | ⟨h1, b, h2⟩
    · exact .inl ⟨h1, h2, fun h names offset => by simp only [RecordData.toBytesCompressed, h2]; rfl⟩
    · exact .inr ⟨h1, ⟨b, h2⟩, fun h names offset => ⟨(b, names), by
        simp only [RecordData.toBytesCompressed, h2]; rfl⟩⟩
  | CSYNC r =>
    obtain ⟨b, h2, _⟩ := Csync.size cfg hs
    exact .inr ⟨fun h => h.2, ⟨b, h2⟩, fun h names offset => ⟨(b, names), by
        simp only [RecordData.toBytesCompressed, h2]; rfl⟩⟩
  | NSEC r =>
    obtain ⟨b, h2, _⟩ := Nsec.size cfg hs
    refine .inr ⟨fun h => h.2, ⟨b, h2⟩, fun h names offset => ?_⟩
    unfold Nsec.toBytes at h2
    simp only [Res.bind_ok] at h2
    obtain ⟨_, _, m, h3, _⟩ := h2
    exact ⟨_, by simp only [RecordData.toBytesCompressed, Nsec.toBytesCompressed, h3]; rfl⟩
  | _ => exact .inr ⟨fun h => h.2, ⟨_, rfl⟩, fun h names offset => ⟨_, rfl⟩⟩

theorem ResourceRecord.written (cfg : Cfg) (r : ResourceRecord) (hs : SetsOk r.rdata) :
    ((cfg.overflowChecks = true ∧ LongSvcb r.rdata) ∧ r.toBytes cfg = .panic .overflow ∧
      ∀ h names offset, r.toBytesCompressed cfg h names offset = .panic .overflow) ∨
    (¬ (cfg.overflowChecks = true ∧ LongSvcb r.rdata) ∧ (∃ b, r.toBytes cfg = .ok b) ∧
      ∀ h names offset, ∃ b, r.toBytesCompressed cfg h names offset = .ok b) := by
  rcases RecordData.written cfg r.rdata hs with ⟨h1, h2, h3⟩ | ⟨h1, ⟨b, h2⟩, h3⟩
  · refine .inl ⟨h1, ?_, fun h names offset => ?_⟩
    · have : ∃ n, r.rdata.byteSize cfg = .ok n := by
        have := h1.2
        cases h : r.rdata with
        | SVCB r => exact ⟨_, rfl⟩
        | _ => rw [h] at this; exact this.elim
      obtain ⟨n, hn⟩ := this
      unfold ResourceRecord.toBytes
      rw [hn, h2]; rfl
    · unfold ResourceRecord.toBytesCompressed
      simp only [h3]; rfl
  · refine .inr ⟨h1, ?_, fun h names offset => ?_⟩
    · obtain ⟨n, hn, _⟩ := RecordData.size hs h2
      unfold ResourceRecord.toBytes
      rw [hn, h2]; exact ⟨_, rfl⟩
    · obtain ⟨x, hx⟩ := h3 h (r.headCompressed cfg h names offset).2
        (offset + (r.headCompressed cfg h names offset).1.length + 2)
      unfold ResourceRecord.toBytesCompressed
      simp only [hx]
      exact ⟨_, rfl⟩

theorem recordsBytes_written (cfg : Cfg) : ∀ (rs : List ResourceRecord) (bin : Bytes),
    (∀ r ∈ rs, SetsOk r.rdata) →
    ((cfg.overflowChecks = true ∧ ∃ r ∈ rs, LongSvcb r.rdata) ∧
      Packet.recordsBytes cfg rs bin = .panic .overflow) ∨
    (¬ (cfg.overflowChecks = true ∧ ∃ r ∈ rs, LongSvcb r.rdata) ∧
      ∃ b, Packet.recordsBytes cfg rs bin = .ok b) := by
  intro rs
  induction rs with
  | nil => intro bin _; exact .inr ⟨by simp, _, rfl⟩
  | cons r rs ih =>
    intro bin hs
    have hs' : ∀ r ∈ rs, SetsOk r.rdata := fun q hq => hs q (List.mem_cons_of_mem _ hq)
    unfold Packet.recordsBytes
    rcases ResourceRecord.written cfg r (hs r List.mem_cons_self) with ⟨⟨h1, h2⟩, h3, _⟩ | ⟨h1, ⟨b, h3⟩, _⟩
    · exact .inl ⟨⟨h1, r, List.mem_cons_self, h2⟩, by rw [h3]; rfl⟩
    · rw [h3]
      rcases ih (bin ++ b) hs' with ⟨⟨g1, q, g2, g3⟩, g4⟩ | ⟨g1, b', g2⟩
      · exact .inl ⟨⟨g1, q, List.mem_cons_of_mem _ g2, g3⟩, g4⟩
      · refine .inr ⟨?_, b', g2⟩
        rintro ⟨e1, q, e2, e3⟩
        rcases List.mem_cons.mp e2 with rfl | e2
        · exact h1 ⟨e1, e3⟩
        · exact g1 ⟨e1, q, e2, e3⟩

theorem recordsCompressed_written (cfg : Cfg) (h : Hash) : ∀ (rs : List ResourceRecord) (names : Names)
    (bin : Bytes), (∀ r ∈ rs, SetsOk r.rdata) →
    ((cfg.overflowChecks = true ∧ ∃ r ∈ rs, LongSvcb r.rdata) ∧
      Packet.recordsCompressed cfg h rs names bin = .panic .overflow) ∨
    (¬ (cfg.overflowChecks = true ∧ ∃ r ∈ rs, LongSvcb r.rdata) ∧
      ∃ b, Packet.recordsCompressed cfg h rs names bin = .ok b) := by
  intro rs
  induction rs with
  | nil => intro names bin _; exact .inr ⟨by simp, _, rfl⟩
  | cons r rs ih =>
    intro names bin hs
    have hs' : ∀ r ∈ rs, SetsOk r.rdata := fun q hq => hs q (List.mem_cons_of_mem _ hq)
    unfold Packet.recordsCompressed
    rcases ResourceRecord.written cfg r (hs r List.mem_cons_self) with ⟨⟨h1, h2⟩, _, h3⟩ | ⟨h1, _, h3⟩
    · exact .inl ⟨⟨h1, r, List.mem_cons_self, h2⟩, by rw [h3]; rfl⟩
    · obtain ⟨x, hx⟩ := h3 h names bin.length
      rw [hx]
      rcases ih x.2 (bin ++ x.1) hs' with ⟨⟨g1, q, g2, g3⟩, g4⟩ | ⟨g1, b', g2⟩
      · exact .inl ⟨⟨g1, q, List.mem_cons_of_mem _ g2, g3⟩, g4⟩
      · refine .inr ⟨?_, b', g2⟩
        rintro ⟨e1, q, e2, e3⟩
        rcases List.mem_cons.mp e2 with rfl | e2
        · exact h1 ⟨e1, e3⟩
        · exact g1 ⟨e1, q, e2, e3⟩

theorem records_mem {p : Packet} {P : ResourceRecord → Prop} : (∃ r ∈ records p, P r) ↔
    (∃ r ∈ p.answers, P r) ∨ (∃ r ∈ p.authorities, P r) ∨ ∃ r ∈ p.additional, P r := by
  simp only [records, List.mem_append]
  constructor
  · rintro ⟨r, (h | h) | h, hp⟩
    · exact .inl ⟨r, h, hp⟩
    · exact .inr (.inl ⟨r, h, hp⟩)
    · exact .inr (.inr ⟨r, h, hp⟩)
  · rintro (⟨r, h, hp⟩ | ⟨r, h, hp⟩ | ⟨r, h, hp⟩)
    · exact ⟨r, .inl (.inl h), hp⟩
    · exact ⟨r, .inl (.inr h), hp⟩
    · exact ⟨r, .inr h, hp⟩

theorem Res.bind_assoc {α β γ : Type} (x : Res α) (f : α → Res β) (g : β → Res γ) :
    (x.bind f).bind g = x.bind fun a => (f a).bind g := by
  cases x <;> rfl

/-- Three writers in a row. -/
theorem three_writers {α β γ : Type} {a b c : Prop} {O : Prop} {x : Res α} {y : α → Res β} {z : β → Res γ}
    (hx : ((O ∧ a) ∧ x = .panic .overflow) ∨ (¬ (O ∧ a) ∧ ∃ u, x = .ok u))
    (hy : ∀ u, ((O ∧ b) ∧ y u = .panic .overflow) ∨ (¬ (O ∧ b) ∧ ∃ v, y u = .ok v))
    (hz : ∀ v, ((O ∧ c) ∧ z v = .panic .overflow) ∨ (¬ (O ∧ c) ∧ ∃ w, z v = .ok w)) :
    ((O ∧ (a ∨ b ∨ c)) ∧ (x.bind fun u => (y u).bind z) = .panic .overflow) ∨
    (¬ (O ∧ (a ∨ b ∨ c)) ∧ ∃ w, (x.bind fun u => (y u).bind z) = .ok w) := by
  rcases hx with ⟨h1, h2⟩ | ⟨h1, u, h2⟩
  · exact .inl ⟨⟨h1.1, .inl h1.2⟩, by rw [h2]; rfl⟩
  · rcases hy u with ⟨g1, g2⟩ | ⟨g1, v, g2⟩
    · exact .inl ⟨⟨g1.1, .inr (.inl g1.2)⟩, by rw [h2, Res.bind, g2]; rfl⟩
    · rcases hz v with ⟨e1, e2⟩ | ⟨e1, w, e2⟩
      · exact .inl ⟨⟨e1.1, .inr (.inr e1.2)⟩, by rw [h2, Res.bind, g2, Res.bind, e2]⟩
      · refine .inr ⟨?_, w, by rw [h2, Res.bind, g2, Res.bind, e2]⟩
        rintro ⟨o, h | h | h⟩
        · exact h1 ⟨o, h⟩
        · exact g1 ⟨o, h⟩
        · exact e1 ⟨o, h⟩

/-- C66: which packets are written, exactly: in a build with overflow checks `to_bytes()` panics if the
packet has a SVCB record with a parameter value of 65532 to 65535 octets (modulo 65536); in all other
cases, whatever the packet contains, it returns. -/
theorem C66_to_bytes (cfg : Cfg) (p : Packet) (hs : ∀ r ∈ records p, SetsOk r.rdata) :
    ((cfg.overflowChecks = true ∧ ∃ r ∈ records p, LongSvcb r.rdata) ∧
      p.toBytes cfg = .panic .overflow) ∨
    (¬ (cfg.overflowChecks = true ∧ ∃ r ∈ records p, LongSvcb r.rdata) ∧ ∃ b, p.toBytes cfg = .ok b) := by
  have h1 : ∀ r ∈ p.answers, SetsOk r.rdata := fun r h => hs r (by simp [records, h])
  have h2 : ∀ r ∈ p.authorities, SetsOk r.rdata := fun r h => hs r (by simp [records, h])
  have h3 : ∀ r ∈ p.additional, SetsOk r.rdata := fun r h => hs r (by simp [records, h])
  rw [records_mem]
  exact three_writers (recordsBytes_written cfg _ _ h1) (fun u => recordsBytes_written cfg _ u h2)
    (fun v => recordsBytes_written cfg _ v h3)
example (cfg : Cfg) := C66_to_bytes cfg
  ⟨.newReply 1 .standardQuery, [], [⟨[], .MX, false, .IN, 0, .MX ⟨1, [[97]]⟩⟩], [], []⟩ (by simp [records, SetsOk])

/-- C66: the same for `to_bytes_compressed()`. -/
theorem C66_to_bytes_compressed (cfg : Cfg) (h : Hash) (p : Packet)
    (hs : ∀ r ∈ records p, SetsOk r.rdata) :
    ((cfg.overflowChecks = true ∧ ∃ r ∈ records p, LongSvcb r.rdata) ∧
      p.toBytesCompressed cfg h = .panic .overflow) ∨
    (¬ (cfg.overflowChecks = true ∧ ∃ r ∈ records p, LongSvcb r.rdata) ∧
      ∃ b, p.toBytesCompressed cfg h = .ok b) := by
  have h1 : ∀ r ∈ p.answers, SetsOk r.rdata := fun r h => hs r (by simp [records, h])
  have h2 : ∀ r ∈ p.authorities, SetsOk r.rdata := fun r h => hs r (by simp [records, h])
  have h3 : ∀ r ∈ p.additional, SetsOk r.rdata := fun r h => hs r (by simp [records, h])
  rw [records_mem]
  have key := three_writers (recordsCompressed_written cfg h _
      (Packet.questionsCompressed cfg h p.questions Names.empty p.header.toBytes).2
      (Packet.questionsCompressed cfg h p.questions Names.empty p.header.toBytes).1 h1)
    (fun u => recordsCompressed_written cfg h _ u.2 u.1 h2)
    (fun v => recordsCompressed_written cfg h _ v.2 v.1 h3)
  have e : p.toBytesCompressed cfg h =
      ((Packet.recordsCompressed cfg h p.answers
        (Packet.questionsCompressed cfg h p.questions Names.empty p.header.toBytes).2
        (Packet.questionsCompressed cfg h p.questions Names.empty p.header.toBytes).1).bind fun u =>
        (Packet.recordsCompressed cfg h p.authorities u.2 u.1).bind fun v =>
        Packet.recordsCompressed cfg h p.additional v.2 v.1).bind fun w => .ok w.1 := by
    unfold Packet.toBytesCompressed
    simp only [bind, pure, Res.bind_assoc]
  rcases key with ⟨k1, k2⟩ | ⟨k1, w, k2⟩
  · exact .inl ⟨k1, by rw [e, k2]; rfl⟩
  · exact .inr ⟨k1, w.1, by rw [e, k2]; rfl⟩
example (cfg : Cfg) (h : Hash) := C66_to_bytes_compressed cfg h
  ⟨.newReply 1 .standardQuery, [], [⟨[], .MX, false, .IN, 0, .MX ⟨1, [[97]]⟩⟩], [], []⟩ (by simp [records, SetsOk])

/-- C66 (partial): a packet without such SVCB parameters is written by both writers, in every build,
however large it is.  What is missing: the packets with such parameters (see the counterexample). -/
theorem C66_written_partial (cfg : Cfg) (h : Hash) (p : Packet) (hs : ∀ r ∈ records p, SetsOk r.rdata)
    (hl : ∀ r ∈ records p, ¬ LongSvcb r.rdata) :
    (∃ b, p.toBytes cfg = .ok b) ∧ ∃ b, p.toBytesCompressed cfg h = .ok b := by
  have hn : ¬ (cfg.overflowChecks = true ∧ ∃ r ∈ records p, LongSvcb r.rdata) :=
    fun ⟨_, r, h1, h2⟩ => hl r h1 h2
  refine ⟨?_, ?_⟩
  · rcases C66_to_bytes cfg p hs with ⟨h1, _⟩ | ⟨_, h2⟩
    · exact absurd h1 hn
    · exact h2
  · rcases C66_to_bytes_compressed cfg h p hs with ⟨h1, _⟩ | ⟨_, h2⟩
    · exact absurd h1 hn
    · exact h2
example (cfg : Cfg) (h : Hash) := C66_written_partial cfg h
  ⟨.newReply 1 .standardQuery, [], [⟨[], .MX, false, .IN, 0, .MX ⟨1, [[97]]⟩⟩], [], []⟩
  (by simp [records, SetsOk]) (by simp [records, LongSvcb])

/-- C66: in a build without overflow checks every packet is written. -/
theorem C66_release (cfg : Cfg) (hc : cfg.overflowChecks = false) (h : Hash) (p : Packet)
    (hs : ∀ r ∈ records p, SetsOk r.rdata) :
    (∃ b, p.toBytes cfg = .ok b) ∧ ∃ b, p.toBytesCompressed cfg h = .ok b := by
  have hn : ¬ (cfg.overflowChecks = true ∧ ∃ r ∈ records p, LongSvcb r.rdata) := by simp [hc]
  refine ⟨?_, ?_⟩
  · rcases C66_to_bytes cfg p hs with ⟨h1, _⟩ | ⟨_, h2⟩
    · exact absurd h1 hn
    · exact h2
  · rcases C66_to_bytes_compressed cfg h p hs with ⟨h1, _⟩ | ⟨_, h2⟩
    · exact absurd h1 hn
    · exact h2
example (h : Hash) (b : Bytes) := C66_release ⟨false, true, true⟩ rfl h
  ⟨.newReply 1 .standardQuery, [], [⟨[], .SVCB, false, .IN, 0, .SVCB ⟨1, [], [.ech b]⟩⟩], [], []⟩
  (by simp [records, SetsOk])

/-- A packet with one SVCB record with one parameter of `n` octets. -/
def echPacket (n : Nat) : Packet :=
  onePacket ⟨[], .SVCB, false, .IN, 0, .SVCB ⟨1, [], [.ech (List.replicate n 0)]⟩⟩

theorem echPacket_sets (n : Nat) : ∀ r ∈ records (echPacket n), SetsOk r.rdata := by
  intro r hr
  simp only [records, echPacket, onePacket, List.append_nil, List.mem_singleton] at hr
  subst hr; trivial

theorem echPacket_panics (n : Nat) (hn : 65532 ≤ n % 65536) :
    (echPacket n).toBytes ⟨true, true, true⟩ = .panic .overflow := by
  rcases C66_to_bytes ⟨true, true, true⟩ _ (echPacket_sets n) with ⟨_, h⟩ | ⟨h, _⟩
  · exact h
  · refine absurd ⟨rfl, _, List.mem_cons_self, _, List.mem_cons_self, ?_⟩ h
    simpa only [LongParam, Param.valueBytes, List.length_replicate] using hn

/-- C66 is false in a build with overflow checks: a SVCB record with a parameter of 65533 octets. -/
theorem C66_counterexample : ∃ p : Packet, (∀ r ∈ records p, SetsOk r.rdata) ∧
    p.toBytes ⟨true, true, true⟩ = .panic .overflow :=
  ⟨echPacket 65533, echPacket_sets _, echPacket_panics _ (by decide)⟩

/-- C66: the hypotheses hold for the packet of the example of C27. -/
example : (∀ r ∈ records exPacket, SetsOk r.rdata) ∧ (∀ r ∈ records exPacket, ¬ LongSvcb r.rdata) := by
  simp [records, exPacket, exRecord, SetsOk, LongSvcb, typeNumber]

/-! ## C67 -/

/-- C67 (partial): two packets that can be represented on the wire and are written to octets of which
one is the beginning of the other are the same packet, up to the counts in the header (which are
not written).  So different packets are written differently, and messages can be told apart in a stream.
What is missing: the records `to_bytes()` does not write properly (see C27). -/
theorem C67_different_partial (cfg : Cfg) (p q : Packet) (hp : PacketOk cfg 191 p) (hq : PacketOk cfg 191 q)
    (hs : ∀ r ∈ records p, r.rdata.type ≠ .SSHFP ∧ sizeError r.rdata = 0)
    (hs' : ∀ r ∈ records q, r.rdata.type ≠ .SSHFP ∧ sizeError r.rdata = 0)
    (b x y : Bytes) (c : Bytes) (h1 : p.toBytes cfg = .ok b) (h2 : q.toBytes cfg = .ok c)
    (h3 : b ++ x = c ++ y) : withCounts p = withCounts q ∧ b = c := by
  obtain ⟨b', e1, r1⟩ := C27_packet_round_trip_partial cfg p hp hs
  obtain ⟨c', e2, r2⟩ := C27_packet_round_trip_partial cfg q hq hs'
  rw [h1] at e1; cases e1
  rw [h2] at e2; cases e2
  obtain ⟨a1, a2⟩ := r1 x
  obtain ⟨a3, a4⟩ := r2 y
  rw [h3] at a1 a2
  rw [a1] at a3
  rw [a2] at a4
  exact ⟨by injection a3, (List.append_inj h3 a4).1⟩

/-- C67 (partial): the same for `to_bytes_compressed()` of packets with right counts and messages of
at most 16384 octets; the hash functions of the two calls may differ.  (`C67_distinct_compressed_partial`
says it with SSHFP records too.) -/
theorem C67_different_compressed_partial (cfg : Cfg) (h h' : Hash) (p q : Packet)
    (hp : PacketOk cfg 191 p) (hq : PacketOk cfg 191 q) (hc : CountsOk p) (hc' : CountsOk q)
    (hs : ∀ r ∈ records p, r.rdata.type ≠ .SSHFP) (hs' : ∀ r ∈ records q, r.rdata.type ≠ .SSHFP)
    (hh : NoCollision h (packetNames p)) (hh' : NoCollision h' (packetNames q))
    (b x y : Bytes) (c : Bytes) (h1 : p.toBytesCompressed cfg h = .ok b)
    (h2 : q.toBytesCompressed cfg h' = .ok c) (hb : b.length ≤ 16384) (hcl : c.length ≤ 16384)
    (h3 : b ++ x = c ++ y) : p = q ∧ b = c := by
  obtain ⟨b', e1, r1⟩ := C28_compressed_round_trip_partial cfg h p hp hc hs hh
  obtain ⟨c', e2, r2⟩ := C28_compressed_round_trip_partial cfg h' q hq hc' hs' hh'
  rw [h1] at e1; cases e1
  rw [h2] at e2; cases e2
  obtain ⟨a1, a2⟩ := r1 hb x
  obtain ⟨a3, a4⟩ := r2 hcl y
  rw [h3] at a1 a2
  rw [a1] at a3
  rw [a2] at a4
  exact ⟨by injection a3, (List.append_inj h3 a4).1⟩

theorem Spec.NameOk.mono {a b : Nat} {n : Fqdn} (h : NameOk a n) (hab : a ≤ b) : NameOk b n :=
  fun l hl => ⟨(h l hl).1, Nat.le_trans (h l hl).2 hab⟩

theorem Spec.Writable.mono {cfg : Cfg} {a b : Nat} {r : RecordData} (h : Writable cfg a r) (hab : a ≤ b) :
    Writable cfg b r := by
  cases r with
  | NS r | CNAME r | PTR r | MX r | SRV r => exact Spec.NameOk.mono h hab
  | SOA r | MINFO r => exact ⟨Spec.NameOk.mono h.1 hab, Spec.NameOk.mono h.2 hab⟩
  | NAPTR r => exact ⟨h.1, h.2.1, h.2.2.1, h.2.2.2.1, Spec.NameOk.mono h.2.2.2.2 hab⟩
  | IPSECKEY r =>
    simp only [Writable] at h ⊢
    split <;> simp_all
    exact Spec.NameOk.mono h hab
  | RRSIG r => exact ⟨h.1, Spec.NameOk.mono h.2 hab⟩
  | NSEC r => exact ⟨Spec.NameOk.mono h.1 hab, h.2⟩
  | HIP r => exact ⟨h.1, h.2.1, h.2.2.1, fun n hn => Spec.NameOk.mono (h.2.2.2 n hn) hab⟩
  | SVCB r => exact ⟨Spec.NameOk.mono h.1 hab, h.2⟩
  | TKEY r => exact ⟨Spec.NameOk.mono h.1 hab, h.2⟩
  | TSIG r => exact ⟨Spec.NameOk.mono h.1 hab, h.2⟩
  | _ => exact h

theorem Spec.PacketOk.mono {cfg : Cfg} {a b : Nat} {p : Packet} (h : PacketOk cfg a p) (hab : a ≤ b) :
    PacketOk cfg b p :=
  ⟨fun q hq => ⟨(h.1 q hq).1.mono hab, (h.1 q hq).2⟩,
    fun r hr => ⟨(h.2.1 r hr).1.mono hab, (h.2.1 r hr).2.1, (h.2.1 r hr).2.2.1, (h.2.1 r hr).2.2.2.1,
      (h.2.1 r hr).2.2.2.2.1, (h.2.1 r hr).2.2.2.2.2.1, (h.2.1 r hr).2.2.2.2.2.2.1.mono hab,
      (h.2.1 r hr).2.2.2.2.2.2.2⟩, h.2.2⟩

/-- C67: the hypotheses are those of C27; the packet of the example there differs from one with
another TTL, and so do the octets. -/
example : PacketOk ⟨true, true, true⟩ 191 exPacket ∧
    (∀ r ∈ records exPacket, r.rdata.type ≠ .SSHFP ∧ sizeError r.rdata = 0) ∧
    exPacket.toBytes ⟨true, true, true⟩ ≠ (exPacket.setAnswers [exRecord]).toBytes ⟨true, true, true⟩ := by
  exact ⟨exPacket_ok.mono (by decide), by decide, by decide +kernel⟩

/-- C67 is false for values that cannot be represented on the wire: a HIP record with an empty list of
rendezvous servers and one without list are written to the same octets. -/
theorem C67_counterexample : ∃ (p q : Packet) (b : Bytes), withCounts p ≠ withCounts q ∧
    p.toBytes ⟨true, true, true⟩ = .ok b ∧ q.toBytes ⟨true, true, true⟩ = .ok b :=
  ⟨onePacket ⟨[], .HIP, false, .IN, 0, .HIP ⟨.RSA, [1], [2], none⟩⟩,
   onePacket ⟨[], .HIP, false, .IN, 0, .HIP ⟨.RSA, [1], [2], some []⟩⟩, _, by decide, rfl, by decide +kernel⟩

end Dns
