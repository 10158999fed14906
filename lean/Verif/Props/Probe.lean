import Verif.Spec.Probe
import Verif.Lemmas.RRSet
import Verif.Props.RData
import Verif.Props.Coincidence
import Verif.Model.SipHash

/-! C133: simultaneous probes of multicast hosts (RFC 6762, section 8.2). -/

namespace Dns
open Spec Buf

theorem probeKeys_ok {cfg : Cfg} {rs : List ResourceRecord} (h : ∀ r ∈ rs, ∃ b, r.rdata.toBytes cfg = .ok b) :
    ∃ ks, probeKeys cfg rs = .ok ks ∧ List.Forall₂ (fun r k => ∃ b, r.rdata.toBytes cfg = .ok b ∧
      k = u16be r.class_.toU16 ++ u16be r.type.toU16 ++ b) rs ks := by
  induction rs with
  | nil => exact ⟨[], rfl, .nil⟩
  | cons r rs ih =>
    obtain ⟨b, hb⟩ := h r List.mem_cons_self
    obtain ⟨ks, h1, h2⟩ := ih (fun x hx => h x (List.mem_cons_of_mem _ hx))
    refine ⟨(u16be r.class_.toU16 ++ u16be r.type.toU16 ++ b) :: ks, ?_, .cons ⟨b, hb, rfl⟩ h2⟩
    simp only [probeKeys, probeKey, ResourceRecord.dataRaw, hb, h1, Res.ok_bind, Res.pure_eq]
    rfl

theorem sortedKeys (ks : List Bytes) :
    (ks.mergeSort bytesLe).Pairwise OctetLe ∧ ks.Perm (ks.mergeSort bytesLe) := by
  refine ⟨?_, (List.mergeSort_perm ks bytesLe).symm⟩
  have h := List.pairwise_mergeSort (le := bytesLe)
    (fun a b c h1 h2 => (bytesLe_iff a c).mpr (octetLe_trans ((bytesLe_iff a b).mp h1) ((bytesLe_iff b c).mp h2)))
    (fun a b => by
      rcases octetLe_total a b with h | h
      · simp [(bytesLe_iff a b).mpr h]
      · simp [(bytesLe_iff b a).mpr h]) ks
  exact h.imp (fun h => (bytesLe_iff _ _).mp h)

/-- C133 (partial): the host decides as the RFC says.  What is missing: data that are not written as the RFCs demand
(`WrittenWell`, see C38), which other hosts compare in another form. -/
theorem C133_rfc_partial (cfg : Cfg) (max : Nat) (mine theirs : List ResourceRecord)
    (h : ∀ r ∈ mine ++ theirs, Writable cfg max r.rdata ∧ WrittenWell r.rdata) :
    ∃ o a b, tieBreak cfg mine theirs = .ok o ∧ ProbeOrder cfg mine a ∧ ProbeOrder cfg theirs b ∧
      (o = .gt ↔ Later a b) ∧ (o = .lt ↔ Later b a) ∧ (o = .eq ↔ a = b) := by
  have key : ∀ rs : List ResourceRecord, (∀ r ∈ rs, Writable cfg max r.rdata ∧ WrittenWell r.rdata) →
      ∃ ks, probeKeys cfg rs = .ok ks ∧ List.Forall₂ (ProbeOctets cfg) rs ks := by
    intro rs hrs
    obtain ⟨ks, h1, h2⟩ := probeKeys_ok (cfg := cfg) (rs := rs) (fun r hr => by
      obtain ⟨its, -, h⟩ := C38_write_partial cfg max r.rdata (hrs r hr).1 (hrs r hr).2
      exact ⟨_, h⟩)
    refine ⟨ks, h1, ?_⟩
    clear h1
    induction h2 with
    | nil => exact .nil
    | @cons r k rs ks hk _ ih =>
      refine .cons ?_ (ih (fun x hx => hrs x (List.mem_cons_of_mem _ hx)))
      obtain ⟨its, h3, h4⟩ := C38_write_partial cfg max r.rdata (hrs r List.mem_cons_self).1 (hrs r List.mem_cons_self).2
      obtain ⟨b, hb, rfl⟩ := hk
      obtain rfl := Res.ok.inj (hb.symm.trans h4)
      refine ⟨its, h3, ?_⟩
      rw [RecordType.toU16_eq, classNumber_eq, u16be_eq, u16be_eq]
  obtain ⟨a, a1, a2⟩ := key mine (fun r hr => h r (List.mem_append_left _ hr))
  obtain ⟨b, b1, b2⟩ := key theirs (fun r hr => h r (List.mem_append_right _ hr))
  obtain ⟨a3, a4⟩ := sortedKeys a
  obtain ⟨b3, b4⟩ := sortedKeys b
  refine ⟨_, _, _, by simp only [tieBreak, a1, b1, Res.ok_bind]; rfl, ⟨a3, a, a2, a4⟩, ⟨b3, b, b2, b4⟩, ?_,
    C55_lexicographic _ _, C55_eq _ _⟩
  rw [Later, ← C55_lexicographic, C55_swap]
  cases Fqdn.cmp (a.mergeSort bytesLe) (b.mergeSort bytesLe) <;> simp

/-- Comparing the other way round gives the opposite answer. -/
theorem tieBreak_swap {cfg : Cfg} {a b : List ResourceRecord} {o : Ordering} (h : tieBreak cfg a b = .ok o) :
    tieBreak cfg b a = .ok o.swap := by
  unfold tieBreak at h
  obtain ⟨x, hx, h⟩ := Res.bind_eq_ok.mp h
  obtain ⟨y, hy, h⟩ := Res.bind_eq_ok.mp h
  cases h
  simp only [tieBreak, hx, hy, Res.ok_bind, C55_swap (x.mergeSort bytesLe)]
  rfl

/-- If both packets are read as they were, exactly one of the hosts keeps the name, or the records are the same. -/
theorem C133_decided (cfg : Cfg) (write write' : Packet → Res Bytes) (p q : Packet) (d e : Bytes)
    (hd : write p = .ok d) (he : write' q = .ok e) (hp : Packet.parse cfg d = .ok p) (hq : Packet.parse cfg e = .ok q)
    (hw : ∀ r ∈ p.authorities ++ q.authorities, ∃ b, r.rdata.toBytes cfg = .ok b) :
    ∃ o a b, probes cfg write write' p q = .ok (o, o.swap) ∧ probeKeys cfg p.authorities = .ok a ∧
      probeKeys cfg q.authorities = .ok b ∧ (o = .eq ↔ a.Perm b) := by
  obtain ⟨a, a1, -⟩ := probeKeys_ok (cfg := cfg) (rs := p.authorities) (fun r hr => hw r (List.mem_append_left _ hr))
  obtain ⟨b, b1, -⟩ := probeKeys_ok (cfg := cfg) (rs := q.authorities) (fun r hr => hw r (List.mem_append_right _ hr))
  have ht : tieBreak cfg p.authorities q.authorities = .ok (Fqdn.cmp (a.mergeSort bytesLe) (b.mergeSort bytesLe)) := by
    simp only [tieBreak, a1, b1, Res.ok_bind]; rfl
  refine ⟨Fqdn.cmp (a.mergeSort bytesLe) (b.mergeSort bytesLe), a, b, ?_, a1, b1, ?_⟩
  · simp only [probes, hd, he, hp, hq, Res.ok_bind, ht, tieBreak_swap ht]
    rfl
  · rw [C55_eq]
    constructor
    · intro h
      exact (sortedKeys a).2.trans (h ▸ (sortedKeys b).2.symm)
    · intro h
      exact sorted_unique ((sortedKeys a).2.symm.trans (h.trans (sortedKeys b).2)) (sortedKeys a).1 (sortedKeys b).1

theorem rdata_written {cfg : Cfg} {r : ResourceRecord} (h : RecordOk cfg 191 r) : ∃ b, r.rdata.toBytes cfg = .ok b := by
  by_cases hs : ∃ x, r.rdata = .SSHFP x
  · obtain ⟨x, hx⟩ := hs
    rw [hx]
    exact ⟨_, rfl⟩
  · obtain ⟨b, hb, -⟩ := RecordData.read_back (Nat.le_refl 191) h.2.2.2.2.2.2.1 (fun x hx => hs ⟨x, hx⟩) []
    exact ⟨b, hb⟩

theorem probed_written {cfg : Cfg} {p q : Packet} (hp : PacketOk cfg 191 p) (hq : PacketOk cfg 191 q) :
    ∀ r ∈ p.authorities ++ q.authorities, ∃ b, r.rdata.toBytes cfg = .ok b := by
  intro r hr
  rcases List.mem_append.mp hr with h | h
  · exact rdata_written (hp.2.1 r (by simp [records, h]))
  · exact rdata_written (hq.2.1 r (by simp [records, h]))

/-- C133 (partial): of two hosts that send their probes with `to_bytes`, exactly one keeps the name, or both want the
same records.  What is missing: data that `to_bytes` does not write so that they can be read (see C27). -/
theorem C133_plain_partial (cfg : Cfg) (p q : Packet) (hp : PacketOk cfg 191 p) (hpc : CountsOk p)
    (hq : PacketOk cfg 191 q) (hqc : CountsOk q)
    (hs : ∀ r ∈ records p ++ records q, r.rdata.type ≠ .SSHFP ∧ sizeError r.rdata = 0) :
    ∃ o a b, probes cfg (Packet.toBytes cfg) (Packet.toBytes cfg) p q = .ok (o, o.swap) ∧
      probeKeys cfg p.authorities = .ok a ∧ probeKeys cfg q.authorities = .ok b ∧ (o = .eq ↔ a.Perm b) := by
  obtain ⟨d, hd, h1⟩ := C27_packet_round_trip_partial cfg p hp (fun r hr => hs r (List.mem_append_left _ hr))
  obtain ⟨e, he, h2⟩ := C27_packet_round_trip_partial cfg q hq (fun r hr => hs r (List.mem_append_right _ hr))
  have h1 := (h1 []).1
  have h2 := (h2 []).1
  rw [List.append_nil, C27_counts _ hpc] at h1
  rw [List.append_nil, C27_counts _ hqc] at h2
  exact C133_decided cfg _ _ p q d e hd he h1 h2 (probed_written hp hq)

/-- C133 (partial): the same with `to_bytes_compressed`, each host with its own hash function.  What is missing: SSHFP
(C133_counterexample), names with the same hash, and messages of more than 16384 octets (see C28). -/
theorem C133_compressed_partial (cfg : Cfg) (h h' : Hash) (p q : Packet) (hp : PacketOk cfg 191 p) (hpc : CountsOk p)
    (hq : PacketOk cfg 191 q) (hqc : CountsOk q) (hs : ∀ r ∈ records p ++ records q, r.rdata.type ≠ .SSHFP)
    (hh : NoCollision h (packetNames p)) (hh' : NoCollision h' (packetNames q))
    (hd : ∀ d, p.toBytesCompressed cfg h = .ok d → d.length ≤ 16384)
    (he : ∀ e, q.toBytesCompressed cfg h' = .ok e → e.length ≤ 16384) :
    ∃ o a b, probes cfg (Packet.toBytesCompressed cfg h) (Packet.toBytesCompressed cfg h') p q = .ok (o, o.swap) ∧
      probeKeys cfg p.authorities = .ok a ∧ probeKeys cfg q.authorities = .ok b ∧ (o = .eq ↔ a.Perm b) := by
  obtain ⟨d, hd1, h1⟩ := C28_compressed_round_trip_partial cfg h p hp hpc (fun r hr => hs r (List.mem_append_left _ hr)) hh
  obtain ⟨e, he1, h2⟩ := C28_compressed_round_trip_partial cfg h' q hq hqc (fun r hr => hs r (List.mem_append_right _ hr)) hh'
  have h1 := (h1 (hd d hd1) []).1
  have h2 := (h2 (he e he1) []).1
  rw [List.append_nil] at h1 h2
  exact C133_decided cfg _ _ p q d e hd1 he1 h1 h2 (probed_written hp hq)

/-- A probe for `h.local.` with one record. -/
def exProbe (t : RecordType) (r : RecordData) : Packet := ⟨⟨0, ⟨0, 0⟩, 1, 0, 1, 0⟩,
  [⟨[[104], [108, 111, 99, 97, 108]], .ANY, .IN, false⟩], [], [⟨[[104], [108, 111, 99, 97, 108]], t, false, .IN, 120, r⟩], []⟩

/-- C133 is false for SSHFP records: both hosts, whose probes are legal, find that their own records are the later ones,
and both keep the name. -/
theorem C133_counterexample (cfg : Cfg) :
    PacketOk cfg 63 (exProbe .SSHFP (.SSHFP ⟨.RSA, .SHA1, [2, 0, 0]⟩)) ∧
    PacketOk cfg 63 (exProbe .SSHFP (.SSHFP ⟨.RSA, .SHA1, [1, 0]⟩)) ∧
    probes cfg (Packet.toBytes cfg) (Packet.toBytes cfg) (exProbe .SSHFP (.SSHFP ⟨.RSA, .SHA1, [2, 0, 0]⟩))
      (exProbe .SSHFP (.SSHFP ⟨.RSA, .SHA1, [1, 0]⟩)) = .ok (.gt, .gt) := by
  have ok : ∀ b : Bytes, b.length ≤ 3 → PacketOk cfg 63 (exProbe .SSHFP (.SSHFP ⟨.RSA, .SHA1, b⟩)) := by
    intro b hb
    refine ⟨?_, ?_, by simp [exProbe], by simp [exProbe], by simp [exProbe], by simp [exProbe]⟩
    · simp only [exProbe, List.forall_mem_cons]
      exact ⟨⟨by decide, by simp [QReadable], by simp⟩, by simp⟩
    · simp only [records, exProbe, List.append_nil, List.nil_append, List.forall_mem_cons]
      refine ⟨⟨show NameOk 63 [[104], [108, 111, 99, 97, 108]] by decide, by simp [Readable, dnssecTypes], rfl, trivial,
        by simp [classNumber], by simp, by simp [Writable], fun x hx => ?_⟩, by simp⟩
      cases hx
      simp [Sshfp.toBytes]
      omega
  refine ⟨ok _ (by simp), ok _ (by simp), ?_⟩
  have key : ∀ a b c : Bool, probes ⟨a, b, c⟩ (Packet.toBytes ⟨a, b, c⟩) (Packet.toBytes ⟨a, b, c⟩)
      (exProbe .SSHFP (.SSHFP ⟨.RSA, .SHA1, [2, 0, 0]⟩)) (exProbe .SSHFP (.SSHFP ⟨.RSA, .SHA1, [1, 0]⟩)) =
        .ok (.gt, .gt) := by decide +kernel
  exact key cfg.overflowChecks cfg.mdns cfg.dnssec

/-- The example of RFC 6762, section 8.2.1: of 169.254.99.200 and 169.254.200.50 the second one wins. -/
theorem exProbe_ok (cfg : Cfg) (a : UInt32) : PacketOk cfg 191 (exProbe .A (.A ⟨a⟩)) ∧ CountsOk (exProbe .A (.A ⟨a⟩)) := by
  refine ⟨⟨?_, ?_, by simp [exProbe], by simp [exProbe], by simp [exProbe], by simp [exProbe]⟩, ⟨rfl, rfl, rfl, rfl⟩⟩
  · simp only [exProbe, List.forall_mem_cons]
    exact ⟨⟨by decide, by simp [QReadable], by simp⟩, by simp⟩
  · simp only [records, exProbe, List.append_nil, List.nil_append, List.forall_mem_cons]
    refine ⟨⟨show NameOk 191 [[104], [108, 111, 99, 97, 108]] by decide, by simp [Readable, dnssecTypes], rfl, trivial,
      by simp [classNumber], by simp, by simp [Writable], fun x hx => ?_⟩, by simp⟩
    cases hx
    simp [A.toBytes, u32be]

/-- C133: two hosts meet the hypotheses. -/
example (cfg : Cfg) :
    (∀ r ∈ (exProbe .A (.A ⟨0xA9FE63C8⟩)).authorities ++ (exProbe .A (.A ⟨0xA9FEC832⟩)).authorities,
      Writable cfg 191 r.rdata ∧ WrittenWell r.rdata) ∧
    (∃ o a b, probes cfg (Packet.toBytes cfg) (Packet.toBytes cfg) (exProbe .A (.A ⟨0xA9FE63C8⟩))
        (exProbe .A (.A ⟨0xA9FEC832⟩)) = .ok (o, o.swap) ∧
      probeKeys cfg (exProbe .A (.A ⟨0xA9FE63C8⟩)).authorities = .ok a ∧
      probeKeys cfg (exProbe .A (.A ⟨0xA9FEC832⟩)).authorities = .ok b ∧ (o = .eq ↔ a.Perm b)) ∧
    tieBreak ⟨true, true, true⟩ (exProbe .A (.A ⟨0xA9FE63C8⟩)).authorities (exProbe .A (.A ⟨0xA9FEC832⟩)).authorities =
      .ok .lt ∧
    probes ⟨true, true, true⟩ (Packet.toBytesCompressed ⟨true, true, true⟩ (Target.hashFqdn ⟨false, 8⟩))
      (Packet.toBytesCompressed ⟨true, true, true⟩ (Target.hashFqdn ⟨false, 8⟩)) (exProbe .A (.A ⟨0xA9FE63C8⟩))
      (exProbe .A (.A ⟨0xA9FEC832⟩)) = .ok (.lt, .gt) := by
  refine ⟨by simp [exProbe, Writable, WrittenWell], ?_, by decide +kernel, by decide +kernel⟩
  exact C133_plain_partial cfg _ _ (exProbe_ok cfg _).1 (exProbe_ok cfg _).2 (exProbe_ok cfg _).1 (exProbe_ok cfg _).2
    (by simp [records, exProbe, RecordData.type, sizeError])

end Dns
