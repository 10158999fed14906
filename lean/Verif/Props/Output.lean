import Verif.Lemmas.Output
import Verif.Props.CompressedSize
import Verif.Props.Dnssec
import Verif.Props.PacketWire

/-!
Writing has no effect but its result (C102).  Except for TSIG records: each time the data of one are
written, a line appears on the standard output of the process, and when that is closed the call panics.
A computation of the model takes the standard output and the lines already there, and gives the way it
ends and the lines there afterwards.
-/

namespace Dns
open Spec

/-- C102 (partial): packets, records and record sets without TSIG data are written, sized, signed and
verified without any output and independently of the standard output.  What is missing: TSIG data (false,
see the counterexamples and `C102_prints`). -/
theorem C102_silent_partial (cfg : Cfg) (h : Hash) (o : Stdout) (before : List Line) :
    (∀ p : Packet, tsigs ((records p).map (·.rdata)) = [] →
      (∀ b, p.toBytesOut cfg o before = (.returned (.ok b), before) ↔ p.toBytes cfg = .ok b) ∧
      (p.toBytesOut cfg o before).2 = before ∧
      p.toBytesCompressedOut cfg h o before = (.returned (p.toBytesCompressed cfg h), before)) ∧
    (∀ (r : ResourceRecord) (names : Names) (offset : Nat), tsigs [r.rdata] = [] →
      r.toBytesOut cfg o before = (.returned (r.toBytes cfg), before) ∧
      r.toBytesCompressedOut cfg h names offset o before =
        (.returned (r.toBytesCompressed cfg h names offset), before) ∧
      r.byteSizeCompressedOut cfg h names offset o before =
        (.returned (r.byteSizeCompressed cfg h names offset), before)) ∧
    (∀ (set : RRSet) (search : Search), tsigs set.records = [] →
      set.toBytesOut cfg search o before = (.returned (set.toBytes cfg search), before) ∧
      ∀ (c : Crypto) (k : DnsKey) (s : Rrsig) (inc exp : SysTime) (priv : Bytes),
        Rrsig.fromDnsKeyOut cfg c search k set inc exp priv o before =
          (.returned (Rrsig.fromDnsKey cfg c search k set inc exp priv), before) ∧
        s.verifyOut cfg c search k set o before = (.returned (s.verify cfg c search k set), before)) := by
  have nolines : ∀ {ds : List RecordData}, tsigs ds = [] → dataLines ds = [] := by
    intro ds hd
    rw [dataLines, hd, List.map_nil]
  refine ⟨fun p hp => ?_, fun r names offset hr => ?_, fun set search hs => ?_⟩
  · have h1 := Packet.toBytesOut_writes cfg p
    have h2 := Packet.toBytesCompressedOut_writes cfg h p
    rw [nolines hp] at h1 h2
    refine ⟨fun b => ?_, ?_, h2.silent o before⟩
    · rw [h1.silent o before, ← Packet.sizes_then_bytes]
      constructor
      · intro e
        injection e with e _
        injection e
      · intro e
        rw [e]
    · rw [h1.silent o before]
  · have h1 := ResourceRecord.toBytesOut_writes cfg r
    have h2 := ResourceRecord.toBytesCompressedOut_writes cfg h r names offset
    have h3 := ResourceRecord.byteSizeCompressedOut_writes cfg h r names offset
    rw [nolines hr] at h1 h2 h3
    exact ⟨h1.silent o before, h2.silent o before, h3.silent o before⟩
  · refine ⟨?_, fun c k s inc exp priv => ⟨?_, ?_⟩⟩
    · have h1 := RRSet.toBytesOut_writes cfg search set
      rw [nolines hs] at h1
      exact h1.silent o before
    · have h1 := Rrsig.fromDnsKeyOut_writes cfg c search k set inc exp priv
      rw [nolines hs] at h1
      exact h1.silent o before
    · by_cases ha : s.algorithm = k.algorithm
      · have h1 := Rrsig.verifyOut_writes cfg c search s k set ha
        rw [nolines hs] at h1
        exact h1.silent o before
      · rw [Rrsig.verifyOut, Rrsig.verify, if_pos ha, if_pos ha]
        rfl

/-- The lines that appear: one for each TSIG record of the packet, in the order of the records.  When the
standard output accepts them the result is the one without output; when it refuses one, the call panics
there.  (The condition on the names excludes empty labels, which no name that was read has.) -/
theorem C102_prints (cfg : Cfg) (h : Hash) (p : Packet)
    (hn : ∀ t ∈ tsigs ((records p).map (·.rdata)), ∀ l ∈ t.algorithm, l ≠ []) :
    ∃ lines, List.Forall₂ LineOf (tsigs ((records p).map (·.rdata))) lines ∧
      (∀ (o : Stdout) (b : Bytes), p.toBytes cfg = .ok b →
        (Takes o lines → p.toBytesOut cfg o [] = (.returned (.ok b), lines)) ∧
        ∀ k, RefusesAt o lines k → p.toBytesOut cfg o [] = (.printFailed, lines.take k)) ∧
      (∀ (o : Stdout) (b : Bytes), p.toBytesCompressed cfg h = .ok b →
        (Takes o lines → p.toBytesCompressedOut cfg h o [] = (.returned (.ok b), lines)) ∧
        ∀ k, RefusesAt o lines k → p.toBytesCompressedOut cfg h o [] = (.printFailed, lines.take k)) ∧
      ∀ o, Takes o lines ∨ ∃ k, RefusesAt o lines k := by
  refine ⟨dataLines ((records p).map (·.rdata)), ?_, fun o b hb => ?_, fun o b hb => ?_,
    fun o => Out.accepts_or o _⟩
  · rw [dataLines, List.forall₂_map_right_iff]
    refine List.forall₂_same.mpr (fun t ht => tsigText_line (Fqdn.toBytes_eq (fun l hl => ?_)))
    exact List.length_pos_iff.mpr (hn t ht l hl)
  · have h1 := Packet.toBytesOut_writes cfg p
    rw [Packet.sizes_then_bytes.mpr hb] at h1
    exact ⟨fun ho => h1.accepted ho, fun k hk => h1.refused hk⟩
  · have h1 := Packet.toBytesCompressedOut_writes cfg h p
    rw [hb] at h1
    exact ⟨fun ho => h1.accepted ho, fun k hk => h1.refused hk⟩

/-- C102 for writing packets, exactly: a packet that can be written is written without output if and only
if it has no TSIG record. -/
theorem C102_exact (cfg : Cfg) (p : Packet) (b : Bytes) (hb : p.toBytes cfg = .ok b) :
    (∀ o, p.toBytesOut cfg o [] = (.returned (.ok b), [])) ↔ tsigs ((records p).map (·.rdata)) = [] := by
  constructor
  · intro hs
    have h1 := Packet.toBytesOut_writes cfg p
    rw [Packet.sizes_then_bytes.mpr hb] at h1
    have h2 := h1.accepted (o := fun _ _ => true) (fun _ _ _ => rfl)
    rw [hs] at h2
    injection h2 with _ h2
    exact List.map_eq_nil_iff.mp h2.symm
  · intro ht o
    exact (((C102_silent_partial cfg (fun _ => 0) o []).1 p ht).1 b).mpr hb
example (o : Stdout) : exPacket.toBytesOut ⟨true, true, true⟩ o [] = (.returned (exPacket.toBytes ⟨true, true, true⟩), []) :=
  (C102_exact ⟨true, true, true⟩ exPacket _ rfl).mpr rfl o

/-- A packet with a TSIG record (algorithm `a.`). -/
def tsigPacket : Packet :=
  onePacket ⟨[[107]], .TSIG, false, .udpPayloadSize 255, 0, .TSIG ⟨[[97]], 1, 300, [1, 2], 7, .none, []⟩⟩

/-- The line that is printed for it. -/
def tsigPacketLine : Line := "Test: [1, 97, 0]".toList

/-- C102 is false: writing a packet with a TSIG record, with and without compression, and asking for the
compressed size of the record print a line; when the standard output is closed, all of them panic. -/
theorem C102_counterexample (cfg : Cfg) (h : Hash) (r : ResourceRecord) (hr : r ∈ tsigPacket.answers) :
    (∃ b, tsigPacket.toBytesOut cfg (fun _ _ => true) [] = (.returned (.ok b), [tsigPacketLine])) ∧
    (∃ b, tsigPacket.toBytesCompressedOut cfg h (fun _ _ => true) [] =
      (.returned (.ok b), [tsigPacketLine])) ∧
    (∃ n, r.byteSizeCompressedOut cfg h Names.empty 0 (fun _ _ => true) [] =
      (.returned (.ok n), [tsigPacketLine])) ∧
    tsigPacket.toBytesOut cfg (fun _ _ => false) [] = (.printFailed, []) ∧
    tsigPacket.toBytesCompressedOut cfg h (fun _ _ => false) [] = (.printFailed, []) ∧
    r.byteSizeCompressedOut cfg h Names.empty 0 (fun _ _ => false) [] = (.printFailed, []) := by
  have hl : dataLines ((records tsigPacket).map (·.rdata)) = [tsigPacketLine] := by decide +kernel
  obtain rfl := List.mem_singleton.mp hr
  have h1 := Packet.toBytesOut_writes cfg tsigPacket
  have h2 := Packet.toBytesCompressedOut_writes cfg h tsigPacket
  have h3 := ResourceRecord.byteSizeCompressedOut_writes cfg h
    ⟨[[107]], .TSIG, false, .udpPayloadSize 255, 0, .TSIG ⟨[[97]], 1, 300, [1, 2], 7, .none, []⟩⟩ Names.empty 0
  rw [hl] at h1 h2
  rw [show dataLines [ResourceRecord.rdata _] = [tsigPacketLine] from hl] at h3
  have ht : Takes (fun _ _ => true) [tsigPacketLine] := fun _ _ _ => rfl
  have hf : RefusesAt (fun _ _ => false) [tsigPacketLine] 0 :=
    ⟨fun k l e => by simp at e, _, rfl, rfl⟩
  exact ⟨⟨_, h1.accepted (a := _) ht⟩, ⟨_, h2.accepted ht⟩, ⟨_, h3.accepted ht⟩, h1.refused hf,
    h2.refused hf, h3.refused hf⟩

/-- The packet of the counterexample meets the conditions of `C102_prints`. -/
example : (∀ t ∈ tsigs ((records tsigPacket).map (·.rdata)), ∀ l ∈ t.algorithm, l ≠ []) ∧
    (tsigs ((records tsigPacket).map (·.rdata))).length = 1 ∧
    (tsigPacket.toBytes ⟨true, true, true⟩).isOk = true := by decide +kernel

/-- Conditions of `C102_silent_partial`. -/
example : tsigs ((records exPacket).map (·.rdata)) = [] ∧ tsigs exSet.records = [] := by decide +kernel

end Dns
