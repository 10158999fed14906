import Verif.Props.Patch
import Verif.Props.Cut
import Verif.Props.Stream
import Verif.Props.Edit
import Verif.Props.Reply
import Verif.Props.Receive
import Verif.Props.Exactly
import Verif.Props.Coincidence
import Verif.Props.Represented
import Verif.Props.Unsafe
import Verif.Props.Write
import Verif.Props.RRSet
import Verif.Props.SetTime
import Verif.Props.Readme
import Verif.Props.Equal

/-
Theorems applied to concrete packets and messages: their hypotheses are met together.  The packet of the examples has a
question and records of four types in three sections; the message `looseOctets` has compressed names.
-/

namespace Dns
open Spec Buf

theorem exPacket_sshfp : ∀ r ∈ records exPacket, r.rdata.type ≠ .SSHFP := by decide

theorem exPacket_sizes : ∀ r ∈ records exPacket, r.rdata.type ≠ .SSHFP ∧ sizeError r.rdata = 0 := fun r hr =>
  ⟨exPacket_sshfp r hr, (exPacket_well r hr).2⟩

theorem exPacket_written : ∀ r ∈ records exPacket, WrittenWell r.rdata ∧ sizeError r.rdata = 0 ∧ r.rdata.type ≠ .SSHFP :=
  fun r hr => ⟨(exPacket_well r hr).1, (exPacket_well r hr).2, exPacket_sshfp r hr⟩

theorem exPacket_reads : ∀ r ∈ records exPacket, Writable ⟨true, true, true⟩ 63 r.rdata ∧ ReadWell r.rdata := fun r hr =>
  ⟨(exPacket_ok.2.1 r hr).2.2.2.2.2.2.1, written_read (exPacket_well r hr).1 (exPacket_sshfp r hr)⟩

theorem exPacket_sent : ∃ b, SentMessage PlainName ⟨true, true, true⟩ b exPacket := by
  obtain ⟨b, -, h⟩ := C97_plain_partial ⟨true, true, true⟩ exPacket exPacket_ok exPacket_well
  rw [C27_counts exPacket ⟨rfl, rfl, rfl, rfl⟩] at h
  exact ⟨b, h⟩

/-- C27, C33, C67, C104: what is written. -/
example := C27_packet_round_trip_partial ⟨true, true, true⟩ exPacket (exPacket_ok.mono (by decide)) exPacket_sizes
example := C33_packet_size_partial ⟨true, true, true⟩ exPacket _
  (fun r hr => Spec.Writable.sets (exPacket_ok.2.1 r hr).2.2.2.2.2.2.1) rfl
example := C67_different_partial ⟨true, true, true⟩ exPacket { exPacket with header := { exPacket.header with ansCount := 9 } }
  (exPacket_ok.mono (by decide)) (exPacket_ok.mono (by decide)) exPacket_sizes exPacket_sizes _ [7] [7] _ rfl rfl rfl
example (m : Machine) (hm : Roomy m) (ha : ∀ n, (m.alloc n).1 % 2 = 0) := C104_to_bytes_partial m ⟨true, true, true⟩ exPacket hm
  (fun r hr => Spec.Writable.sets (exPacket_ok.2.1 r hr).2.2.2.2.2.2.1) ha

/-- C99, C108, C109: what a sender without compression sends. -/
example : ∃ b, Packet.parse ⟨true, true, true⟩ b = .ok exPacket := by
  obtain ⟨b, h⟩ := exPacket_sent
  exact ⟨b, (C99_received_partial ⟨true, true, true⟩ b exPacket b.length (C99_of_sent _ _ _ h)
    (fun r hr => (exPacket_reads r hr).1) (fun r hr => (exPacket_reads r hr).2)).1⟩
example : ∃ b, Packet.parse ⟨true, true, true⟩ b = .ok exPacket := by
  obtain ⟨b, h⟩ := exPacket_sent
  exact ⟨b, (C99_exact ⟨true, true, true⟩ b exPacket b.length (C99_of_sent _ _ _ h)
    (fun r hr => (exPacket_reads r hr).1)).mpr (fun r hr => (exPacket_reads r hr).2)⟩
example (b : Bytes) (h : SentMessage PlainName ⟨true, true, true⟩ b exPacket) (q : Packet) (f : Nat)
    (hq : ReceivedMessage ⟨true, true, true⟩ b q f)
    (vq : ∀ r ∈ records q, Writable ⟨true, true, true⟩ 63 r.rdata ∧ ReadWell r.rdata) : exPacket = q :=
  (C99_one_meaning_partial ⟨true, true, true⟩ b exPacket q b.length f (C99_of_sent _ _ _ h) hq exPacket_reads vq).1
example (b pre post : Bytes) (h : SentMessage PlainName ⟨true, true, true⟩ b exPacket) :=
  C108_sequence_partial ⟨true, true, true⟩ [(b, exPacket), (b, exPacket)] pre post (by
    intro m hm
    obtain rfl : m = (b, exPacket) := by simpa using hm
    exact ⟨h, exPacket_reads⟩)
example (pre post : Bytes) := C108_written_partial ⟨true, true, true⟩ [exPacket, exPacket] pre post (by
  intro p hp
  obtain rfl : p = exPacket := by simpa using hp
  exact ⟨exPacket_ok, ⟨rfl, rfl, rfl, rfl⟩, exPacket_written⟩)
example (b pre post : Bytes) (h : SentMessage PlainName ⟨true, true, true⟩ b exPacket) (hb : b.length < 65536) :=
  C108_tcp_partial ⟨true, true, true⟩ [(b, exPacket)] pre post (by
    intro m hm
    obtain rfl : m = (b, exPacket) := by simpa using hm
    exact ⟨h, hb, exPacket_reads⟩)
example (b : Bytes) (k : Nat) (h : SentMessage PlainName ⟨true, true, true⟩ b exPacket) (hk : k < b.length) :=
  C109_plain_exact ⟨true, true, true⟩ b exPacket k h exPacket_reads hk
example := C109_written_exact ⟨true, true, true⟩ exPacket exPacket_ok ⟨rfl, rfl, rfl, rfl⟩ exPacket_written
example := C109_exact ⟨true, true, true⟩ [0, 1, 0, 0, 0, 1, 0, 0, 0, 0, 0, 0, 1, 97, 0, 0, 1, 0, 1]
  ⟨⟨1, ⟨0, 0⟩, 1, 0, 0, 0⟩, [⟨[[97]], .rr .A, .IN, false⟩], [], [], []⟩ 19 13 (by decide +kernel) (by decide)
example := C109_name_exact [2, 97, 98, 0] 0 4 3 [[97, 98]]
  (.label (by decide) (by decide) rfl ⟨[], [0], rfl, rfl, rfl⟩ (.root rfl)) (by decide) (by decide)
example := (C108_name_exact [1, 97, 0, 0xC0, 0] 0 3 [[97]]
  (.label (by decide) (by decide) rfl ⟨[], [0, 0xC0, 0], rfl, rfl, rfl⟩ (.root rfl))).mpr
  (.label (by decide) (by decide) rfl ⟨[], [0, 0xC0, 0], rfl, rfl, rfl⟩ (.root rfl))

/-- C113 to C117: a message with compressed names, in which something is changed. -/
example := C113_append_partial compressedType ⟨true, true, true⟩ looseOctets tailOctets loosePacket tailRecord loose_placed
  tail_record (by decide) loose_data
example := C113_remove_message compressedType ⟨true, true, true⟩ (arcount 1 looseOctets ++ tailOctets)
  (withAdditional [tailRecord] loosePacket) [] tailRecord (C113_append_message compressedType ⟨true, true, true⟩ looseOctets
    tailOctets loosePacket tailRecord loose_placed tail_record (by decide)) rfl
example := C114_partial compressedType ⟨true, true, true⟩ looseOctets loosePacket .answers [] []
  ⟨[[97], [98]], .MX, false, .IN, 5, .MX ⟨10, [[109], [97], [98]]⟩⟩ loose_placed rfl
  (fun x hx => loose_data x (List.mem_cons_of_mem _ hx))
example := C114_message compressedType ⟨true, true, true⟩ looseOctets loosePacket .answers [] []
  ⟨[[97], [98]], .MX, false, .IN, 5, .MX ⟨10, [[109], [97], [98]]⟩⟩ loose_placed rfl
example := C115_message compressedType ⟨true, true, true⟩ looseOctets loosePacket loose_placed
example := C115_partial compressedType ⟨true, true, true⟩ looseOctets loosePacket loose_placed
  (fun x hx => loose_data x (List.mem_cons_of_mem _ hx))
example := C115_limit_partial compressedType ⟨true, true, true⟩ looseOctets loosePacket loose_placed
  (fun x hx => loose_data x (List.mem_cons_of_mem _ hx)) 512 9 ⟨0x82, 0⟩
example := C116_message compressedType ⟨true, true, true⟩ looseOctets loosePacket ⟨[[97], [98]], .rr .MX, .IN, false⟩ []
  [0xC0 :: 0x0C :: tailOctets.tail] [{ tailRecord with name := [[97], [98]] }] loose_placed rfl
  (.cons (.inr ⟨_, rfl, by decide, rfl, tail_record⟩) .nil) (by decide)
example := C117_message compressedType ⟨true, true, true⟩ looseOctets loosePacket loose_placed
example := C117_partial compressedType ⟨true, true, true⟩ looseOctets loosePacket loose_placed
  (fun x hx => loose_data x (List.mem_cons_of_mem _ hx))

/-- C48, C49, C122: a set of records. -/
example (search search' : Search) (hv : search.Valid) (hv' : search'.Valid) (out : Bytes)
    (h : RRSet.toBytes ⟨true, true, true⟩ search ⟨[[97]], .A, .IN, 5, [.A ⟨2⟩, .A ⟨1⟩]⟩ = .ok out) :=
  C48_order_independent ⟨true, true, true⟩ search search' hv hv' ⟨[[97]], .A, .IN, 5, [.A ⟨2⟩, .A ⟨1⟩]⟩ [.A ⟨1⟩, .A ⟨2⟩]
    (.swap _ _ _) out h
example (search : Search) (hv : search.Valid) := fun out => C48_sorted ⟨true, true, true⟩ search hv
  ⟨[[97]], .A, .IN, 5, [.A ⟨2⟩, .A ⟨1⟩]⟩ out (by decide)
example (search : Search) (hv : search.Valid) (out : Bytes)
    (h : RRSet.toBytes ⟨true, true, true⟩ search ⟨[[97]], .A, .IN, 5, [.A ⟨2⟩, .A ⟨1⟩]⟩ = .ok out) :=
  C49_right ⟨true, true, true⟩ search hv ⟨[[97]], .A, .IN, 5, [.A ⟨2⟩, .A ⟨1⟩]⟩ out (by simp [SetsOk]) h (by decide)

/-- C124: the query of the documentation. -/
example (cfg : Cfg) : ∃ p b, History cfg .default (askCalls [⟨[97], .rr .A, .IN⟩]) p ∧ p.toBytes cfg = .ok b := by
  obtain ⟨p, h⟩ := C124_asked cfg _ .default [⟨[97], .rr .A, .IN⟩] (by decide)
  obtain ⟨b, hb, _⟩ := C124_plain_exact cfg .default p .default [⟨[97], .rr .A, .IN⟩] (by decide) h
  exact ⟨p, b, h, hb⟩

end Dns
