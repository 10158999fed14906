import Verif.Lemmas.Distinct

/-! C67: different packets are written differently, also with the records of which `to_bytes()` writes a
wrong length. -/

namespace Dns
open Spec Buf

/-- C67 (partial): two packets that can be represented on the wire and are written by `to_bytes()` to octets
of which one is the beginning of the other are the same packet, up to the counts in the header (which are
not written).  Unlike for reading back (C27), SSHFP records and the records written with a wrong RDLENGTH
(RRSIG, CAA, SVCB with parameters, OPT with options) may be present.  What is missing: OPT records with an
option without data, SVCB records of which the computed size does not fit 16 bits (see `Framed`), and packets
that cannot be represented on the wire; for each of these the claim is false, see the counterexamples. -/
theorem C67_distinct_partial (cfg : Cfg) (p q : Packet) (hp : PacketOk cfg 191 p) (hq : PacketOk cfg 191 q)
    (fp : ∀ r ∈ records p, Framed cfg r.rdata) (fq : ∀ r ∈ records q, Framed cfg r.rdata)
    (b c x y : Bytes) (h1 : p.toBytes cfg = .ok b) (h2 : q.toBytes cfg = .ok c) (h3 : b ++ x = c ++ y) :
    withCounts p = withCounts q ∧ b = c :=
  Packet.distinct hp hq fp fq h1 h2 h3

/-- C67: the hypotheses hold for a packet with an SSHFP record, a CAA record and an OPT record with an
option. -/
def framedPacket : Packet := ⟨⟨1, ⟨0x80, 0⟩, 0, 0, 0, 3⟩, [], [], [],
  [⟨[[97]], .SSHFP, false, .IN, 60, .SSHFP ⟨.RSA, .SHA1, [1, 2]⟩⟩,
   ⟨[[97]], .CAA, false, .IN, 60, .CAA ⟨false, [105], [98, 99]⟩⟩,
   ⟨[], .OPT, false, .udpPayloadSize 1232, 0, .OPT ⟨[(10, [1, 2])]⟩⟩]⟩

example : PacketOk ⟨true, true, true⟩ 191 framedPacket ∧
    (∀ r ∈ records framedPacket, Framed ⟨true, true, true⟩ r.rdata) ∧
    ∃ b, framedPacket.toBytes ⟨true, true, true⟩ = .ok b := by
  refine ⟨⟨by simp [framedPacket], ?_, by decide, by decide, by decide, by decide⟩, ?_, _, rfl⟩
  · intro r hr
    simp only [records, framedPacket, List.nil_append, List.mem_cons, List.not_mem_nil, or_false] at hr
    rcases hr with rfl | rfl | rfl
    · refine ⟨by decide, by decide, rfl, trivial, by decide, by simp, trivial, ?_⟩
      intro b hb; cases hb; decide
    · refine ⟨by decide, by decide, rfl, trivial, by decide, by simp, ?_, ?_⟩
      · exact ⟨by decide, by decide, ['i'], by decide⟩
      · intro b hb; cases hb; decide
    · refine ⟨by simp [NameOk], by decide, rfl, ?_, by decide, by simp, ?_, ?_⟩
      · show _ ∧ _; decide
      · exact ⟨by decide, by decide⟩
      · intro b hb; cases hb; decide
  · intro r hr
    simp only [records, framedPacket, List.nil_append, List.mem_cons, List.not_mem_nil, or_false] at hr
    rcases hr with rfl | rfl | rfl
    · trivial
    · trivial
    · show ∀ o ∈ _, _
      decide

/-- An OPT record with an option without data, and what `twinB` reads in it. -/
def twinA : Packet := ⟨⟨1, ⟨0x80, 0⟩, 0, 0, 0, 2⟩, [], [], [],
  [⟨[], .OPT, false, .udpPayloadSize 1232, 0, .OPT ⟨[(1, [])]⟩⟩,
   ⟨[[97]], .A, false, .udpPayloadSize 10, 0, .A ⟨0x01020304⟩⟩]⟩

/-- An OPT record without options, and an URI record that begins with the option of `twinA`. -/
def twinB : Packet := ⟨⟨1, ⟨0x80, 0⟩, 0, 0, 0, 2⟩, [], [], [],
  [⟨[], .OPT, false, .udpPayloadSize 1232, 0, .OPT ⟨[]⟩⟩,
   ⟨[], .URI, false, .IN, 0x61000001, .URI ⟨0, 0, [0, 4, 1, 2, 3, 4]⟩⟩]⟩

theorem twinA_ok : PacketOk ⟨true, true, true⟩ 191 twinA := by
  refine ⟨by simp [twinA], ?_, by decide, by decide, by decide, by decide⟩
  intro r hr
  simp only [records, twinA, List.nil_append, List.mem_cons, List.not_mem_nil, or_false] at hr
  rcases hr with rfl | rfl
  · refine ⟨by simp [NameOk], by simp [Readable], rfl, ?_, by decide, by simp, ?_, ?_⟩
    · show _ ∧ _; decide
    · exact ⟨by decide, by decide⟩
    · intro b hb; cases hb; decide
  · refine ⟨by decide, by simp [Readable], rfl, ?_, by decide, by simp, trivial, ?_⟩
    · show _ ∧ _; decide
    · intro b hb; cases hb; decide

theorem twinB_ok : PacketOk ⟨true, true, true⟩ 191 twinB := by
  refine ⟨by simp [twinB], ?_, by decide, by decide, by decide, by decide⟩
  intro r hr
  simp only [records, twinB, List.nil_append, List.mem_cons, List.not_mem_nil, or_false] at hr
  rcases hr with rfl | rfl
  · refine ⟨by simp [NameOk], by simp [Readable], rfl, ?_, by decide, by simp, ?_, ?_⟩
    · show _ ∧ _; decide
    · exact ⟨by decide, by decide⟩
    · intro b hb; cases hb; decide
  · refine ⟨by simp [NameOk], by simp [Readable], rfl, trivial, by decide, by simp, trivial, ?_⟩
    · intro b hb; cases hb; decide

/-- C67 is false for packets that can be represented on the wire: two packets, one of them with an option
without data, are written to the same octets. -/
theorem C67_option_counterexample : ∃ (p q : Packet) (b : Bytes), PacketOk ⟨true, true, true⟩ 191 p ∧
    PacketOk ⟨true, true, true⟩ 191 q ∧ withCounts p ≠ withCounts q ∧
    p.toBytes ⟨true, true, true⟩ = .ok b ∧ q.toBytes ⟨true, true, true⟩ = .ok b :=
  ⟨twinA, twinB, _, twinA_ok, twinB_ok, by decide, rfl, by decide +kernel⟩

end Dns
