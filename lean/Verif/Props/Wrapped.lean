import Verif.Props.Distinct

/-! C67: an SVCB record of which the computed size does not fit 16 bits. -/
namespace Dns
open Spec Buf

/-- An SVCB record whose computed size is 65539, and a record behind it. -/
def wrapA (e : Bytes) : Packet := ⟨⟨1, ⟨0x80, 0⟩, 0, 2, 0, 0⟩, [], [
    ⟨[], .SVCB, false, .IN, 5, .SVCB ⟨1, [], [.alpn [[0, 0, 0, 5, 0xff, 0xfc]], .ech e]⟩⟩,
    ⟨[], .A, false, .IN, 5, .A ⟨0x01020304⟩⟩], [], []⟩

/-- An SVCB record without parameters, and a URI record with the rest of those octets. -/
def wrapB (e : Bytes) : Packet := ⟨⟨1, ⟨0x80, 0⟩, 0, 2, 0, 0⟩, [], [
    ⟨[], .SVCB, false, .IN, 5, .SVCB ⟨1, [], []⟩⟩,
    ⟨[], .URI, false, .udpPayloadSize 0x0706, 5, .URI ⟨5, 0xffe9, e ++ [0, 0, 1, 0, 1, 0, 0, 0, 5, 0, 4, 1, 2, 3, 4]⟩⟩],
    [], []⟩

/-- What is written for both. -/
def wrapOctets (e : Bytes) : Bytes := [0, 1, 0x80, 0, 0, 0, 0, 2, 0, 0, 0, 0, 0, 0, 64, 0, 1, 0, 0, 0, 5, 0, 3, 0, 1, 0,
  0, 1, 0, 7, 6, 0, 0, 0, 5, 0xff, 0xfc, 0, 5, 0xff, 0xe9] ++ e ++ [0, 0, 1, 0, 1, 0, 0, 0, 5, 0, 4, 1, 2, 3, 4]

theorem wrapA_data (cfg : Cfg) {e : Bytes} (he : e.length = 65513) :
    RecordData.toBytes cfg (.SVCB ⟨1, [], [.alpn [[0, 0, 0, 5, 0xff, 0xfc]], .ech e]⟩) =
      .ok ([0, 1, 0, 0, 1, 0, 7, 6, 0, 0, 0, 5, 0xff, 0xfc, 0, 5, 0xff, 0xe9] ++ e) := by
  have h1 : Param.toBytes cfg (.ech e) = .ok ([0, 5, 0xff, 0xe9] ++ e) := by
    have h0 : subU16 cfg 65517 4 = .ok 65513 := by unfold subU16; rw [if_pos (by decide)]
    have h00 : u16be (UInt16.ofNat 65513) = [0xff, 0xe9] := by decide
    unfold Param.toBytes Param.byteSize
    simp only [he]
    rw [show (4 + 65513) % 65536 = 65517 from by decide, h0]
    show Res.ok (u16be 5 ++ u16be (UInt16.ofNat 65513) ++ e) = _
    rw [h00]
    rfl
  have h2 : Param.toBytes cfg (.alpn [[0, 0, 0, 5, 0xff, 0xfc]]) = .ok [0, 1, 0, 7, 6, 0, 0, 0, 5, 0xff, 0xfc] := by
    cases cfg with | mk a b c => cases a <;> rfl
  simp only [RecordData.toBytes, Svcb.toBytes, Svcb.paramBytes, h1, h2]
  simp [bind, Res.bind, pure]
  rfl

theorem wrap_small : (ResourceRecord.mk [] .A false .IN 5 (.A ⟨0x01020304⟩)).toBytes ⟨true, true, true⟩ =
      .ok [0, 0, 1, 0, 1, 0, 0, 0, 5, 0, 4, 1, 2, 3, 4] ∧
    (ResourceRecord.mk [] .SVCB false .IN 5 (.SVCB ⟨1, [], []⟩)).toBytes ⟨true, true, true⟩ =
      .ok [0, 0, 64, 0, 1, 0, 0, 0, 5, 0, 3, 0, 1, 0] ∧
    Fqdn.toBytes [] ++ u16be RecordType.SVCB.toU16 ++ u16be RecordClass.IN.toU16 ++ u32be 5 ++
      u16be (UInt16.ofNat 65539) = [0, 0, 64, 0, 1, 0, 0, 0, 5, 0, 3] ∧
    Fqdn.toBytes [] ++ u16be RecordType.URI.toU16 ++ u16be (RecordClass.udpPayloadSize 0x0706).toU16 ++ u32be 5 ++
      u16be (UInt16.ofNat 65532) = [0, 1, 0, 7, 6, 0, 0, 0, 5, 0xff, 0xfc] ∧
    u16be 5 ++ u16be 0xffe9 = [0, 5, 0xff, 0xe9] ∧
    (wrapA []).headerBytes = [0, 1, 0x80, 0, 0, 0, 0, 2, 0, 0, 0, 0] := by
  decide +kernel

theorem wrapA_bytes {e : Bytes} (he : e.length = 65513) :
    (wrapA e).toBytes ⟨true, true, true⟩ = .ok (wrapOctets e) := by
  obtain ⟨s1, -, s3, -, -, s6⟩ := wrap_small
  have h1 : (ResourceRecord.mk [] .SVCB false .IN 5
      (.SVCB ⟨1, [], [.alpn [[0, 0, 0, 5, 0xff, 0xfc]], .ech e]⟩)).toBytes ⟨true, true, true⟩
      = .ok ([0, 0, 64, 0, 1, 0, 0, 0, 5, 0, 3] ++
        ([0, 1, 0, 0, 1, 0, 7, 6, 0, 0, 0, 5, 0xff, 0xfc, 0, 5, 0xff, 0xe9] ++ e)) := by
    unfold ResourceRecord.toBytes
    simp only [wrapA_data _ he, RecordData.byteSize, Svcb.byteSize, List.foldl_cons, List.foldl_nil, Param.byteSize, he]
    rw [← s3]
    rfl
  have h2 : (wrapA e).toBytes ⟨true, true, true⟩ = (do
      let a ← (ResourceRecord.mk [] .SVCB false .IN 5
        (.SVCB ⟨1, [], [.alpn [[0, 0, 0, 5, 0xff, 0xfc]], .ech e]⟩)).toBytes ⟨true, true, true⟩
      let b ← (ResourceRecord.mk [] .A false .IN 5 (.A ⟨0x01020304⟩)).toBytes ⟨true, true, true⟩
      .ok ((wrapA []).headerBytes ++ a ++ b)) := by
    unfold Packet.toBytes
    simp only [wrapA, Packet.recordsBytes]
    rw [h1, s1]
    rfl
  rw [h2, h1, s1, s6]
  simp [bind, Res.bind, wrapOctets]

theorem wrapB_bytes {e : Bytes} (he : e.length = 65513) :
    (wrapB e).toBytes ⟨true, true, true⟩ = .ok (wrapOctets e) := by
  obtain ⟨-, s2, -, s4, s5, s6⟩ := wrap_small
  have h1 : (ResourceRecord.mk [] .URI false (.udpPayloadSize 0x0706) 5
      (.URI ⟨5, 0xffe9, e ++ [0, 0, 1, 0, 1, 0, 0, 0, 5, 0, 4, 1, 2, 3, 4]⟩)).toBytes ⟨true, true, true⟩ =
      .ok ([0, 1, 0, 7, 6, 0, 0, 0, 5, 0xff, 0xfc] ++ ([0, 5, 0xff, 0xe9] ++
        (e ++ [0, 0, 1, 0, 1, 0, 0, 0, 5, 0, 4, 1, 2, 3, 4]))) := by
    unfold ResourceRecord.toBytes
    simp only [RecordData.byteSize, RecordData.toBytes, Uri.byteSize, Uri.toBytes, List.length_append, he]
    rw [← s4, ← s5]
    rfl
  have h2 : (wrapB e).toBytes ⟨true, true, true⟩ = (do
      let a ← (ResourceRecord.mk [] .SVCB false .IN 5 (.SVCB ⟨1, [], []⟩)).toBytes ⟨true, true, true⟩
      let b ← (ResourceRecord.mk [] .URI false (.udpPayloadSize 0x0706) 5
        (.URI ⟨5, 0xffe9, e ++ [0, 0, 1, 0, 1, 0, 0, 0, 5, 0, 4, 1, 2, 3, 4]⟩)).toBytes ⟨true, true, true⟩
      .ok ((wrapA []).headerBytes ++ a ++ b)) := by
    unfold Packet.toBytes
    simp only [wrapB, Packet.recordsBytes]
    rw [h1, s2]
    rfl
  rw [h2, h1, s2, s6]
  simp [bind, Res.bind, wrapOctets]

theorem wrapA_ok {e : Bytes} (he : e.length = 65513) : PacketOk ⟨true, true, true⟩ 191 (wrapA e) := by
  refine ⟨by simp [wrapA], ?_, by simp [wrapA], by simp [wrapA], by simp [wrapA], by simp [wrapA]⟩
  simp only [records, wrapA, List.append_nil, List.forall_mem_cons]
  refine ⟨⟨by simp [NameOk], by simp [Readable], rfl, trivial, by simp [classNumber], by simp,
      ⟨by simp [NameOk], by simp [paramKeyNumber, Param.key], ?_⟩, fun b hb => ?_⟩,
    ⟨by simp [NameOk], by simp [Readable], rfl, trivial, by decide, by simp, trivial, fun b hb => by cases hb; decide⟩,
    by simp⟩
  · simp [ParamFits, paramOk, paramValue, Items.octets, Item.octets, he]
  · rw [wrapA_data _ he] at hb
    cases hb
    simp [he]

theorem wrapB_ok {e : Bytes} (he : e.length = 65513) : PacketOk ⟨true, true, true⟩ 191 (wrapB e) := by
  refine ⟨by simp [wrapB], ?_, by simp [wrapB], by simp [wrapB], by simp [wrapB], by simp [wrapB]⟩
  simp only [records, wrapB, List.append_nil, List.forall_mem_cons]
  refine ⟨⟨by simp [NameOk], by simp [Readable], rfl, trivial, by decide, by simp,
      ⟨by simp [NameOk], by simp, by simp⟩, fun b hb => ?_⟩,
    ⟨by simp [NameOk], by simp [Readable], rfl, by simp [classOk], by simp [classNumber], by simp, trivial, fun b hb => ?_⟩,
    by simp⟩
  · have : RecordData.toBytes ⟨true, true, true⟩ (.SVCB ⟨1, [], []⟩) = .ok [0, 1, 0] := by decide +kernel
    rw [this] at hb; cases hb; decide
  · simp only [RecordData.toBytes, Uri.toBytes, Res.ok.injEq] at hb
    subst hb
    simp [he, u16be_length]

/-- C67 is false for SVCB records of which the computed size does not fit 16 bits: two packets, one of them
with such a record, are written to the same octets. -/
theorem C67_size_counterexample : ∃ (p q : Packet) (b : Bytes), PacketOk ⟨true, true, true⟩ 191 p ∧
    PacketOk ⟨true, true, true⟩ 191 q ∧ withCounts p ≠ withCounts q ∧
    p.toBytes ⟨true, true, true⟩ = .ok b ∧ q.toBytes ⟨true, true, true⟩ = .ok b := by
  have he : (List.replicate 65513 (0 : UInt8)).length = 65513 := List.length_replicate
  generalize List.replicate 65513 (0 : UInt8) = e at he
  refine ⟨wrapA e, wrapB e, wrapOctets e, wrapA_ok he, wrapB_ok he, ?_, wrapA_bytes he, wrapB_bytes he⟩
  intro h
  have := congrArg Packet.answers h
  simp [withCounts, wrapA, wrapB] at this

end Dns
