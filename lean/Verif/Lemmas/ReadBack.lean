import Verif.Lemmas.SvcbRead
import Verif.Lemmas.PacketParse

/-! Written record data are read back. -/

namespace Dns
open Spec Buf

/-- An address prefix in the format of the RFC is read, if its number of octets is even. -/
theorem Apl.parse_complete {cfg : Cfg} {N : NameRel} {d : Bytes} {i j : Nat} {r : Apl} {its : List Item}
    (hr : RData cfg (.APL r) its) (he : ∀ part, .raw part ∈ its → part.length % 2 = 0)
    (h : Items.At N d i its j) : Apl.parse d i = (.ok r, j) := by
  obtain ⟨p, n, afd⟩ := r
  obtain ⟨part, rfl, ha⟩ := hr
  have he := he part (by simp)
  obtain ⟨k1, h1, k2, h2, k3, h3, k4, h4, rfl⟩ := h
  have hl : part.length ≤ 16 := by
    cases afd <;> simp only [afdOf] at ha <;> omega
  have key : ∀ n : Bool, ∀ m : Fin 17, m.val % 2 = 0 →
      (UInt8.ofNat ((if n then 128 else 0) + m.val) &&& 0x7E).toNat = m.val ∧
      (UInt8.ofNat ((if n then 128 else 0) + m.val) &&& 0x80 != 0) = n := by decide
  obtain ⟨e1, e2⟩ := key n ⟨part.length, by omega⟩ he
  simp only at e1 e2
  unfold Apl.parse
  rw [Parser.bind_ok]
  refine ⟨_, k1, extractU16_ok.mpr h1, ?_⟩
  rw [Parser.bind_ok]
  refine ⟨_, k2, extractU8_ok.mpr h2, ?_⟩
  rw [Parser.bind_ok]
  refine ⟨_, k3, extractU8_ok.mpr h3, ?_⟩
  rw [Parser.bind_ok]
  refine ⟨part, k4, extractBytes_ok.mpr ⟨e1.symm, h4⟩, ?_⟩
  cases afd with
  | ipV4 a =>
    obtain ⟨h5, h6⟩ := ha
    have : resize 4 part = part ++ List.replicate (4 - part.length) 0 := by
      unfold resize; rw [List.take_of_length_le h5]
    simp only [familyNumber]
    show (pure _ : Parser _) d k4 = _
    rw [Parser.pure_ok, this, ← valueOf_eq, h6, e2]
    simp
  | ipV6 a =>
    obtain ⟨h5, h6⟩ := ha
    have : resize 16 part = part ++ List.replicate (16 - part.length) 0 := by
      unfold resize; rw [List.take_of_length_le h5]
    simp only [familyNumber]
    show (pure _ : Parser _) d k4 = _
    rw [Parser.pure_ok, this, ← valueOf_eq, h6, e2]
    simp

theorem IpSecKey.none_read (r : IpSecKey) (hg : r.gateway = .none) (pre : Bytes) :
    IpSecKey.parse (pre ++ r.toBytes) pre.length = (.ok r, (pre ++ r.toBytes).length) := by
  obtain ⟨p, a, g, k⟩ := r
  simp only at hg
  subst hg
  have hb : IpSecKey.toBytes ⟨p, a, .none, k⟩ = Items.octets [.u8 p, .u8 0,
      o8 (algorithmNumber a), .u8 0x2E, .rest k] := by
    simp [IpSecKey.toBytes, Gateway.gatewayType, Gateway.toBytes, Algorithm.toU8_eq, Items.octets,
      Item.octets, o8]
  rw [hb]
  have h := items_decode (max := 191) (Nat.le_refl _) [.u8 p, .u8 0,
      o8 (algorithmNumber a), .u8 0x2E, .rest k] pre (by simp [Item.Fits, o8])
      (by simp [Item.Open, o8])
  obtain ⟨k1, h1, k2, h2, k3, h3, k4, h4, k5, h5, h6⟩ := h
  rw [← h6]
  unfold IpSecKey.parse
  rw [Parser.bind_ok]
  refine ⟨_, k1, extractU8_ok.mpr h1, ?_⟩
  rw [Parser.bind_ok]
  refine ⟨_, k2, extractU8_ok.mpr h2, ?_⟩
  rw [Parser.bind_ok]
  refine ⟨_, k3, extractU8_ok.mpr h3, ?_⟩
  rw [Parser.bind_ok]
  refine ⟨_, k3, Parser.lift_ok.mpr ⟨Algorithm.ofU8_ok.mpr rfl, rfl⟩, ?_⟩
  rw [Parser.bind_ok]
  refine ⟨.none, k4, ?_, ?_⟩
  · show (extractU8 >>= fun _ => pure Gateway.none : Parser Gateway) _ _ = _
    rw [Parser.bind_ok]
    exact ⟨_, k4, extractU8_ok.mpr h4, rfl⟩
  · rw [Parser.bind_ok]
    exact ⟨_, k5, extractRest_ok.mpr h5, rfl⟩

/-- Record data in the format of the RFC are read (for SSHFP they are not). -/
theorem RecordData.parse_complete {cfg : Cfg} {d : Bytes} {i j : Nat} {r : RecordData} {its : List Item}
    (hs : ∀ x, r ≠ .SSHFP x) (hg : ∀ k, r = .IPSECKEY k → k.gateway ≠ .none)
    (ha : ∀ x part, r = .APL x → .raw part ∈ its → part.length % 2 = 0)
    (hr : RData cfg r its) (h : Items.At Decodes d i its j) :
    RecordData.parse cfg r.type d i = (.ok r, j) := by
  cases r with
  | SSHFP x => exact absurd rfl (hs x)
  | APL x =>
    simp only [RecordData.type, RecordData.parse]
    rw [Parser.bind_ok]
    exact ⟨x, j, Apl.parse_complete hr (fun p hp => ha x p rfl hp) h, rfl⟩
  | SVCB x =>
    simp only [RecordData.type, RecordData.parse]
    rw [Parser.bind_ok]
    exact ⟨x, j, Svcb.parse_complete hr h, rfl⟩
  | IPSECKEY k => exact (RecordData.parse_ok (r := .IPSECKEY k) (hg k rfl)).mpr ⟨rfl, its, hr, h⟩
  | _ => exact (RecordData.parse_ok (by trivial)).mpr ⟨rfl, its, hr, h⟩

theorem writes_apl_even {cfg : Cfg} {max : Nat} {r : RecordData} {x : Apl} {its : List Item}
    (hx : r = .APL x) (hw : Writes cfg max r its) {part : Bytes} (hp : .raw part ∈ its) :
    part.length % 2 = 0 := by
  subst hx
  obtain ⟨p2, hi, _⟩ := hw.rdata
  have h1 := hw.bytes
  have h2 := (writes_APL cfg max x).bytes
  rw [h2] at h1
  injection h1 with h1
  have hl : part = p2 := by subst hi; simpa [o16, o8] using hp
  subst hl
  have h3 := congrArg List.length h1
  subst hi
  have h4 : x.afd.toBytes.length = 4 ∨ x.afd.toBytes.length = 16 := by
    cases x.afd <;> simp [Afd.toBytes, u32be, toBE]
  simp [Items.octets, Item.octets, o16, o8, octets16] at h3
  omega

/-- Record data that fit are written, and what is written is read back (except SSHFP). -/
theorem RecordData.read_back {cfg : Cfg} {max : Nat} {r : RecordData} (hmax : max ≤ 191)
    (hw : Writable cfg max r) (hs : ∀ x, r ≠ .SSHFP x) (pre : Bytes) :
    ∃ b, r.toBytes cfg = .ok b ∧
      RecordData.parse cfg r.type (pre ++ b) pre.length = (.ok r, (pre ++ b).length) := by
  by_cases hg : ∃ k, r = .IPSECKEY k ∧ k.gateway = .none
  · obtain ⟨k, rfl, hk⟩ := hg
    refine ⟨_, rfl, ?_⟩
    simp only [RecordData.type, RecordData.parse]
    rw [Parser.bind_ok]
    exact ⟨k, _, IpSecKey.none_read k hk pre, rfl⟩
  · have hg' : ∀ k, r = .IPSECKEY k → k.gateway ≠ .none := fun k hk hn => hg ⟨k, hk, hn⟩
    obtain ⟨its, hi⟩ := RecordData.write_ok hw hg'
    exact ⟨_, hi.bytes, RecordData.parse_complete hs hg'
      (fun x part hx hp => writes_apl_even hx hi hp) hi.rdata (items_decode hmax its pre hi.fits hi.opens)⟩

theorem decodes_compressed {max : Nat} (hmax : max ≤ 191) {h : Hash}
    {U : Fqdn → Prop} (hU : TailClosed U) (hinj : InjOn U h) (pre : Bytes) (n : Fqdn) (names : Names)
    (hn : U n) (hg : Good max n) (hm : MapOk max U h names pre)
    (hlen : (pre ++ (n.toBytesCompressed h names pre.length).1).length ≤ 16384) :
    Decodes (pre ++ (n.toBytesCompressed h names pre.length).1) pre.length n
      (pre ++ (n.toBytesCompressed h names pre.length).1).length :=
  extractFqdn_ok.mpr (compressed_codeName hmax hU hinj hn hg hm hlen)

/-- The same with compression. -/
theorem RecordData.read_back_compressed {cfg : Cfg} {max : Nat} {r : RecordData} (hmax : max ≤ 191)
    {h : Hash} {U : Fqdn → Prop} (hU : TailClosed U) (hinj : InjOn U h)
    (hw : Writable cfg max r) (hs : ∀ x, r ≠ .SSHFP x) (hn : ∀ n ∈ rdataNames r, U n)
    (names : Names) (pre : Bytes) :
    ∃ b names', r.toBytesCompressed cfg h names pre.length = .ok (b, names') ∧
      (MapOk max U h names pre → (pre ++ b).length ≤ 16384 →
        RecordData.parse cfg r.type (pre ++ b) pre.length = (.ok r, (pre ++ b).length) ∧
        MapOk max U h names' (pre ++ b)) := by
  by_cases hg : ∃ k, r = .IPSECKEY k ∧ k.gateway = .none
  · obtain ⟨k, rfl, hk⟩ := hg
    refine ⟨_, _, rfl, fun hm _ => ⟨?_, hm.extend _⟩⟩
    simp only [RecordData.type, RecordData.parse]
    rw [Parser.bind_ok]
    exact ⟨k, _, IpSecKey.none_read k hk pre, rfl⟩
  · have hg' : ∀ k, r = .IPSECKEY k → k.gateway ≠ .none := fun k hk hn => hg ⟨k, hk, hn⟩
    obtain ⟨its, hi⟩ := RecordData.write_ok hw hg'
    have hc := hi.compressed h names pre.length
    by_cases hcc : compresses r = true
    · rw [if_pos hcc] at hc
      refine ⟨_, _, hc, fun hm hlen => ?_⟩
      obtain ⟨h1, h2⟩ := items_compressed decodes_extends hmax hU hinj
        (fun pre n names a b c d => decodes_compressed hmax hU hinj pre n names a b c d)
        its names pre hi.fits hi.opens (fun n hmem => hn n (hi.names n hmem)) hm hlen
      exact ⟨RecordData.parse_complete hs hg' (fun x part hx hp => writes_apl_even hx hi hp) hi.rdata h1, h2⟩
    · rw [if_neg hcc] at hc
      refine ⟨_, _, hc, fun hm hlen => ?_⟩
      exact ⟨RecordData.parse_complete hs hg' (fun x part hx hp => writes_apl_even hx hi hp) hi.rdata
        (items_decode hmax its pre hi.fits hi.opens), hm.extend _⟩

end Dns
