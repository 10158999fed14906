import Verif.Props.PacketSize

/-! C35, C36: exactly which data have the size that `byte_size()` says. -/

namespace Dns
open Spec

/-- Data without the mistakes of `byte_size()`: no OPT and RRSIG data, no CAA data with a tag, no SVCB data with
parameters. -/
def SizedRight (r : RecordData) : Prop :=
  r.type ≠ .OPT ∧ r.type ≠ .RRSIG ∧ (∀ x, r = .CAA x → x.tag = []) ∧ ∀ x, r = .SVCB x → x.params = []

theorem sizeError_iff (r : RecordData) : sizeError r = 0 ↔ SizedRight r := by
  unfold SizedRight
  cases r with
  | OPT x =>
    simp only [sizeError, RecordData.type]
    constructor
    · intro h; omega
    · intro h; exact absurd rfl h.1
  | RRSIG x => simp [sizeError, RecordData.type]
  | CAA x => simp [sizeError, RecordData.type]
  | SVCB x => simp [sizeError, RecordData.type]
  | _ => simp [sizeError, RecordData.type]

/-- C36, exactly: `byte_size()` of record data is the number of octets that `to_bytes()` writes if and only if they are no
OPT and RRSIG data, no CAA data with a tag and no SVCB data with parameters. -/
theorem C36_exact (cfg : Cfg) (r : RecordData) (b : Bytes) (hs : SetsOk r) (hb : r.toBytes cfg = .ok b) :
    r.byteSize cfg = .ok b.length ↔ SizedRight r := by
  obtain ⟨n, h1, h2⟩ := C36_rdata_size_partial cfg r b hs hb
  rw [← sizeError_iff, h1]
  constructor
  · intro h; cases h; omega
  · intro h; rw [show n = b.length by omega]
example (cfg : Cfg) : RecordData.byteSize cfg (.MX ⟨10, [[97]]⟩) = .ok 5 ↔ SizedRight (.MX ⟨10, [[97]]⟩) :=
  C36_exact cfg (.MX ⟨10, [[97]]⟩) [0, 10, 1, 97, 0] trivial rfl

theorem svcb_params_le {cfg : Cfg} : ∀ (ps : List Param) (b : Bytes), Svcb.paramBytes cfg ps = .ok b →
    4 * ps.length ≤ b.length := by
  intro ps
  induction ps with
  | nil => intro b _; simp
  | cons p ps ih =>
    intro b h
    simp only [Svcb.paramBytes, Res.bind_ok] at h
    obtain ⟨b1, h1, b2, h2, h3⟩ := h
    simp only [pure, Res.ok.injEq] at h3
    subst h3
    have := ih b2 h2
    simp only [Param.toBytes, Res.bind_ok] at h1
    obtain ⟨l, _, h4⟩ := h1
    simp only [pure, Res.ok.injEq] at h4
    subst h4
    simp only [List.length_append, List.length_cons, u16be_eq, octets16_length]
    omega

/-- C35, exactly: what `to_bytes()` writes for a record with data of less than 65536 octets ends with the field RDLENGTH
and the data, and the field is the number of octets of the data if and only if they are no OPT and RRSIG data, no CAA data
with a tag and no SVCB data with parameters. -/
theorem C35_exact (cfg : Cfg) (r : ResourceRecord) (data : Bytes) (hd : r.rdata.toBytes cfg = .ok data)
    (hs : SetsOk r.rdata) (hl : data.length < 65536) :
    ∃ rdlength : UInt16, r.toBytes cfg = .ok (r.name.toBytes ++ octets16 (UInt16.ofNat (typeNumber r.type)) ++
        octets16 (r.classBits cfg) ++ octets32 r.ttl ++ octets16 rdlength ++ data) ∧
      (rdlength.toNat = data.length ↔ SizedRight r.rdata) := by
  obtain ⟨n, h1, h2⟩ := RecordData.size hs hd
  refine ⟨UInt16.ofNat n, ?_, ?_⟩
  · unfold ResourceRecord.toBytes
    rw [h1, hd]
    simp [bind, Res.bind, pure, u16be_eq, u32be_eq, lenU16, RecordType.toU16_eq]
  · rw [← sizeError_iff, UInt16.toNat_ofNat']
    constructor
    · intro h
      cases hr : r.rdata with
      | OPT x => rw [hr] at h2; simp only [sizeError] at h2 ⊢; omega
      | RRSIG x => rw [hr] at h2; simp only [sizeError] at h2 ⊢; omega
      | CAA x => rw [hr] at h2; simp only [sizeError] at h2 ⊢; omega
      | SVCB x =>
        rw [hr] at h2 hd
        simp only [sizeError] at h2 ⊢
        have : 4 * x.params.length ≤ data.length := by
          simp only [RecordData.toBytes, Svcb.toBytes, Res.bind_ok] at hd
          obtain ⟨ps, h3, h4⟩ := hd
          simp only [pure, Res.ok.injEq] at h4
          have := svcb_params_le _ _ h3
          rw [← h4]
          simp only [List.length_append]
          omega
        omega
      | _ => rfl
    · intro h; omega

/-- C35: records for both directions. -/
example : SetsOk exRecord.rdata ∧ SizedRight exRecord.rdata ∧
    exRecord.rdata.toBytes ⟨true, true, true⟩ = .ok [1, 2, 3, 4] ∧
    SetsOk (.CAA ⟨false, [105], [99, 97]⟩) ∧ ¬ SizedRight (.CAA ⟨false, [105], [99, 97]⟩) := by
  refine ⟨trivial, (sizeError_iff _).mp (by decide), by decide +kernel, trivial, fun h => ?_⟩
  exact absurd ((sizeError_iff _).mpr h) (by decide)

end Dns
