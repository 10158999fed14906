import Verif.Props.PacketWire

/-! C63: which record data are compressed. -/

namespace Dns
open Spec

/-- RFC 3597, section 4: compression is allowed only in the RDATA of the types of RFC 1035; those of
them that contain names (and that the crate has). -/
def Spec.mayCompress (t : RecordType) : Bool := t ∈ [.NS, .CNAME, .SOA, .PTR, .MINFO, .MX]

/-- C63 (partial): the data of a type that may not be compressed are written as by `to_bytes()`, and
their names are not used for compression later.  What is missing: SRV, NAPTR and NSEC, for which it
is false. -/
theorem C63_uncompressed_partial (cfg : Cfg) (h : Hash) (r : RecordData) (names : Names) (off : Nat)
    (ht : mayCompress r.type = false) (hx : r.type ∉ [.SRV, .NAPTR, .NSEC]) :
    r.toBytesCompressed cfg h names off = (do let b ← r.toBytes cfg; return (b, names)) := by
  cases r
  case NS => exact absurd ht (by simp [mayCompress, RecordData.type])
  case CNAME => exact absurd ht (by simp [mayCompress, RecordData.type])
  case SOA => exact absurd ht (by simp [mayCompress, RecordData.type])
  case PTR => exact absurd ht (by simp [mayCompress, RecordData.type])
  case MINFO => exact absurd ht (by simp [mayCompress, RecordData.type])
  case MX => exact absurd ht (by simp [mayCompress, RecordData.type])
  case SRV => exact absurd (by simp [RecordData.type]) hx
  case NAPTR => exact absurd (by simp [RecordData.type]) hx
  case NSEC => exact absurd (by simp [RecordData.type]) hx
  all_goals rfl

/-- C63: a record with a name that is not compressed. -/
example : mayCompress (RecordData.SVCB ⟨1, [[98]], [.port 443]⟩).type = false ∧
    (RecordData.SVCB ⟨1, [[98]], [.port 443]⟩).type ∉ [RecordType.SRV, .NAPTR, .NSEC] := by decide

/-- C63 is false for SRV (RFC 2782: "name compression is not to be used for this field"), NAPTR
(RFC 3403, section 4.1: must not be compressed) and NSEC (RFC 4034, section 4.1.1: must not use
compression): with every hash function, the name is a pointer if it has been written before. -/
theorem C63_counterexamples :
    ∀ r ∈ ([.SRV ⟨1, 1, 1, [[98]]⟩, .NAPTR ⟨1, 1, [], [], [], [[98]]⟩, .NSEC ⟨[[98]], [.A]⟩] : List RecordData),
      mayCompress r.type = false ∧
      ∀ h : Hash, ∃ (b : Bytes) (c : Bytes × Names), r.toBytes ⟨true, true, true⟩ = .ok b ∧
        r.toBytesCompressed ⟨true, true, true⟩ h (Fqdn.toBytesCompressed h [[98]] Names.empty 12).2 40
          = .ok c ∧ c.1 ≠ b := by
  intro r hr
  have hn : ∀ h : Hash, Fqdn.toBytesCompressed h [[98]] (Fqdn.toBytesCompressed h [[98]] Names.empty 12).2
      = fun _ => ([192, 12], (Fqdn.toBytesCompressed h [[98]] Names.empty 12).2) := by
    intro h
    funext off
    simp [Fqdn.toBytesCompressed, Names.empty, Names.insert]
    decide
  simp only [List.mem_cons, List.not_mem_nil, or_false] at hr
  rcases hr with rfl | rfl | rfl
  all_goals
    refine ⟨by decide, fun h => ⟨_, _, rfl, rfl, ?_⟩⟩
    simp only [Srv.toBytesCompressed, Naptr.toBytesCompressed, hn]
    decide +kernel

end Dns
