import Verif.Model.Packet

/-
`byte_size_compressed` of the parts of a message.  Every function also returns the updated map
`names`, as the code changes it in place.
-/

namespace Dns

/-- src/rdata/ns.rs:62-64 -/
def Ns.byteSizeCompressed (h : Hash) (r : Ns) (names : Names) (offset : Nat) : Nat × Names :=
  r.nsdname.byteSizeCompressed h names offset

/-- src/rdata/cname.rs:62-64 -/
def Cname.byteSizeCompressed (h : Hash) (r : Cname) (names : Names) (offset : Nat) : Nat × Names :=
  r.cname.byteSizeCompressed h names offset

/-- src/rdata/ptr.rs:65-67 -/
def Ptr.byteSizeCompressed (h : Hash) (r : Ptr) (names : Names) (offset : Nat) : Nat × Names :=
  r.ptrdname.byteSizeCompressed h names offset

/-- src/rdata/mx.rs:69-71: the name is counted as if it were at the start of the RDATA. -/
def Mx.byteSizeCompressed (h : Hash) (r : Mx) (names : Names) (offset : Nat) : Nat × Names :=
  let n := r.exchange.byteSizeCompressed h names offset
  (2 + n.1, n.2)

/-- src/rdata/minfo.rs:74-77: both names are counted as if they were at the start of the RDATA. -/
def Minfo.byteSizeCompressed (h : Hash) (r : Minfo) (names : Names) (offset : Nat) : Nat × Names :=
  let m := r.rmailbx.byteSizeCompressed h names offset
  let n := r.emailbx.byteSizeCompressed h m.2 offset
  (m.1 + n.1, n.2)

/-- src/rdata/soa.rs:114-118: both names are counted as if they were at the start of the RDATA. -/
def Soa.byteSizeCompressed (h : Hash) (r : Soa) (names : Names) (offset : Nat) : Nat × Names :=
  let m := r.mname.byteSizeCompressed h names offset
  let n := r.rname.byteSizeCompressed h m.2 offset
  (m.1 + n.1 + 4 * 5, n.2)

/-- src/rdata/srv.rs:102-104 -/
def Srv.byteSizeCompressed (h : Hash) (r : Srv) (names : Names) (offset : Nat) : Nat × Names :=
  let n := r.target.byteSizeCompressed h names (offset + 6)
  (3 * 2 + n.1, n.2)

/-- src/rdata/naptr.rs:147-155 -/
def Naptr.byteSizeCompressed (h : Hash) (r : Naptr) (names : Names) (offset : Nat) : Nat × Names :=
  let size := 2 * 2 + 3 * 1 + r.flags.length + r.service.length + r.regexp.length
  let n := r.replacement.byteSizeCompressed h names (offset + size)
  (size + n.1, n.2)

/-- src/rdata/dnssec.rs:148-170 -/
def Nsec.byteSizeCompressed (cfg : Cfg) (h : Hash) (r : Nsec) (names : Names) (offset : Nat) :
    Res (Nat × Names) := do
  let n := r.nextDomainName.byteSizeCompressed h names offset
  let b ← Bitmap.byteSize cfg r.types
  return (n.1 + b, n.2)

/-- src/byteconvertible.rs:16-18: the provided method, which `RecordData` does not replace: the data
are written and counted. -/
def RecordData.byteSizeCompressed (cfg : Cfg) (h : Hash) (d : RecordData) (names : Names)
    (offset : Nat) : Res (Nat × Names) := do
  let b ← d.toBytesCompressed cfg h names offset
  return (b.1.length, b.2)

/-- src/question.rs:368-370 -/
def Question.byteSizeCompressed (h : Hash) (q : Question) (names : Names) (offset : Nat) :
    Nat × Names :=
  let n := q.qName.byteSizeCompressed h names offset
  (n.1 + 2 * 2, n.2)

/-- src/resource.rs:456-463: the data are counted as if they were at the start of the record. -/
def ResourceRecord.byteSizeCompressed (cfg : Cfg) (h : Hash) (r : ResourceRecord) (names : Names)
    (offset : Nat) : Res (Nat × Names) := do
  let n := r.name.byteSizeCompressed h names offset
  let d ← r.rdata.byteSizeCompressed cfg h n.2 offset
  return (n.1 + 2 + 2 + 4 + 2 + d.1, d.2)

end Dns
