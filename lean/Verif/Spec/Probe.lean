import Verif.Spec.Strict
import Verif.Spec.Dnssec
import Verif.Model.Accessors
import Verif.Model.RRSet
import Verif.Model.Parts

/-
Simultaneous probes of multicast hosts (RFC 6762, section 8.2).  Two hosts that want the same name at the same time send
each other the records they want to have.  Each host compares its own records with those it has received, and the host
with the later records keeps the name.
-/

namespace Dns.Spec

/-- The program of a host, written with the API (`class()`, `record_type()`, `data_raw()`): the octets by which a record
is compared. -/
def probeKey (cfg : Cfg) (r : ResourceRecord) : Res Bytes := do
  let b ← r.dataRaw cfg
  return r.class_.toBytes ++ r.type.toBytes ++ b

/-- The same for a list of records. -/
def probeKeys (cfg : Cfg) : List ResourceRecord → Res (List Bytes)
  | [] => return []
  | r :: rs => do
    let k ← probeKey cfg r
    let ks ← probeKeys cfg rs
    return k :: ks

/-- The decision of a host: both lists are sorted and compared (`Vec<Vec<u8>>`: `sort`, `cmp`; the latter is the same
order as that of `FQDN`, which is such a vector).  It keeps the name if the answer is `gt`. -/
def tieBreak (cfg : Cfg) (mine theirs : List ResourceRecord) : Res Ordering := do
  let a ← probeKeys cfg mine
  let b ← probeKeys cfg theirs
  return Fqdn.cmp (a.mergeSort bytesLe) (b.mergeSort bytesLe)

/-- What two hosts decide: each writes its packet (with `to_bytes` or `to_bytes_compressed`), reads the packet of the
other one and compares the records of the authority section with its own. -/
def probes (cfg : Cfg) (write write' : Packet → Res Bytes) (p q : Packet) : Res (Ordering × Ordering) := do
  let d ← write p
  let e ← write' q
  let p' ← Packet.parse cfg d
  let q' ← Packet.parse cfg e
  let first ← tieBreak cfg p.authorities q'.authorities
  let second ← tieBreak cfg q.authorities p'.authorities
  return (first, second)

/-- RFC 6762, section 8.2: "first comparing the record class [...], then the record type, then raw comparison of the
binary content of the rdata without regard for meaning or structure", with names uncompressed. -/
def ProbeOctets (cfg : Cfg) (r : ResourceRecord) (k : Bytes) : Prop :=
  ∃ its, RDataStrict cfg r.rdata its ∧
    k = octets16 (UInt16.ofNat (classNumber r.class_)) ++ octets16 (UInt16.ofNat (typeNumber r.type)) ++ Items.octets its

/-- "the records are sorted using the same lexicographical order" -/
def ProbeOrder (cfg : Cfg) (rs : List ResourceRecord) (ks : List Bytes) : Prop :=
  ks.Pairwise OctetLe ∧ ∃ ls, List.Forall₂ (ProbeOctets cfg) rs ls ∧ ls.Perm ks

/-- "compared pairwise, in order, until a difference is found.  If a difference is found, the list with the
lexicographically later value wins; if either list runs out of records before any difference is found, then the list
with records remaining is deemed to have won": the first of two sorted lists wins. -/
def Later (a b : List Bytes) : Prop := List.Lex (List.Lex (· < ·)) b a

end Dns.Spec
