import Verif.Spec.Known

/-
The cache of a multicast host (RFC 6762, sections 10.1 and 10.2).  Hosts announce their records again when they have
changed; a record with the bit for the cache replaces all records of the same name, type and class that were heard before,
and a record with the TTL 0 says that it is no longer valid.  (Simplified: the RFC keeps both for one more second.)
-/

namespace Dns.Spec

/-- Records of the same name, type and class (`name()`, `record_type()`, `class()`). -/
def SameSet (a r : ResourceRecord) : Prop := a.name = r.name ∧ a.type = r.type ∧ a.class_ = r.class_

instance (a r : ResourceRecord) : Decidable (SameSet a r) := by unfold SameSet; infer_instance

/-- RFC 6762, section 10.2: what was heard as `r` is no longer valid when `a` is heard: it is the same record, with another
TTL perhaps, or it belongs to the same set and `a` has the bit for the cache. -/
def Replaces (a r : ResourceRecord) : Prop := SameBesidesTtl a r ∨ (a.cacheFlush = true ∧ SameSet a r)

instance (a r : ResourceRecord) : Decidable (Replaces a r) := by unfold Replaces; infer_instance

/-- The program of a listener: it puts the answers of a message into its cache. -/
def hear (cache answers : List ResourceRecord) : List ResourceRecord :=
  (cache.filter fun r => !(answers.any fun a => decide (Replaces a r))) ++ answers.filter fun a => a.ttl ≠ 0

/-- It hears messages, one after the other, and ignores those that are not read. -/
def listen (cfg : Cfg) : List ResourceRecord → List Bytes → List ResourceRecord
  | cache, [] => cache
  | cache, d :: ds =>
    match Packet.parse cfg d with
    | .ok p => listen cfg (hear cache p.answers) ds
    | _ => listen cfg cache ds

/-- RFC 6762: what is valid after the announcements `said`, the first of them first.  The record was announced, not with the
TTL 0, and nothing that was announced later replaces it. -/
def StillValid (said : List (List ResourceRecord)) (r : ResourceRecord) : Prop :=
  ∃ past m later, said = past ++ m :: later ∧ r ∈ m ∧ r.ttl ≠ 0 ∧ ∀ m' ∈ later, ∀ a ∈ m', ¬ Replaces a r

/-- The program of a host that announces: `to_bytes`, or `to_bytes_compressed` with a hash function. -/
def writeWith (cfg : Cfg) (how : Option Hash) (p : Packet) : Res Bytes :=
  match how with
  | none => p.toBytes cfg
  | some h => p.toBytesCompressed cfg h

end Dns.Spec
