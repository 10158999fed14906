import Verif.Spec.Wire

/-
Dynamic updates (RFC 2136) as the RFC defines them, without regard to the crate.
-/

namespace Dns.Spec

/-- A resource record of RFC 1035, section 4.1.3, with the octets of its data. -/
structure RawRecord where
  name : List Bytes
  type : UInt16
  class_ : UInt16
  ttl : UInt32
  data : Bytes

/-- RFC 1035, section 4.1.3, with the name in full. -/
def RawRecord.octets (x : RawRecord) : Bytes :=
  nameOctets x.name ++ octets16 x.type ++ octets16 x.class_ ++ octets32 x.ttl ++
    octets16 (UInt16.ofNat x.data.length) ++ x.data

/-- What the fields can say: labels of 1 to 63 octets, at most 65535 octets of data. -/
def RawRecord.Fits (x : RawRecord) : Prop :=
  (∀ l ∈ x.name, 1 ≤ l.length ∧ l.length ≤ 63) ∧ x.data.length < 65536

/-- RFC 2136, section 2.4: prerequisites. -/
inductive Prerequisite where
  /-- 2.4.1: there are records of this type -/
  | setExists (name : List Bytes) (type : UInt16)
  /-- 2.4.2: there is this record (and with the other ones of this kind these are all) -/
  | recordExists (name : List Bytes) (type : UInt16) (data : Bytes)
  /-- 2.4.3: there is no record of this type -/
  | noSet (name : List Bytes) (type : UInt16)
  /-- 2.4.4: there are records with this name -/
  | nameInUse (name : List Bytes)
  /-- 2.4.5: there are none -/
  | nameNotInUse (name : List Bytes)

/-- RFC 2136, section 2.5: updates. -/
inductive UpdateStep where
  /-- 2.5.1: add a record -/
  | add (name : List Bytes) (type : UInt16) (ttl : UInt32) (data : Bytes)
  /-- 2.5.2: delete the records of this type -/
  | deleteSet (name : List Bytes) (type : UInt16)
  /-- 2.5.3: delete all records with this name -/
  | deleteAll (name : List Bytes)
  /-- 2.5.4: delete a record -/
  | delete (name : List Bytes) (type : UInt16) (data : Bytes)

/-- Section 2.4: how a prerequisite is told; the numbers of the classes ANY and NONE are 255 and 254, that of the type ANY
is 255. -/
def Prerequisite.record (zoneClass : UInt16) : Prerequisite → RawRecord
  | .setExists n t => ⟨n, t, 255, 0, []⟩
  | .recordExists n t d => ⟨n, t, zoneClass, 0, d⟩
  | .noSet n t => ⟨n, t, 254, 0, []⟩
  | .nameInUse n => ⟨n, 255, 255, 0, []⟩
  | .nameNotInUse n => ⟨n, 255, 254, 0, []⟩

/-- Section 2.5: how an update is told. -/
def UpdateStep.record (zoneClass : UInt16) : UpdateStep → RawRecord
  | .add n t ttl d => ⟨n, t, zoneClass, ttl, d⟩
  | .deleteSet n t => ⟨n, t, 255, 0, []⟩
  | .deleteAll n => ⟨n, 255, 255, 0, []⟩
  | .delete n t d => ⟨n, t, 254, 0, d⟩

/-- Section 2: an update message. -/
structure Update where
  id : UInt16
  zone : List Bytes
  zoneClass : UInt16
  prerequisites : List Prerequisite
  updates : List UpdateStep
  additional : List RawRecord

/-- The records of the three sections behind the zone section. -/
def Update.records (u : Update) : List RawRecord :=
  u.prerequisites.map (·.record u.zoneClass) ++ u.updates.map (·.record u.zoneClass) ++ u.additional

/-- Sections 2.1 to 2.3: the header with the opcode 5 (UPDATE) and the counts, the zone (with the type SOA, 6) in place of
the question, and the records. -/
def Update.octets (u : Update) : Bytes :=
  octets16 u.id ++ [0x28, 0] ++ octets16 1 ++ octets16 (UInt16.ofNat u.prerequisites.length) ++
    octets16 (UInt16.ofNat u.updates.length) ++ octets16 (UInt16.ofNat u.additional.length) ++
    nameOctets u.zone ++ octets16 6 ++ octets16 u.zoneClass ++ u.records.flatMap RawRecord.octets

/-- What the fields can say. -/
def Update.Fits (u : Update) : Prop :=
  (∀ l ∈ u.zone, 1 ≤ l.length ∧ l.length ≤ 63) ∧ (∀ x ∈ u.records, x.Fits) ∧ u.prerequisites.length < 65536 ∧
    u.updates.length < 65536 ∧ u.additional.length < 65536

end Dns.Spec
