import Verif.Spec.Writable
import Verif.Model.Accessors

/-
Known answers of multicast hosts (RFC 6762, section 7.1).  A host that asks tells which answers it knows already; a
responder does not send an answer that the other host knows, with at least half of its TTL left.
-/

namespace Dns.Spec

/-- The program of a responder: the records are announced in a reply, `new_reply(0)` and `set_answers`. -/
def announce (mine : List ResourceRecord) : Packet := (Packet.newReply 0).setAnswers mine

/-- The program of a host that asks: a record that was received `elapsed` seconds ago, as a known answer.  The bit for the
cache is cleared (RFC 6762, section 10.2: it "MUST NOT be set in any resource records in the Known-Answer list"), the TTL
is what is left of it (`set_cache_flush(false)`, `set_time_to_live`). -/
def knownAnswer (elapsed : Nat) (r : ResourceRecord) : ResourceRecord :=
  (r.setCacheFlush false).setTimeToLive (UInt32.ofNat (r.ttl.toNat - elapsed))

/-- The answers of the messages it has received, each with the number of seconds since then, that have not expired. -/
def knownAnswers (cfg : Cfg) : List (Nat × Bytes) → Res (List ResourceRecord)
  | [] => return []
  | (elapsed, d) :: rest => do
    let p ← Packet.parse cfg d
    let rs ← knownAnswers cfg rest
    return (p.answers.filter fun r => elapsed < r.ttl.toNat).map (knownAnswer elapsed) ++ rs

/-- It asks again: the known answers are in the answer section of the query. -/
def askAgain (cfg : Cfg) (write : Packet → Res Bytes) (q : Question) (ds : List (Nat × Bytes)) : Res Bytes := do
  let rs ← knownAnswers cfg ds
  write (((Packet.newQuery 0 false).setQuestions [q]).setAnswers rs)

/-- Two records that differ in nothing but the TTL and the bit for the cache (`name()`, `record_type()`, `class()`,
`data()`). -/
def SameBesidesTtl (a r : ResourceRecord) : Prop :=
  a.name = r.name ∧ a.type = r.type ∧ a.class_ = r.class_ ∧ a.rdata = r.rdata

instance (a r : ResourceRecord) : Decidable (SameBesidesTtl a r) := by unfold SameBesidesTtl; infer_instance

/-- The responder: of its records those that it sends as the answer to a query. -/
def respond (cfg : Cfg) (mine : List ResourceRecord) (d : Bytes) : Res (List ResourceRecord) := do
  let p ← Packet.parse cfg d
  return mine.filter fun r => !(p.answers.any fun a => decide (SameBesidesTtl a r) && decide (r.ttl.toNat ≤ 2 * a.ttl.toNat))

/-- A simpler responder that looks for its records with `contains`, that is with `==`. -/
def respondEq (cfg : Cfg) (mine : List ResourceRecord) (d : Bytes) : Res (List ResourceRecord) := do
  let p ← Packet.parse cfg d
  return mine.filter fun r => !(p.answers.any fun a => decide (a = r))

/-- RFC 6762, section 7.1: the record is known from something that was said `elapsed` seconds ago: "the answer it would give
is already included in the Answer Section with an RR TTL at least half the correct value". -/
def Known (elapsed : Nat) (said : List ResourceRecord) (r : ResourceRecord) : Prop :=
  ∃ a ∈ said, SameBesidesTtl a r ∧ elapsed < a.ttl.toNat ∧ r.ttl.toNat ≤ 2 * (a.ttl.toNat - elapsed)

end Dns.Spec
