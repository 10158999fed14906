import Verif.Spec.Receive
import Verif.Spec.Canonical

/-
Queries and their replies (RFC 1035, section 7.3, and RFC 5452, section 9.1).  A resolver accepts a message as the reply
to a query if the identification and the question are those of the query.
-/

namespace Dns.Spec

/-- The program of a resolver, written with the API: is this message the reply to the query with the identification `id`
and the question `q`?  (`Packet::try_from`, `id()`, `query_response()`, and `==` of the questions.) -/
def accepts (cfg : Cfg) (id : UInt16) (q : Question) (d : Bytes) : Bool :=
  match Packet.parse cfg d with
  | .ok p => p.header.id == id && p.header.queryResponse && decide (p.questions = [q])
  | _ => false

/-- The same in terms of the octets: the identification, the bit QR, QDCOUNT is one, and the question stands behind the
header, its name with the very same octets (whatever their case). -/
def AnswerTo (N : NameRel) (cfg : Cfg) (id : UInt16) (q : Question) (d : Bytes) : Prop :=
  Octets d 0 (octets16 id) 2 ∧ (∃ b : UInt8, Octets d 2 [b] 3 ∧ 128 ≤ b.toNat) ∧ Octets d 4 (octets16 1) 6 ∧
    ∃ j, QuestionAt N cfg d 12 q j

/-- The program of a server: it reads a query, makes a reply with `new_reply(query.id())` and the questions of the query,
and writes it (with `to_bytes` or `to_bytes_compressed`). -/
def answer (cfg : Cfg) (write : Packet → Res Bytes) (ans auth add : List ResourceRecord) (d : Bytes) : Res Bytes := do
  let p ← Packet.parse cfg d
  write (((((Packet.newReply p.header.id).setQuestions p.questions).setAnswers ans).setAuthorities auth).setAdditionals add)

/-- The query: `new_query(id, rd)` and `add_question(q)`. -/
def ask (cfg : Cfg) (write : Packet → Res Bytes) (id : UInt16) (rd : Bool) (q : Question) : Res Bytes := do
  let p ← (Packet.newQuery id rd).addQuestion cfg q
  write p

/-- The ASCII letters. -/
def isLetter (b : UInt8) : Bool := (0x41 ≤ b.toNat && b.toNat ≤ 0x5A) || (0x61 ≤ b.toNat && b.toNat ≤ 0x7A)

/-- How many letters there are in a name. -/
def letters (n : Fqdn) : Nat := (n.map fun l => (l.filter isLetter).length).sum

end Dns.Spec
