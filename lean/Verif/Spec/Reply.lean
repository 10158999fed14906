import Verif.Spec.Edit

/-
Messages made of the octets of another one: the first records only, the questions with other records, other TTLs.
-/

namespace Dns.Spec

/-- The twelve octets of a header (RFC 1035, section 4.1.1). -/
def headerOctets (h : Header) : Bytes :=
  octets16 h.id ++ [h.flags.hi, h.flags.lo] ++ octets16 h.quesCount ++ octets16 h.ansCount ++ octets16 h.authCount ++
    octets16 h.addCount

/-- The octets of the message `d` before the position `t`, with another header. -/
def reheaded (h : Header) (t : Nat) (d : Bytes) : Bytes := headerOctets h ++ (d.take t).drop 12

/-- The packet `p` with its questions and its first `k` records only, their numbers in the header, and with this
identification and these flags. -/
def firstRecords (id : UInt16) (fl : Flags) (k : Nat) (p : Packet) : Packet :=
  let an := p.answers.take k
  let au := p.authorities.take (k - p.answers.length)
  let ad := p.additional.take (k - p.answers.length - p.authorities.length)
  ⟨⟨id, fl, p.header.quesCount, UInt16.ofNat an.length, UInt16.ofNat au.length, UInt16.ofNat ad.length⟩, p.questions,
    an, au, ad⟩

/-- The octets `b` say the record `r`, as in an answer to a question for the name `n`: all names are written out, but for
the owner name there may be the pointer 0xC00C (to the position 12, the name of the first question). -/
def AnswerOctets (cfg : Cfg) (n : Fqdn) (b : Bytes) (r : ResourceRecord) : Prop :=
  RecordAtWith (RDataWritten PlainName cfg) PlainName cfg b 0 r b.length ∨
  ∃ c, b = 0xC0 :: 0x0C :: c ∧ n ≠ [] ∧ r.name = n ∧
    RecordAtWith (RDataWritten PlainName cfg) PlainName cfg (0 :: c) 0 { r with name := [] } (c.length + 1)

/-- A reply with these questions and answers. -/
def replyPacket (id : UInt16) (fl : Flags) (qs : List Question) (rs : List ResourceRecord) : Packet :=
  ⟨⟨id, fl, UInt16.ofNat qs.length, UInt16.ofNat rs.length, 0, 0⟩, qs, rs, [], []⟩

/-- The records with other TTLs. -/
def retimed (rs : List ResourceRecord) (ttls : List UInt32) : List ResourceRecord :=
  List.zipWith (fun r ttl => { r with ttl := ttl }) rs ttls

/-- The packet with other TTLs of its records, in their order. -/
def withTtls (ttls : List UInt32) (p : Packet) : Packet :=
  { p with
    answers := retimed p.answers ttls
    authorities := retimed p.authorities (ttls.drop p.answers.length)
    additional := retimed p.additional (ttls.drop (p.answers.length + p.authorities.length)) }

end Dns.Spec
