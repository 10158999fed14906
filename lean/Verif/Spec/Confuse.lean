import Verif.Model.Packet

/-
A packet in which one name is put in the place of another one (for C131).
-/

namespace Dns.Spec

/-- `n` in the place of `m`. -/
def insteadOf (n m x : Fqdn) : Fqdn := if x = m then n else x

/-- The names in the data of the types whose names this crate compresses. -/
def confuseData (f : Fqdn → Fqdn) : RecordData → RecordData
  | .NS r => .NS { r with nsdname := f r.nsdname }
  | .CNAME r => .CNAME { r with cname := f r.cname }
  | .PTR r => .PTR { r with ptrdname := f r.ptrdname }
  | .MX r => .MX { r with exchange := f r.exchange }
  | .SOA r => .SOA { r with mname := f r.mname, rname := f r.rname }
  | .MINFO r => .MINFO { r with rmailbx := f r.rmailbx, emailbx := f r.emailbx }
  | .SRV r => .SRV { r with target := f r.target }
  | .NAPTR r => .NAPTR { r with replacement := f r.replacement }
  | .NSEC r => .NSEC { r with nextDomainName := f r.nextDomainName }
  | r => r

/-- The owner name and the names in the data. -/
def confuseRecord (f : Fqdn → Fqdn) (r : ResourceRecord) : ResourceRecord :=
  { r with name := f r.name, rdata := confuseData f r.rdata }

/-- The packet with the name `n` wherever `m` was: in the questions, as owner, and in the data. -/
def confuse (n m : Fqdn) (p : Packet) : Packet :=
  { p with questions := p.questions.map (fun q => { q with qName := insteadOf n m q.qName }),
           answers := p.answers.map (confuseRecord (insteadOf n m)),
           authorities := p.authorities.map (confuseRecord (insteadOf n m)),
           additional := p.additional.map (confuseRecord (insteadOf n m)) }

end Dns.Spec
