import Verif.Spec.Strict

/-
Messages a sender may write: messages of RFC 1035 in which the RDATA are exactly one of the encodings
the RFC of the type allows a sender to write.
-/

namespace Dns.Spec

/-- Names without compression pointers, with labels of at most 63 octets. -/
def PlainName : NameRel := NameWith 63 (fun _ _ => False)

/-- Names in which every compression pointer leads to a smaller offset, with labels of at most 63 octets. -/
def BackwardName : NameRel := NameWith 63 (fun pointer target => target < pointer)

/-- The octets of `d` from `k` up to the end of `d` are the encoding of the data of a record. -/
def RDataWritten (N : NameRel) (cfg : Cfg) (t : RecordType) (d : Bytes) (k : Nat) (r : RecordData) : Prop :=
  r.type = t ∧ ∃ its, RDataStrict cfg r its ∧ Items.At N d k its d.length

/-- The octets are a message that says what the packet says: header, questions, and records each with an
RDLENGTH that is the number of octets of its RDATA. -/
def SentMessage (N : NameRel) (cfg : Cfg) (d : Bytes) (p : Packet) : Prop :=
  MessageAtWith (RDataWritten N cfg) N cfg d p d.length

end Dns.Spec
