import Verif.Spec.Canonical
import Verif.Spec.Edit
import Verif.Spec.Numbers

/-
Transaction signatures of RFC 8945, and callers of the crate that make and check them.  The message authentication
code is any function `mac` from octets to octets (a key is fixed).
-/

namespace Dns.Spec

/-- RFC 8945, section 4.3.3: the fields of a TSIG record that are signed: the name of the key and of the algorithm in
lower case and without compression, the class ANY and the TTL 0, the time in 48 bits, the fudge, the error and the
other data. -/
def tsigVariables (key : Fqdn) (t : Tsig) : Bytes :=
  Items.octets [.name (lowerName key), .u16 255, .u32 0, .name (lowerName t.algorithm), .num 6 t.timeSigned.toNat,
    .u16 t.fudge, .u16 (UInt16.ofNat (tsigErrorNumber t.error)), .str16 t.otherData]

/-- RFC 8945, section 4.3: what is signed.  `prior` are the octets for the request if a reply is signed (its MAC with a
length in front), `message` is the message without the TSIG record. -/
def tsigDigest (prior message : Bytes) (key : Fqdn) (t : Tsig) : Bytes := prior ++ message ++ tsigVariables key t

/-- The TSIG record: its class is ANY and its TTL is 0. -/
def tsigRecord (key : Fqdn) (t : Tsig) : ResourceRecord := ⟨key, .TSIG, false, .udpPayloadSize 255, 0, .TSIG t⟩

/-- The TSIG data with the identification of the message and the MAC filled in. -/
def tsigFilled (mac : Bytes → Bytes) (prior message : Bytes) (key : Fqdn) (t : Tsig) (id : UInt16) : Tsig :=
  { t with mac := mac (tsigDigest prior message key t), originalId := id }

/-- A sender: it writes the packet (`write` is `to_bytes` or `to_bytes_compressed`), signs the octets, adds the TSIG
record with `add_additional`, and writes the packet again. -/
def sendSigned (cfg : Cfg) (write : Packet → Res Bytes) (mac : Bytes → Bytes) (prior : Bytes) (key : Fqdn) (t : Tsig)
    (p : Packet) : Res Bytes := do
  let b ← write p
  let q ← p.addAdditional cfg (tsigRecord key (tsigFilled mac prior b key t p.header.id))
  write q

/-- The last record, if it is a TSIG record of the class ANY with the TTL 0, and the records before it. -/
def lastTsig (rs : List ResourceRecord) : Option (List ResourceRecord × Fqdn × Tsig) :=
  match rs.reverse with
  | ⟨key, .TSIG, false, .udpPayloadSize 255, 0, .TSIG t⟩ :: front => some (front.reverse, key, t)
  | _ => none

/-- A receiver: it reads the message, takes the TSIG record off with `take_additionals` and `set_additionals`, sets the
original identification with `set_id`, writes what is left, and compares the MAC.  It returns what it accepts. -/
def receiveSigned (cfg : Cfg) (write : Packet → Res Bytes) (mac : Bytes → Bytes) (prior d : Bytes) :
    Res (Option (Packet × Fqdn × Tsig)) := do
  let p ← Packet.parse cfg d
  match lastTsig p.takeAdditionals.2 with
  | none => return none
  | some (rs, key, t) =>
    let q := (p.takeAdditionals.1.setAdditionals rs).setId t.originalId
    let b ← write q
    return if mac (tsigDigest prior b key t) = t.mac then some (q, key, t) else none

/-- Another receiver, which does not write anything: it reads the header, the questions and all records but the last
one from a `DnsBuffer`; the octets up to the position of the buffer, with ARCOUNT decreased, are the message, and the
last record is read from there. -/
def cutLast (cfg : Cfg) (d : Bytes) : Res (Bytes × ResourceRecord) := do
  let front : Parser Header := do
    let h ← Header.parse
    let _ ← Parser.times h.quesCount.toNat (Question.parse cfg)
    let _ ← Parser.times (h.ansCount.toNat + h.authCount.toNat + (h.addCount.toNat - 1)) (ResourceRecord.parse cfg)
    return h
  let h ← (front d 0).1
  let r ← (ResourceRecord.parse cfg d (front d 0).2).1
  return (arcount (h.addCount.toNat - 1) (d.take (front d 0).2), r)

end Dns.Spec
