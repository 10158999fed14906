import Verif.Model.Packet
import Verif.Model.Constructors
import Verif.Spec.Writable

/-
A server that sends replies of a limited length (RFC 1035 section 4.2.1, RFC 2181 section 9): while the message is too
long, the last record is taken off, and the message is marked as truncated.  The program only uses the API.
-/

namespace Dns.Spec

/-- The packet with the first `k` records, with `set_answers`, `set_authorities` and `set_additionals` of
src/packet.rs:198-201, 217-220 and 236-239. -/
def keep (p : Packet) (k : Nat) : Packet :=
  ((p.setAnswers (p.answers.take k)).setAuthorities (p.authorities.take (k - p.answers.length))).setAdditionals
    (p.additional.take (k - p.answers.length - p.authorities.length))

/-- `to_bytes_compressed()` (src/packet.rs:242-261) gives at most `limit` octets. -/
def fits (cfg : Cfg) (h : Hash) (limit : Nat) (p : Packet) : Bool :=
  match p.toBytesCompressed cfg h with
  | .ok b => decide (b.length ≤ limit)
  | _ => false

/-- The last record is taken off until the message fits or no record is left; `k` records are left. -/
def shorten (cfg : Cfg) (h : Hash) (limit : Nat) (p : Packet) : Nat → Packet
  | 0 => keep p 0
  | k + 1 => if fits cfg h limit (keep p (k + 1)) then keep p (k + 1) else shorten cfg h limit p k

/-- What the server sends for `p`: `set_truncation(true)` (src/packet.rs:108-111) if a record is missing. -/
def limited (cfg : Cfg) (h : Hash) (limit : Nat) (p : Packet) : Packet :=
  if fits cfg h limit p then p else (shorten cfg h limit p (records p).length).setTruncation true

end Dns.Spec
