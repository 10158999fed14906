import Verif.Spec.Message

/-
Where a reader of a message expects a name, and where the numbers in a message overflow.
-/

namespace Dns.Spec
open Item

/-- In RDATA of type `t` that start at position `k` of `d`, the fields before position `i` are there
and a name is expected at `i`. -/
def NameField (N : NameRel) (cfg : Cfg) (t : RecordType) (d : Bytes) (k i : Nat) : Prop :=
  match t with
  | .NS | .CNAME | .PTR | .NSEC | .TKEY | .TSIG => i = k
  | .SOA | .MINFO => i = k ∨ ∃ n, N d k n i
  | .MX | .SVCB => ∃ a, Items.At N d k [.u16 a] i
  | .SRV => ∃ a b c, Items.At N d k [.u16 a, .u16 b, .u16 c] i
  | .NAPTR => ∃ a b flags service regexp, utf8Valid regexp = true ∧
      Items.At N d k [.u16 a, .u16 b, .str flags, .str service, .str regexp] i
  | .RRSIG => ∃ covered alg labels ttl expiration inception tag, Readable cfg covered ∧
      Items.At N d k [o16 (typeNumber covered), o8 (secAlgorithmNumber alg), .u8 labels, .u32 ttl,
        .u32 expiration, .u32 inception, .u16 tag] i
  | .IPSECKEY => ∃ precedence alg, Items.At N d k [.u8 precedence, .u8 3, o8 (algorithmNumber alg)] i
  | .HIP => i < d.length ∧ ∃ (alg : Algorithm) (hit key : Bytes) (servers : List Fqdn),
      hit.length < 256 ∧ key.length < 65536 ∧
      Items.At N d k ([o8 hit.length, o8 (algorithmNumber alg), o16 key.length, .raw hit, .raw key] ++
        servers.map .name) i
  | _ => False

/-- The type numbers (below 65536) that are set in the window are types the build knows. -/
def KnownBits (cfg : Cfg) (w : UInt8 × Bytes) : Prop :=
  ∀ m, BitSet w m → m < 65536 → ∃ t, Readable cfg t ∧ typeNumber t = m

/-- A bit beyond type number 65535 is set in the window: it is window 255, and has more than the 32
octets the RFC allows. -/
def Overrun (w : UInt8 × Bytes) : Prop := ∃ m, BitSet w m ∧ 65536 ≤ m

/-- The windows `ws` of a bitmap can be read, in a build with overflow checks, and the window `w` that
follows overflows: only types that are known are set, and something beyond them. -/
def WindowsOverflow (cfg : Cfg) (ws : List (UInt8 × Bytes)) (w : UInt8 × Bytes) : Prop :=
  (∀ v ∈ ws, KnownBits cfg v ∧ ¬ Overrun v) ∧ KnownBits cfg w ∧ Overrun w

/-- Key numbers of SVCB parameters that are read. -/
def KeyKnown (k : UInt16) : Prop := k.toNat ≤ 6 ∨ 65280 ≤ k.toNat

/-- Octets of ALPN identifiers: each has its length before it. -/
def alpnOctets (ids : List Bytes) : Bytes := ids.flatMap (fun a => UInt8.ofNat a.length :: a)

/-- The octets `b` are read as the value of the SVCB parameter with key `k` and length `len`, in a build
with overflow checks.  (For keys 2, 3, 4, 6 and 65535 the length is not looked at.) -/
def ParamRead (k len : UInt16) (b : Bytes) : Prop :=
  match k.toNat with
  | 0 => b.length = len.toNat ∧ ∃ keys : List UInt16, (∀ key ∈ keys, KeyKnown key) ∧ b = keys.flatMap octets16
  | 1 => b.length = len.toNat ∧ ∃ ids : List Bytes, (∀ a ∈ ids, a.length < 256) ∧ b = alpnOctets ids
  | 2 => b = []
  | 3 => b.length = 2
  | 4 => b.length = 4
  | 5 => b.length = len.toNat
  | 6 => b.length = 16
  | 65535 => b = []
  | n => 65280 ≤ n ∧ b.length = len.toNat

/-- The octets `b` are read as the value of the SVCB parameter with key `k` and length `len`, and are one
or more octets too many: `mandatory` (key 0) with an odd length, or `alpn` (key 1) with a length that
ends within an identifier. -/
def ParamOverflows (k len : UInt16) (b : Bytes) : Prop :=
  (k = 0 ∧ b.length = len.toNat + 1 ∧ ∃ keys : List UInt16, (∀ key ∈ keys, KeyKnown key) ∧ b = keys.flatMap octets16) ∨
  (k = 1 ∧ ∃ (ids : List Bytes) (last : Bytes), (∀ a ∈ ids ++ [last], a.length < 256) ∧
    b = alpnOctets (ids ++ [last]) ∧ (alpnOctets ids).length < len.toNat ∧ len.toNat < b.length)

/-- Key, length and value of a SVCB parameter. -/
def rawParam (p : UInt16 × UInt16 × Bytes) : List Item := [.u16 p.1, .u16 p.2.1, .raw p.2.2]

/-- In RDATA of type `t` that start at position `k` of `d` there is a number that overflows when it is
computed, and everything before it can be read: a type beyond 65535 in a type bitmap, or the length of
the SVCB parameter `mandatory` or `alpn`. -/
def TooLong (N : NameRel) (cfg : Cfg) (t : RecordType) (d : Bytes) (k : Nat) : Prop :=
  match t with
  | .NSEC => ∃ n ws w j, WindowsOverflow cfg ws w ∧
      Items.At N d k (.name n :: windowItems (ws ++ [w])) j
  | .CSYNC => ∃ serial flags ws w j, flags.toNat < 4 ∧ WindowsOverflow cfg ws w ∧
      Items.At N d k (.u32 serial :: .u16 flags :: windowItems (ws ++ [w])) j
  | .SVCB => ∃ priority n ps p j, (∀ q ∈ ps, ParamRead q.1 q.2.1 q.2.2) ∧ ParamOverflows p.1 p.2.1 p.2.2 ∧
      Items.At N d k (.u16 priority :: .name n :: (ps ++ [p]).flatMap rawParam) j
  | _ => False

/-- The first fields of a record (`recordHead`) without the record. -/
def headItems (name : Fqdn) (t : RecordType) (cls : UInt16) (ttl : UInt32) (len : UInt16) : List Item :=
  [.name name, o16 (typeNumber t), .u16 cls, .u32 ttl, .u16 len]

/-- A reader that follows the counts of the header gets to the question at `i`: it has read all
questions before. -/
def AtQuestion (Q : Nat → Question → Nat → Prop) (N : NameRel) (d : Bytes) (i : Nat) : Prop :=
  ∃ h qs i0, Items.At N d 0 (headerItems h) i0 ∧ qs.length < h.quesCount.toNat ∧ ListAt Q i0 qs i

/-- A reader that follows the counts of the header gets to the record at `i`: it has read all
questions, and all records before. -/
def AtRecord (Q : Nat → Question → Nat → Prop) (R : Nat → ResourceRecord → Nat → Prop) (N : NameRel)
    (d : Bytes) (i : Nat) : Prop :=
  ∃ h qs rs i0 i1, Items.At N d 0 (headerItems h) i0 ∧
    qs.length = h.quesCount.toNat ∧ ListAt Q i0 qs i1 ∧
    rs.length < h.ansCount.toNat + h.authCount.toNat + h.addCount.toNat ∧ ListAt R i1 rs i

/-- A reader gets to the RDATA of type `t` at position `k`; it sees the message `d'`, up to the end of
the RDATA. -/
def AtRData (Q : Nat → Question → Nat → Prop) (R : Nat → ResourceRecord → Nat → Prop) (N : NameRel)
    (cfg : Cfg) (d : Bytes) (t : RecordType) (d' : Bytes) (k : Nat) : Prop :=
  ∃ i name cls ttl len, AtRecord Q R N d i ∧ Readable cfg t ∧
    Items.At N d i (headItems name t cls ttl len) k ∧ k + len.toNat ≤ d.length ∧
    d' = d.take (k + len.toNat)

/-- A reader of the message expects a name at position `i` of `d'`: the message, or the message up to
the end of some RDATA. -/
def NameExpected (Q : Nat → Question → Nat → Prop) (R : Nat → ResourceRecord → Nat → Prop) (N : NameRel)
    (cfg : Cfg) (d d' : Bytes) (i : Nat) : Prop :=
  (d' = d ∧ (AtQuestion Q N d i ∨ AtRecord Q R N d i)) ∨
  ∃ t k, AtRData Q R N cfg d t d' k ∧ NameField N cfg t d' k i

end Dns.Spec
