import Mathlib.Data.Nat.Digits.Defs
import Verif.Model.Packet

/-
Specification of wire formats, independent of the parsers and writers of the model: a format is a
list of items, and `Items.At` says that the octets of a message between two positions consist of
these items.  Names are a parameter `N` (a relation between message, start, labels and end), so that
the same formats are used for names in any encoding; `Spec/Name.lean` has the RFC 1035 relation.
-/

namespace Dns.Spec

/-- The octets of `d` from position `i` up to position `j` are `b`. -/
def Octets (d : Bytes) (i : Nat) (b : Bytes) (j : Nat) : Prop :=
  ∃ pre post, d = pre ++ b ++ post ∧ pre.length = i ∧ j = i + b.length

/-- Building blocks of the wire formats in the RFCs. -/
inductive Item where
  /-- one octet -/
  | u8 (v : UInt8)
  /-- 16-bit number, most significant octet first -/
  | u16 (v : UInt16)
  /-- 32-bit number, most significant octet first -/
  | u32 (v : UInt32)
  /-- `k`-octet number, most significant octet first -/
  | num (k : Nat) (v : Nat)
  /-- domain name -/
  | name (n : Fqdn)
  /-- octets as they are -/
  | raw (b : Bytes)
  /-- RFC 1035 `<character-string>`: a length octet and that many octets -/
  | str (b : Bytes)
  /-- a 16-bit length and that many octets -/
  | str16 (b : Bytes)
  /-- all octets up to the end of the data -/
  | rest (b : Bytes)
  /-- nothing follows -/
  | eof
  deriving DecidableEq, Repr

/-- A relation between message, start position, labels and end position. -/
abbrev NameRel := Bytes → Nat → Fqdn → Nat → Prop

/-- The two octets of a 16-bit number. -/
def octets16 (v : UInt16) : Bytes := [(v >>> 8).toUInt8, v.toUInt8]

/-- The four octets of a 32-bit number. -/
def octets32 (v : UInt32) : Bytes :=
  [(v >>> 24).toUInt8, (v >>> 16).toUInt8, (v >>> 8).toUInt8, v.toUInt8]

/-- Value of octets read as a number, most significant octet first. -/
def valueOf (b : Bytes) : Nat := Nat.ofDigits 256 (b.reverse.map UInt8.toNat)

/-- The item occupies the octets of `d` from `i` up to `j`. -/
def Item.At (N : NameRel) (d : Bytes) (i : Nat) : Item → Nat → Prop
  | .u8 v, j => Octets d i [v] j
  | .u16 v, j => Octets d i (octets16 v) j
  | .u32 v, j => Octets d i (octets32 v) j
  | .num k v, j => ∃ b, Octets d i b j ∧ b.length = k ∧ valueOf b = v
  | .name n, j => N d i n j
  | .raw b, j => Octets d i b j
  | .str b, j => b.length < 256 ∧ Octets d i (UInt8.ofNat b.length :: b) j
  | .str16 b, j => b.length < 65536 ∧ Octets d i (octets16 (UInt16.ofNat b.length) ++ b) j
  | .rest b, j => Octets d i b j ∧ j = d.length
  | .eof, j => i = d.length ∧ j = i

/-- The items occupy, one after the other, the octets of `d` from `i` up to `j`. -/
def Items.At (N : NameRel) (d : Bytes) : Nat → List Item → Nat → Prop
  | i, [], j => i = j
  | i, it :: its, j => ∃ k, it.At N d i k ∧ Items.At N d k its j

/-- The octets of a list of items when names are written label by label (`nameOctets`). -/
def nameOctets (n : Fqdn) : Bytes :=
  (n.map (fun l => UInt8.ofNat l.length :: l)).flatten ++ [0]

/-- Octets of one item. -/
def Item.octets : Item → Bytes
  | .u8 v => [v]
  | .u16 v => octets16 v
  | .u32 v => octets32 v
  | .num k v => (List.range k).map (fun m => UInt8.ofNat (v / 256 ^ (k - 1 - m) % 256))
  | .name n => nameOctets n
  | .raw b => b
  | .str b => UInt8.ofNat b.length :: b
  | .str16 b => octets16 (UInt16.ofNat b.length) ++ b
  | .rest b => b
  | .eof => []

/-- Octets of a list of items. -/
def Items.octets (its : List Item) : Bytes := (its.map Item.octets).flatten

end Dns.Spec
