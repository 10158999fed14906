import Verif.Spec.Wire

/-
Specification of domain names in messages (RFC 1035, sections 3.1 and 4.1.4).
-/

namespace Dns.Spec

/-- The octets of `d` at position `i` encode the labels `ls`, and the encoding *in place* ends before
position `j`.  A name is a sequence of labels (a length octet between 1 and `max`, and that many
octets) that ends with a zero octet or with a pointer: two octets, the first at least 192, whose low
14 bits are the position of the remaining labels.  `allowed p t` restricts the pointers used: a
pointer at position `p` to position `t`. -/
inductive NameWith (max : Nat) (allowed : Nat → Nat → Prop) (d : Bytes) : Nat → Fqdn → Nat → Prop
  | root {i} : d[i]? = some 0 → NameWith max allowed d i [] (i + 1)
  | label {i j ls} {len : UInt8} {l : Bytes} :
      1 ≤ len.toNat → len.toNat ≤ max → l.length = len.toNat →
      Octets d i (len :: l) (i + 1 + l.length) →
      NameWith max allowed d (i + 1 + l.length) ls j →
      NameWith max allowed d i (l :: ls) j
  | pointer {i k ls} {hi lo : UInt8} :
      192 ≤ hi.toNat → Octets d i [hi, lo] (i + 2) →
      allowed i ((hi.toNat - 192) * 256 + lo.toNat) →
      NameWith max allowed d ((hi.toNat - 192) * 256 + lo.toNat) ls k →
      NameWith max allowed d i ls (i + 2)

/-- RFC 1035: labels of at most 63 octets. -/
def NameAt : NameRel := NameWith 63 (fun _ _ => True)

/-- A name as a conforming sender writes it (RFC 1035, section 4.1.4: a pointer refers to a *prior*
occurrence): the first pointer leads to an earlier position, and every pointer found from there on
leads to a position before the first pointer, too. -/
inductive LegalName (d : Bytes) : Nat → Fqdn → Nat → Prop
  | root {i} : d[i]? = some 0 → LegalName d i [] (i + 1)
  | label {i j ls} {len : UInt8} {l : Bytes} :
      1 ≤ len.toNat → len.toNat ≤ 63 → l.length = len.toNat →
      Octets d i (len :: l) (i + 1 + l.length) →
      LegalName d (i + 1 + l.length) ls j →
      LegalName d i (l :: ls) j
  | pointer {i k ls} {hi lo : UInt8} :
      192 ≤ hi.toNat → Octets d i [hi, lo] (i + 2) →
      (hi.toNat - 192) * 256 + lo.toNat < i →
      NameWith 63 (fun _ t => t < i) d ((hi.toNat - 192) * 256 + lo.toNat) ls k →
      LegalName d i ls (i + 2)

end Dns.Spec

namespace Dns.Spec

/-- The octets of `d` from `i` up to `p` are the labels `ls`, written in place. -/
def LabelsAt (d : Bytes) (i : Nat) (ls : Fqdn) (p : Nat) : Prop :=
  (∀ l ∈ ls, 1 ≤ l.length ∧ l.length ≤ 191) ∧
    Octets d i (ls.map (fun l => UInt8.ofNat l.length :: l)).flatten p

/-- A reader of a name stands at position `fst`; `snd` is the position behind which it must not jump
once it has met a pointer (`extract_fqdn`: the second octet of the first pointer). -/
abbrev Reader := Nat × Option Nat

/-- One move of the reader: over a label, or along a pointer. -/
inductive Move (d : Bytes) : Reader → Reader → Prop
  | label {p o} {len : UInt8} : d[p]? = some len → 1 ≤ len.toNat → len.toNat < 192 →
      p + 1 + len.toNat ≤ d.length → Move d (p, o) (p + 1 + len.toNat, o)
  | pointer {p o} {hi lo : UInt8} : Octets d p [hi, lo] (p + 2) → 192 ≤ hi.toNat →
      (hi.toNat - 192) * 256 + lo.toNat < o.getD (p + 1) →
      Move d (p, o) ((hi.toNat - 192) * 256 + lo.toNat, some (o.getD (p + 1)))

/-- The positions the reader passes when it starts at `i`. -/
inductive Visits (d : Bytes) (i : Nat) : Reader → Prop
  | start : Visits d i (i, none)
  | move {s t} : Visits d i s → Move d s t → Visits d i t

/-- The reader never stops: it follows a cycle. -/
def Cycle (d : Bytes) (i : Nat) : Prop :=
  ∃ f : Nat → Reader, f 0 = (i, none) ∧ ∀ n, Move d (f n) (f (n + 1))

/-- The reader stands behind the data, or on a label that is exactly one octet too long for the
data. -/
def Stuck (d : Bytes) (p : Nat) : Prop :=
  d.length ≤ p ∨ ∃ len : UInt8, d[p]? = some len ∧ 1 ≤ len.toNat ∧ len.toNat < 192 ∧
    p + len.toNat = d.length

end Dns.Spec
