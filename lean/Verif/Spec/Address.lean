import Verif.Model.Basic

/-
Independent specification: the texts of addresses.  IPv4: four decimal numbers without leading zeros, separated by dots
(RFC 6943, section 3.1.1, the strict form).  IPv6: the three forms of RFC 4291, section 2.2.
-/

namespace Dns.Spec

/-- Decimal digits. -/
def decDigit (c : UInt8) : Option Nat := if 48 ≤ c ∧ c ≤ 57 then some (c.toNat - 48) else none

/-- Hexadecimal digits, in both cases. -/
def hexDigit (c : UInt8) : Option Nat :=
  if 48 ≤ c ∧ c ≤ 57 then some (c.toNat - 48)
  else if 97 ≤ c ∧ c ≤ 102 then some (c.toNat - 97 + 10)
  else if 65 ≤ c ∧ c ≤ 70 then some (c.toNat - 65 + 10)
  else none

/-- The number that is written behind `before`; `none` if not all characters are digits. -/
def numeral (digit : UInt8 → Option Nat) (base : Nat) : (before : Nat) → Bytes → Option Nat
  | n, [] => some n
  | n, c :: t => (digit c).bind fun d => numeral digit base (n * base + d) t

/-- A decimal number without leading zeros. -/
def DecOctet (t : Bytes) (o : UInt8) : Prop :=
  t ≠ [] ∧ numeral decDigit 10 0 t = some o.toNat ∧ (t.head? = some 48 → t = [48])

/-- `d.d.d.d` -/
def DottedQuad (t o : Bytes) : Prop :=
  ∃ a b c d ta tb tc td, DecOctet ta a ∧ DecOctet tb b ∧ DecOctet tc c ∧ DecOctet td d ∧
    t = ta ++ 46 :: (tb ++ 46 :: (tc ++ 46 :: td)) ∧ o = [a, b, c, d]

/-- One to four hexadecimal digits, the two octets `o`. -/
def HexGroup (t o : Bytes) : Prop :=
  1 ≤ t.length ∧ t.length ≤ 4 ∧
    ∃ a b : UInt8, o = [a, b] ∧ numeral hexDigit 16 0 t = some (a.toNat * 256 + b.toNat)

/-- `x:x:...:x`, at least one group. -/
inductive Groups : Bytes → Bytes → Prop
  | one {t o} : HexGroup t o → Groups t o
  | more {t o t' o'} : HexGroup t o → Groups t' o' → Groups (t ++ 58 :: t') (o ++ o')

/-- `x:x:...:x` or `x:...:d.d.d.d` or `d.d.d.d`. -/
inductive GroupsOrQuad : Bytes → Bytes → Prop
  | one {t o} : HexGroup t o → GroupsOrQuad t o
  | quad {t o} : DottedQuad t o → GroupsOrQuad t o
  | more {t o t' o'} : HexGroup t o → GroupsOrQuad t' o' → GroupsOrQuad (t ++ 58 :: t') (o ++ o')

/-- The text `t` denotes the address with the sixteen octets `o`: all groups are there, or `::` stands for one or more
groups of zeros. -/
def IpV6Text (t o : Bytes) : Prop :=
  o.length = 16 ∧
    (GroupsOrQuad t o ∨
      ∃ l r lo ro zeros, (l = [] ∧ lo = [] ∨ Groups l lo) ∧ (r = [] ∧ ro = [] ∨ GroupsOrQuad r ro) ∧
        0 < zeros ∧ t = l ++ 58 :: 58 :: r ∧ o = lo ++ List.replicate zeros 0 ++ ro)

end Dns.Spec
