import Verif.Model.Basic

/-
UTF-8 handling of the Rust standard library, as used by `String::from_utf8`
(src/buffer.rs:125) and `String::from_utf8_lossy` (src/rdata/txt.rs:27, src/rdata/caa.rs:48).
Modelled after `core::str::lossy::Utf8Chunks` of the standard library, which is not in /repo.
-/

namespace Dns

/-- A continuation octet `10xxxxxx`.
Used for src/buffer.rs:125, src/fqdn.rs:68, src/rdata/txt.rs:27 and src/rdata/caa.rs:48. -/
def isCont (b : UInt8) : Bool := b &&& 0xC0 == 0x80

/-- Second octet allowed after the first octet of a three-octet sequence.
Used for src/buffer.rs:125, src/fqdn.rs:68, src/rdata/txt.rs:27 and src/rdata/caa.rs:48. -/
def ok3 (b c : UInt8) : Bool :=
  (b == 0xE0 && 0xA0 ≤ c && c ≤ 0xBF) ||
  (0xE1 ≤ b && b ≤ 0xEC && 0x80 ≤ c && c ≤ 0xBF) ||
  (b == 0xED && 0x80 ≤ c && c ≤ 0x9F) ||
  (0xEE ≤ b && b ≤ 0xEF && 0x80 ≤ c && c ≤ 0xBF)

/-- Second octet allowed after the first octet of a four-octet sequence.
Used for src/buffer.rs:125, src/fqdn.rs:68, src/rdata/txt.rs:27 and src/rdata/caa.rs:48. -/
def ok4 (b c : UInt8) : Bool :=
  (b == 0xF0 && 0x90 ≤ c && c ≤ 0xBF) ||
  (0xF1 ≤ b && b ≤ 0xF3 && 0x80 ≤ c && c ≤ 0xBF) ||
  (b == 0xF4 && 0x80 ≤ c && c ≤ 0x8F)

/-- One step of the scanner on the input `b :: bs`: `(true, k)` if a valid character occupies
`b` and the next `k` octets, `(false, k)` if `b` and the next `k` octets are a maximal invalid
part.  Missing octets read as 0, as `safe_get` does.
Used for src/buffer.rs:125, src/fqdn.rs:68, src/rdata/txt.rs:27 and src/rdata/caa.rs:48. -/
def utf8Step (b : UInt8) (bs : Bytes) : Bool × Nat :=
  if b < 0x80 then (true, 0)
  else if 0xC2 ≤ b && b ≤ 0xDF then
    if isCont (bs[0]?.getD 0) then (true, 1) else (false, 0)
  else if 0xE0 ≤ b && b ≤ 0xEF then
    if ok3 b (bs[0]?.getD 0) then
      if isCont (bs[1]?.getD 0) then (true, 2) else (false, 1)
    else (false, 0)
  else if 0xF0 ≤ b && b ≤ 0xF4 then
    if ok4 b (bs[0]?.getD 0) then
      if isCont (bs[1]?.getD 0) then
        if isCont (bs[2]?.getD 0) then (true, 3) else (false, 2)
      else (false, 1)
    else (false, 0)
  else (false, 0)

/-- `String::from_utf8(bytes).is_ok()`.  Used at src/buffer.rs:125 and src/fqdn.rs:68. -/
def utf8Valid : Bytes → Bool
  | [] => true
  | b :: bs =>
    match utf8Step b bs with
    | (true, k) => utf8Valid (bs.drop k)
    | (false, _) => false
termination_by bs => bs.length
decreasing_by simp; omega

/-- `String::from_utf8_lossy(bytes)`: invalid parts become U+FFFD.  Used at src/rdata/txt.rs:27 and src/rdata/caa.rs:48. -/
def utf8Lossy : Bytes → Bytes
  | [] => []
  | b :: bs =>
    match utf8Step b bs with
    | (true, k) => b :: (bs.take k ++ utf8Lossy (bs.drop k))
    | (false, k) => 0xEF :: 0xBF :: 0xBD :: utf8Lossy (bs.drop k)
termination_by bs => bs.length
decreasing_by all_goals (simp; omega)

end Dns
