import Verif.Model.Basic

/-
Independent specification: base64 as in RFC 4648, section 4.  A text is a sequence of groups of four
characters; the digits of a group are the base-64 digits of a number of 24 bits, the octets of a group
its base-256 digits.  One `=` at the end drops one octet, two drop two.
-/

namespace Dns.Spec

/-- RFC 4648, table 1: `A`–`Z`, `a`–`z`, `0`–`9`, `+`, `/`. -/
def base64Alphabet : List UInt8 :=
  [0x41, 0x42, 0x43, 0x44, 0x45, 0x46, 0x47, 0x48, 0x49, 0x4A, 0x4B, 0x4C, 0x4D, 0x4E, 0x4F, 0x50,
   0x51, 0x52, 0x53, 0x54, 0x55, 0x56, 0x57, 0x58, 0x59, 0x5A,
   0x61, 0x62, 0x63, 0x64, 0x65, 0x66, 0x67, 0x68, 0x69, 0x6A, 0x6B, 0x6C, 0x6D, 0x6E, 0x6F, 0x70,
   0x71, 0x72, 0x73, 0x74, 0x75, 0x76, 0x77, 0x78, 0x79, 0x7A,
   0x30, 0x31, 0x32, 0x33, 0x34, 0x35, 0x36, 0x37, 0x38, 0x39, 0x2B, 0x2F]

/-- The three octets of a number of 24 bits. -/
def octets24 (v : Nat) : Bytes := [UInt8.ofNat (v / 65536), UInt8.ofNat (v / 256 % 256), UInt8.ofNat (v % 256)]

/-- The number whose base-64 digits are the positions of the characters in the alphabet. -/
def base64Value (cs : Bytes) : Option Nat :=
  cs.foldl (fun acc c => do
    let v ← acc
    let i ← base64Alphabet.idxOf? c
    return 64 * v + i) (some 0)

/-- Reading a base64 text; the bits that padding leaves over have to be zero. -/
def unbase64 : Bytes → Option Bytes
  | [] => some []
  | [a, b, 0x3D, 0x3D] => do
    let v ← base64Value [a, b, 0x41, 0x41]
    if v % 65536 = 0 then some ((octets24 v).take 1) else none
  | [a, b, c, 0x3D] => do
    let v ← base64Value [a, b, c, 0x41]
    if v % 256 = 0 then some ((octets24 v).take 2) else none
  | a :: b :: c :: d :: rest => do
    let v ← base64Value [a, b, c, d]
    let r ← unbase64 rest
    return octets24 v ++ r
  | _ => none

end Dns.Spec
