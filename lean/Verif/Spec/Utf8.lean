import Verif.Model.Basic

/-
Specification of UTF-8: the octets of a sequence of Unicode scalar values (`Char`), with the encoding
of one scalar value from the Lean prelude.
-/

namespace Dns.Spec

/-- `b` is well-formed UTF-8. -/
def IsUtf8 (b : Bytes) : Prop := ∃ cs : List Char, b = cs.flatMap String.utf8EncodeChar

end Dns.Spec
