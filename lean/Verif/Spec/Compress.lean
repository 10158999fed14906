import Verif.Spec.Name

/-
Histories of names written with compression into one message.
-/

namespace Dns.Spec

/-- One write: some octets that are no compressed name (header fields, numbers, other data) are
appended to the message, then a name is appended with `to_bytes_compressed`, which gets the map of
the writer and the current offset. -/
def writeName (h : Hash) (st : Bytes × Names) (w : Bytes × Fqdn) : Bytes × Names :=
  let r := w.2.toBytesCompressed h st.2 (st.1 ++ w.1).length
  (st.1 ++ w.1 ++ r.1, r.2)

/-- A message written from the beginning. -/
def writeAll (h : Hash) (hist : List (Bytes × Fqdn)) : Bytes × Names :=
  hist.foldl (writeName h) ([], Names.empty)

/-- The octets of the message. -/
def message (h : Hash) (hist : List (Bytes × Fqdn)) : Bytes := (writeAll h hist).1

/-- The hash function does not collide on the suffixes of the names. -/
def NoCollision (h : Hash) (names : List Fqdn) : Prop :=
  ∀ a b, (∃ n ∈ names, a <:+ n) → (∃ n ∈ names, b <:+ n) → h a = h b → a = b

/-- RFC 1035: labels of 1 to 63 octets. -/
def LegalLabels (n : Fqdn) : Prop := ∀ l ∈ n, 1 ≤ l.length ∧ l.length ≤ 63

instance (n : Fqdn) : Decidable (LegalLabels n) := by unfold LegalLabels; infer_instance

end Dns.Spec
