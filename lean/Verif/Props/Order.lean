import Verif.Model.Order
import Verif.Props.NameText
import Verif.Props.Svcb

/-
C95: the comparisons of the crate are total orders.
-/

namespace Dns
open Spec

/-- What `Ord` requires of a comparison on its own: comparing the other way round gives the opposite
answer, and "not greater" is transitive.  (That any two values are comparable is in the type.) -/
structure TotalOrder {α : Type} (cmp : α → α → Ordering) : Prop where
  swap : ∀ a b, cmp b a = (cmp a b).swap
  trans : ∀ a b c, cmp a b ≠ .gt → cmp b c ≠ .gt → cmp a c ≠ .gt

/-- What `Ord` requires of a comparison together with `==`. -/
def AgreesWithEq {α : Type} (cmp : α → α → Ordering) : Prop := ∀ a b, cmp a b = .eq ↔ a = b

theorem cmpU16_lt (a b : UInt16) : cmpU16 a b = .lt ↔ a.toNat < b.toNat := by
  have h1 := @UInt16.lt_iff_toNat_lt a b
  have h2 := @UInt16.lt_iff_toNat_lt b a
  unfold cmpU16
  split
  · simp_all
  · split <;> simp_all

theorem cmpU16_gt (a b : UInt16) : cmpU16 a b = .gt ↔ b.toNat < a.toNat := by
  have h1 := @UInt16.lt_iff_toNat_lt a b
  have h2 := @UInt16.lt_iff_toNat_lt b a
  unfold cmpU16
  split
  · have := h1.mp ‹_›; simp; omega
  · split <;> simp_all

theorem cmpU16_eq (a b : UInt16) : cmpU16 a b = .eq ↔ a = b := by
  have h1 := cmpU16_lt a b
  have h2 := cmpU16_gt a b
  rw [← UInt16.toNat_inj]
  cases e : cmpU16 a b <;> simp_all <;> omega

/-- A comparison that is `<`, `=`, `>` of numbers given to the values is a total order. -/
theorem TotalOrder.of_nat {α : Type} {cmp : α → α → Ordering} (f : α → Nat)
    (hl : ∀ a b, cmp a b = .lt ↔ f a < f b) (hg : ∀ a b, cmp a b = .gt ↔ f b < f a) : TotalOrder cmp := by
  constructor
  · intro a b
    have h1 := hl a b
    have h2 := hg a b
    have h3 := hl b a
    have h4 := hg b a
    cases e : cmp a b <;> cases e' : cmp b a <;> simp_all <;> omega
  · intro a b c h1 h2
    have h1 := mt (hg a b).mpr h1
    have h2 := mt (hg b c).mpr h2
    exact mt (hg a c).mp (by omega)

/-- The place of a class: the four named classes in their order, then the payload sizes. -/
def classPlace : RecordClass → Nat
  | .IN => 0 | .CS => 1 | .CH => 2 | .HS => 3
  | .udpPayloadSize n => 4 + n.toNat

theorem RecordClass.cmp_lt (a b : RecordClass) : a.cmp b = .lt ↔ classPlace a < classPlace b := by
  cases a <;> cases b <;> simp [RecordClass.cmp, cmpU16_lt, RecordClass.discriminant, classPlace] <;> omega

theorem RecordClass.cmp_gt (a b : RecordClass) : a.cmp b = .gt ↔ classPlace b < classPlace a := by
  cases a <;> cases b <;> simp [RecordClass.cmp, cmpU16_gt, RecordClass.discriminant, classPlace] <;> omega

/-- C95: the comparisons of names, record types, record classes, parameter keys and parameters are
total orders. -/
theorem C95_total_orders :
    TotalOrder Fqdn.cmp ∧ TotalOrder RecordType.cmp ∧ TotalOrder RecordClass.cmp ∧
    TotalOrder ParamKey.cmp ∧ TotalOrder Param.cmp := by
  refine ⟨⟨C55_swap, ?_⟩, ?_, ?_, ?_, ?_⟩
  · intro a b c h1 h2 h3
    have h3 : c.cmp a = .lt := by rw [C55_swap a c, h3]; rfl
    cases e1 : a.cmp b with
    | gt => exact h1 e1
    | eq =>
      rw [C55_eq] at e1; subst e1
      exact h2 (by rw [C55_swap c a, h3]; rfl)
    | lt =>
      exact h2 (by rw [C55_swap c b, C55_trans c a b h3 e1]; rfl)
  · exact .of_nat (fun t => t.toU16.toNat) (fun _ _ => cmpU16_lt _ _) (fun _ _ => cmpU16_gt _ _)
  · exact .of_nat classPlace RecordClass.cmp_lt RecordClass.cmp_gt
  · exact .of_nat (fun t => t.toU16.toNat) (fun _ _ => cmpU16_lt _ _) (fun _ _ => cmpU16_gt _ _)
  · exact .of_nat (fun t => t.key.toU16.toNat) (fun _ _ => cmpU16_lt _ _) (fun _ _ => cmpU16_gt _ _)

/-- C95: types are ordered by the numbers IANA gives them, classes in the order IN, CS, CH, HS and then
the payload sizes by size, parameters and their keys by the numbers RFC 9460 gives the keys. -/
theorem C95_meaning (s t : RecordType) (c d : RecordClass) (k l : ParamKey) (p q : Param) :
    (s.cmp t = .lt ↔ typeNumber s < typeNumber t) ∧
    (c.cmp d = .lt ↔ classPlace c < classPlace d) ∧
    (k.cmp l = .lt ↔ paramKeyNumber k < paramKeyNumber l) ∧
    (p.cmp q = .lt ↔ paramKeyNumber p.key < paramKeyNumber q.key) := by
  have h : ∀ k l : ParamKey, k.cmp l = .lt ↔ paramKeyNumber k < paramKeyNumber l := by
    intro k l
    rw [← ParamKey.ord_eq, ← ParamKey.ord_eq]
    exact cmpU16_lt _ _
  refine ⟨?_, RecordClass.cmp_lt c d, h k l, h _ _⟩
  rw [RecordType.cmp, cmpU16_lt, ← ord_eq, ← ord_eq]
  rfl

/-- C95: types and classes compare as equal exactly when they are equal (names: `C55_eq`; parameters and
their keys: C75). -/
theorem C95_agrees : AgreesWithEq RecordType.cmp ∧ AgreesWithEq RecordClass.cmp := by
  refine ⟨?_, ?_⟩
  · intro a b
    rw [RecordType.cmp, cmpU16_eq]
    refine ⟨fun h => typeNumber_inj ?_, fun h => by rw [h]⟩
    rw [← ord_eq, ← ord_eq, RecordType.ord, RecordType.ord, h]
  · intro a b
    cases a <;> cases b <;> simp [RecordClass.cmp, cmpU16_eq, RecordClass.discriminant]

example : ParamKey.cmp .port (.private 65280) = .lt ∧ Param.cmp (.port 80) (.alpn []) = .gt ∧
    RecordType.cmp .A .AAAA = .lt ∧ RecordClass.cmp (.udpPayloadSize 1232) (.udpPayloadSize 512) = .gt ∧
    RecordClass.cmp .HS (.udpPayloadSize 0) = .lt := by decide

end Dns
