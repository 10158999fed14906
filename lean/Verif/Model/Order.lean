import Verif.Model.RDataSvcb

/-
The `Ord` implementations of the crate other than that of names (`Fqdn.cmp`), and `==` of names.
-/

namespace Dns

/-- `==` of `Vec<u8>`: the same number of octets, and the same octets.  Used at src/fqdn.rs:17. -/
def Fqdn.eqBytes : Bytes → Bytes → Bool
  | [], [] => true
  | a :: as, b :: bs => a == b && eqBytes as bs
  | _, _ => false

/-- src/fqdn.rs:17 `#[derive(PartialEq)]` of `FQDN`: `==` of `Vec<Vec<u8>>`. -/
def Fqdn.eq : Fqdn → Fqdn → Bool
  | [], [] => true
  | a :: as, b :: bs => Fqdn.eqBytes a b && Fqdn.eq as bs
  | _, _ => false

/-- `u16::cmp`.  Used for src/resource.rs:12, src/resource.rs:64 and src/rdata/svcb.rs:162-166. -/
def cmpU16 (a b : UInt16) : Ordering := if a < b then .lt else if b < a then .gt else .eq

/-- src/resource.rs:64 `#[derive(PartialOrd, Ord)]` of `RecordType`: the variants have explicit
discriminants, and the derived order is the order of these. -/
def RecordType.cmp (a b : RecordType) : Ordering := cmpU16 a.toU16 b.toU16

/-- src/resource.rs:13-24: the discriminants of `RecordClass`, in the order of declaration. -/
def RecordClass.discriminant : RecordClass → UInt16
  | .IN => 0
  | .CS => 1
  | .CH => 2
  | .HS => 3
  | .udpPayloadSize _ => 4

/-- src/resource.rs:12 `#[derive(PartialOrd, Ord)]` of `RecordClass`: by discriminant, two payload
sizes by the number. -/
def RecordClass.cmp : RecordClass → RecordClass → Ordering
  | .udpPayloadSize m, .udpPayloadSize n => cmpU16 m n
  | a, b => cmpU16 a.discriminant b.discriminant

/-- src/rdata/svcb.rs:162-166 `Ord for ParamKey`; lines 156-160, `partial_cmp`, is `Some` of this. -/
def ParamKey.cmp (a b : ParamKey) : Ordering := cmpU16 a.toU16 b.toU16

/-- src/rdata/svcb.rs:295-299 `Ord for Param`; lines 289-293, `partial_cmp`, is `Some` of this. -/
def Param.cmp (a b : Param) : Ordering := a.key.cmp b.key

end Dns
