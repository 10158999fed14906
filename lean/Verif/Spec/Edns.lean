import Verif.Spec.Wire

/-
Extension mechanisms for DNS (RFC 6891) as the RFC defines them, without regard to the crate.
-/

namespace Dns.Spec

/-- What a sender tells with the OPT record (RFC 6891, sections 6.1.2 and 6.1.3). -/
structure Edns where
  /-- the size of the UDP payload the sender can take -/
  payload : UInt16
  /-- the upper eight bits of the response code -/
  extRcode : UInt8
  version : UInt8
  /-- the flag DO -/
  dnssecOk : Bool
  /-- the fifteen flags without a meaning -/
  z : Nat
  /-- codes and values of the options -/
  options : List (UInt16 × Bytes)

/-- The flags: DO is the first of them. -/
def Edns.flags (e : Edns) : UInt16 := UInt16.ofNat ((if e.dnssecOk then 32768 else 0) + e.z)

/-- RFC 6891, section 6.1.2: an option is its code, the length of its value, and the value. -/
def optionsOctets : List (UInt16 × Bytes) → Bytes
  | [] => []
  | (code, value) :: os => octets16 code ++ octets16 (UInt16.ofNat value.length) ++ value ++ optionsOctets os

/-- RFC 6891, sections 6.1.2 and 6.1.3: the OPT record: the root, the type 41, the payload size in place of the class, the
response code, the version and the flags in place of the time to live, and the options as the data. -/
def Edns.octets (e : Edns) : Bytes :=
  [0] ++ octets16 41 ++ octets16 e.payload ++ [e.extRcode, e.version] ++ octets16 e.flags ++
    octets16 (UInt16.ofNat (optionsOctets e.options).length) ++ optionsOctets e.options

/-- What the fields of 16 bits can say. -/
def Edns.Fits (e : Edns) : Prop :=
  e.z < 32768 ∧ (optionsOctets e.options).length < 65536

end Dns.Spec
