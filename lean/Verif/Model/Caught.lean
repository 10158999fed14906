import Verif.Model.Packet

/-
The calls that add an element to a packet, once more, with the packet they leave behind when they panic: a program that
catches the panic (`std::panic::catch_unwind`, a thread that holds the packet in a `Mutex`) can go on using it.
That the outcomes are the same is proved (`C125_same`).
-/

namespace Dns
namespace Caught

/-- A change of a count, and what it leaves behind: `+= 1` panics before it stores anything.
Used at src/packet.rs:174-177, 193-196, 212-215 and 231-234. -/
def count (cfg : Cfg) (n : UInt16) (store : UInt16 → Packet) (before : Packet) : Res Unit × Packet :=
  match Packet.incr cfg n with
  | .ok m => (.ok (), store m)
  | .err e => (.err e, before)
  | .panic k => (.panic k, before)
  | .hang => (.hang, before)

/-- src/packet.rs:174-177: the question is pushed, then the count is changed. -/
def addQuestion (cfg : Cfg) (p : Packet) (q : Question) : Res Unit × Packet :=
  let p1 := { p with questions := p.questions ++ [q] }
  count cfg p1.header.quesCount (fun n => { p1 with header := { p1.header with quesCount := n } }) p1

/-- src/packet.rs:193-196 -/
def addAnswer (cfg : Cfg) (p : Packet) (r : ResourceRecord) : Res Unit × Packet :=
  let p1 := { p with answers := p.answers ++ [r] }
  count cfg p1.header.ansCount (fun n => { p1 with header := { p1.header with ansCount := n } }) p1

/-- src/packet.rs:212-215 -/
def addAuthority (cfg : Cfg) (p : Packet) (r : ResourceRecord) : Res Unit × Packet :=
  let p1 := { p with authorities := p.authorities ++ [r] }
  count cfg p1.header.authCount (fun n => { p1 with header := { p1.header with authCount := n } }) p1

/-- src/packet.rs:231-234 -/
def addAdditional (cfg : Cfg) (p : Packet) (r : ResourceRecord) : Res Unit × Packet :=
  let p1 := { p with additional := p.additional ++ [r] }
  count cfg p1.header.addCount (fun n => { p1 with header := { p1.header with addCount := n } }) p1

end Caught
end Dns
