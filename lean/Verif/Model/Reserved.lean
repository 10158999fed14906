import Verif.Model.Packet

/-
`Packet::try_from` once more, with the numbers of elements for which memory is reserved before they are read
(`Vec::with_capacity` with the counts of the header); that the outcome is the same is proved (`C123_same`).

Not counted: the buffers of strings (src/buffer.rs:114, at most 255 octets before they are read) and vectors that grow
with what has been read.
-/

namespace Dns
namespace Reserved

/-- A section of `n` elements: memory for all of them is reserved, then they are read.  Used at src/packet.rs:345-380. -/
def sect {α β : Type} (n : Nat) (p : Parser α) (next : List α → Bytes → Nat → Res β × List Nat) (d : Bytes) (i : Nat) :
    Res β × List Nat :=
  match Parser.times n p d i with
  | (.ok as, j) => ((next as d j).1, n :: (next as d j).2)
  | (.err e, _) => (.err e, [n])
  | (.panic k, _) => (.panic k, [n])
  | (.hang, _) => (.hang, [n])

/-- src/packet.rs:345-380: the packet, and the numbers of elements reserved, one after the other. -/
def packet (cfg : Cfg) (d : Bytes) : Res Packet × List Nat :=
  match Header.parse d 0 with
  | (.ok h, i) =>
    -- src/packet.rs:351-355
    sect h.quesCount.toNat (Question.parse cfg) (fun qs =>
      -- src/packet.rs:358-363
      sect h.ansCount.toNat (ResourceRecord.parse cfg) (fun an =>
        -- src/packet.rs:366-370
        sect h.authCount.toNat (ResourceRecord.parse cfg) (fun au =>
          -- src/packet.rs:373-377
          sect h.addCount.toNat (ResourceRecord.parse cfg) (fun ad _ _ =>
            (.ok ⟨h, qs, an, au, ad⟩, []))))) d i
  | (.err e, _) => (.err e, [])
  | (.panic k, _) => (.panic k, [])
  | (.hang, _) => (.hang, [])

end Reserved
end Dns
