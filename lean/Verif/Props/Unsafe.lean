import Verif.Model.Unsafe
import Verif.Props.NameText
import Verif.Props.Write
import Verif.Lemmas.Fails

/-!
The `unsafe` code is never undefined (C104).
-/

namespace Dns
open Spec

/-- The allocator returns at least the capacity asked for. -/
def Spec.Roomy (m : Machine) : Prop := ∀ n, n ≤ (m.alloc n).2

/-- Not undefined. -/
def Spec.Defined {α : Type} (x : Raw α) : Prop := ∃ a, x = .ok a

theorem native_toBe (m : Machine) (v : UInt16) : m.native (m.toBe v) = u16be v := by
  have hv : v.toNat < 65536 := v.toNat_lt
  have hl : UInt8.ofNat (v.toNat % 256) = UInt8.ofNat v.toNat := UInt8.toNat_inj.mp (by simp)
  unfold Machine.native Machine.toBe
  split
  · simp only [u16be, toBE, Nat.pow_one, Nat.pow_zero, Nat.div_one, hl]
  · have : (UInt16.ofNat (v.toNat % 256 * 256 + v.toNat / 256)).toNat = v.toNat % 256 * 256 + v.toNat / 256 := by
      simp only [UInt16.toNat_ofNat']
      omega
    rw [this, show (v.toNat % 256 * 256 + v.toNat / 256) % 256 = v.toNat / 256 by omega,
      show (v.toNat % 256 * 256 + v.toNat / 256) / 256 = v.toNat % 256 by omega]
    simp only [u16be, toBE, Nat.pow_one, Nat.pow_zero, Nat.div_one, hl]

/-- One write: at an even address in the allocation it replaces two octets. -/
theorem step_ok (m : Machine) (a c : Nat) (x y z : Bytes) (ptr k : Nat) (v : UInt16) (ha : a % 2 = 0)
    (hp : ptr + 2 * k = a + x.length) (hx : x.length % 2 = 0) (hy : y.length = 2)
    (hc : (x ++ y ++ z).length ≤ c) {α : Type} (f : Nat → Block → Raw α) :
    (Block.offset ⟨a, c, x ++ y ++ z⟩ ptr k >>= fun ptr =>
      Block.store m ⟨a, c, x ++ y ++ z⟩ ptr (m.toBe v) >>= f ptr) =
    f (a + x.length) ⟨a, c, x ++ u16be v ++ z⟩ := by
  have h0 : (x ++ y ++ z).length = x.length + 2 + z.length := by simp [hy]; omega
  have h1 : Block.offset ⟨a, c, x ++ y ++ z⟩ ptr k = .ok (a + x.length) := by
    unfold Block.offset
    rw [hp, if_pos (by constructor <;> simp only <;> omega)]
  have h2 : Block.store m ⟨a, c, x ++ y ++ z⟩ (a + x.length) (m.toBe v) = .ok ⟨a, c, x ++ u16be v ++ z⟩ := by
    unfold Block.store
    rw [if_neg (by omega), if_neg (by simp only; omega), native_toBe]
    have h3 : (x ++ y ++ z).take (a + x.length - a) = x := by
      rw [Nat.add_sub_cancel_left, List.append_assoc, List.take_left]
    have h4 : (x ++ y ++ z).drop (a + x.length - a + 2) = z := by
      rw [Nat.add_sub_cancel_left, ← hy, ← List.length_append, List.drop_left]
    have h5 : (x ++ u16be v ++ z).length = (x ++ y ++ z).length := by simp [hy, u16be_length]
    rw [h3, h4, ← h5, List.take_length]
  simp only [bind, h1, h2]

theorem headerRaw_even (m : Machine) (p : Packet) (n : Nat) (hn : 12 ≤ (m.alloc n).2)
    (ha : (m.alloc n).1 % 2 = 0) : p.headerRaw m n = .ok p.headerBytes := by
  generalize hx : u16be p.header.id ++ [p.header.flags.hi, p.header.flags.lo] = x
  have hl : x.length = 4 := by simp [← hx, u16be_length]
  have h0 : p.header.toBytes = x ++ u16be p.header.quesCount ++ (u16be p.header.ansCount ++
      (u16be p.header.authCount ++ (u16be p.header.addCount ++ []))) := by
    simp [Header.toBytes, ← hx]
  have hb : p.headerBytes = x ++ u16be (lenU16 p.questions.length) ++ u16be (lenU16 p.answers.length) ++
      u16be (lenU16 p.authorities.length) ++ u16be (lenU16 p.additional.length) := by
    rw [Packet.headerBytes, h0, List.append_assoc x, ← hl, List.take_left]
  rw [hb]
  unfold Packet.headerRaw
  simp only [h0]
  rw [step_ok m _ _ _ _ _ _ _ _ ha (by omega) (by omega) (u16be_length _) (by simp [u16be_length, hl]; omega)]
  simp only [← List.append_assoc _ (u16be p.header.ansCount)]
  rw [step_ok m _ _ _ _ _ _ _ _ ha (by simp [u16be_length]; omega) (by simp [u16be_length]; omega) (u16be_length _)
    (by simp [u16be_length, hl]; omega)]
  simp only [← List.append_assoc _ (u16be p.header.authCount)]
  rw [step_ok m _ _ _ _ _ _ _ _ ha (by simp [u16be_length]; omega) (by simp [u16be_length]; omega) (u16be_length _)
    (by simp [u16be_length, hl]; omega)]
  simp only [← List.append_assoc _ (u16be p.header.addCount)]
  rw [step_ok m _ _ _ _ _ _ _ _ ha (by simp [u16be_length]; omega) (by simp [u16be_length]; omega) (u16be_length _)
    (by simp [u16be_length, hl]; omega), List.append_nil]
  rfl

theorem headerRaw_odd (m : Machine) (p : Packet) (n : Nat) (hn : 12 ≤ (m.alloc n).2)
    (ha : (m.alloc n).1 % 2 ≠ 0) : p.headerRaw m n = .ub .unaligned := by
  have h1 : Block.offset ⟨(m.alloc n).1, (m.alloc n).2, p.header.toBytes⟩ (m.alloc n).1 2 =
      .ok ((m.alloc n).1 + 2 * 2) := if_pos (by constructor <;> simp only <;> omega)
  have h2 : ∀ v, Block.store m ⟨(m.alloc n).1, (m.alloc n).2, p.header.toBytes⟩ ((m.alloc n).1 + 2 * 2) v =
      .ub .unaligned := fun v => if_pos (by omega)
  unfold Packet.headerRaw
  simp only [bind, h1, h2]

theorem recordsSize_ok {cfg : Cfg} {rs : List ResourceRecord} (hs : ∀ r ∈ rs, SetsOk r.rdata) (s : Nat) :
    ∃ n, Packet.recordsSize cfg rs s = .ok n ∧ s ≤ n := by
  induction rs generalizing s with
  | nil => exact ⟨s, rfl, Nat.le_refl _⟩
  | cons r rs ih =>
    have : ∃ n, r.rdata.byteSize cfg = .ok n := by
      have h := hs r List.mem_cons_self
      rcases RecordData.written cfg r.rdata h with ⟨h1, -, -⟩ | ⟨-, ⟨b, h2⟩, -⟩
      · have := h1.2
        cases h : r.rdata with
        | SVCB r => exact ⟨_, rfl⟩
        | _ => rw [h] at this; exact this.elim
      · obtain ⟨n, h3, -⟩ := RecordData.size h h2
        exact ⟨n, h3⟩
    obtain ⟨n, h3⟩ := this
    obtain ⟨k, h4, h5⟩ := ih (fun x hx => hs x (List.mem_cons_of_mem _ hx)) (s + (r.name.byteSize + 2 + 2 + 4 + 2 + n))
    exact ⟨k, Res.bind_eq_ok.mpr ⟨_, Res.bind_eq_ok.mpr ⟨n, h3, rfl⟩, h4⟩, by omega⟩

theorem packetSize_ok {cfg : Cfg} {p : Packet} (hs : ∀ r ∈ records p, SetsOk r.rdata) :
    ∃ n, p.byteSize cfg = .ok n ∧ 12 ≤ n := by
  have hq : ∀ (qs : List Question) (s : Nat), s ≤ qs.foldl (fun s q => s + q.byteSize) s := by
    intro qs
    induction qs with
    | nil => exact fun s => Nat.le_refl _
    | cons q qs ih => exact fun s => Nat.le_trans (by omega) (ih (s + q.byteSize))
  obtain ⟨n1, h1, g1⟩ := recordsSize_ok (cfg := cfg) (rs := p.answers) (fun r h => hs r (by simp [records, h]))
    (p.questions.foldl (fun s q => s + q.byteSize) Header.SIZE)
  obtain ⟨n2, h2, g2⟩ := recordsSize_ok (cfg := cfg) (rs := p.authorities) (fun r h => hs r (by simp [records, h])) n1
  obtain ⟨n3, h3, g3⟩ := recordsSize_ok (cfg := cfg) (rs := p.additional) (fun r h => hs r (by simp [records, h])) n2
  refine ⟨n3, Res.bind_eq_ok.mpr ⟨n1, h1, Res.bind_eq_ok.mpr ⟨n2, h2, h3⟩⟩, ?_⟩
  have := hq p.questions Header.SIZE
  have : Header.SIZE = 12 := rfl
  omega

/-- C104 (partial): `to_bytes` of a packet is defined, on machines of both byte orders, if the allocator returns
an even address, and writes what the safe code of the model writes.  What is missing: odd addresses, which an
allocator may return for octets (false, see `C104_to_bytes_exact`). -/
theorem C104_to_bytes_partial (m : Machine) (cfg : Cfg) (p : Packet) (hm : Roomy m)
    (hs : ∀ r ∈ records p, SetsOk r.rdata) (ha : ∀ n, (m.alloc n).1 % 2 = 0) :
    p.toBytesRaw m cfg = .ok (p.toBytes cfg) := by
  obtain ⟨n, h1, h2⟩ := packetSize_ok (cfg := cfg) hs
  unfold Packet.toBytesRaw
  rw [h1]
  simp only
  rw [headerRaw_even m p n (Nat.le_trans h2 (hm n)) (ha n)]
  rfl

theorem recordsSize_le {cfg : Cfg} {rs : List ResourceRecord} {s n : Nat}
    (h : Packet.recordsSize cfg rs s = .ok n) : s ≤ n := by
  induction rs generalizing s with
  | nil => cases h; exact Nat.le_refl _
  | cons r rs ih =>
    obtain ⟨k, -, h2⟩ := Res.bind_eq_ok.mp h
    exact Nat.le_trans (Nat.le_add_right _ _) (ih h2)

theorem packetSize_le {cfg : Cfg} {p : Packet} {n : Nat} (h : p.byteSize cfg = .ok n) : 12 ≤ n := by
  have hq : ∀ (qs : List Question) (s : Nat), s ≤ qs.foldl (fun s q => s + q.byteSize) s := by
    intro qs
    induction qs with
    | nil => exact fun s => Nat.le_refl _
    | cons q qs ih => exact fun s => Nat.le_trans (by omega) (ih (s + q.byteSize))
  obtain ⟨n1, h1, h⟩ := Res.bind_eq_ok.mp h
  obtain ⟨n2, h2, h3⟩ := Res.bind_eq_ok.mp h
  exact Nat.le_trans (hq p.questions Header.SIZE) (Nat.le_trans (recordsSize_le h1)
    (Nat.le_trans (recordsSize_le h2) (recordsSize_le h3)))

/-- C104 for `to_bytes`, exactly: it is undefined if and only if it comes to reserving memory (that is, computing
the size does not panic) and the address of the memory is odd.  What is undefined then is the unaligned write:
it never writes outside of the memory reserved. -/
theorem C104_to_bytes_exact (m : Machine) (cfg : Cfg) (p : Packet) (hm : Roomy m) :
    (Defined (p.toBytesRaw m cfg) ↔ ∀ n, p.byteSize cfg = .ok n → (m.alloc n).1 % 2 = 0) ∧
    ∀ u, p.toBytesRaw m cfg = .ub u → u = .unaligned := by
  unfold Packet.toBytesRaw
  cases h1 : p.byteSize cfg with
  | err e => exact ⟨⟨fun _ n h => (by cases h), fun _ => ⟨_, rfl⟩⟩, fun u h => (by cases h)⟩
  | panic k => exact ⟨⟨fun _ n h => (by cases h), fun _ => ⟨_, rfl⟩⟩, fun u h => (by cases h)⟩
  | hang => exact ⟨⟨fun _ n h => (by cases h), fun _ => ⟨_, rfl⟩⟩, fun u h => (by cases h)⟩
  | ok n =>
    have h2 := packetSize_le h1
    simp only
    by_cases ha : (m.alloc n).1 % 2 = 0
    · rw [headerRaw_even m p n (Nat.le_trans h2 (hm n)) ha]
      exact ⟨⟨fun _ k hk => (by cases hk; exact ha), fun _ => ⟨_, rfl⟩⟩, fun u h => (by cases h)⟩
    · rw [headerRaw_odd m p n (Nat.le_trans h2 (hm n)) ha]
      exact ⟨⟨fun ⟨_, h⟩ => (by cases h), fun h => absurd (h n rfl) ha⟩, fun u h => (by cases h; rfl)⟩

/-- C104 for `Display` of names, exactly: it is defined if and only if every label is UTF-8, and then shows
the labels with dots between them. -/
theorem C104_display_exact (n : Fqdn) :
    (Defined n.displayRaw ↔ ∀ l ∈ n, IsUtf8 l) ∧ ∀ s, n.displayRaw = .ok s → s = [0x2E].intercalate n := by
  have key : (∀ l ∈ n, IsUtf8 l) ∧ n.displayRaw = .ok n.display ∨
      ¬ (∀ l ∈ n, IsUtf8 l) ∧ n.displayRaw = .ub .utf8 := by
    induction n with
    | nil => exact .inl ⟨by simp, rfl⟩
    | cons l n ih =>
      by_cases hl : utf8Valid l = true
      · have hl' := (utf8Valid_iff l).mp hl
        cases n with
        | nil => exact .inl ⟨by simpa using hl', if_pos hl⟩
        | cons k n =>
          rcases ih with ⟨h1, h2⟩ | ⟨h1, h2⟩
          · refine .inl ⟨fun x hx => ?_, ?_⟩
            · rcases List.mem_cons.mp hx with rfl | hx
              · exact hl'
              · exact h1 x hx
            · rw [Fqdn.displayRaw, if_pos hl, h2]
              rfl
              simp
          · refine .inr ⟨fun h => h1 fun x hx => h x (List.mem_cons_of_mem _ hx), ?_⟩
            rw [Fqdn.displayRaw, if_pos hl, h2]
            rfl
            simp
      · have hl' : ¬ IsUtf8 l := fun h => hl ((utf8Valid_iff l).mpr h)
        refine .inr ⟨fun h => hl' (h l List.mem_cons_self), ?_⟩
        cases n with
        | nil => exact if_neg hl
        | cons k n => rw [Fqdn.displayRaw, if_neg hl]; simp
  rcases key with ⟨h1, h2⟩ | ⟨h1, h2⟩
  · exact ⟨⟨fun _ => h1, fun _ => ⟨_, h2⟩⟩, fun s hs => by rw [h2] at hs; cases hs; exact C15_display n⟩
  · refine ⟨⟨fun ⟨a, h⟩ => ?_, fun h => absurd h h1⟩, fun s hs => ?_⟩
    · rw [h2] at h; cases h
    · rw [h2] at hs; cases hs

/-- C104 (partial): `Display` of a name made from text, with any labels appended, is defined.  What is
missing: names that were read from messages (false, see the counterexample). -/
theorem C104_display_text_partial (s : Bytes) (hs : IsUtf8 s) (ls : List Bytes) (hl : ∀ l ∈ ls, IsUtf8 l) :
    Defined (ls.foldl Fqdn.appendLabel (Fqdn.new s)).displayRaw := by
  rw [(C104_display_exact _).1]
  have : ∀ (ls : List Bytes) (n : Fqdn), ls.foldl Fqdn.appendLabel n = n ++ ls := by
    intro ls
    induction ls with
    | nil => simp
    | cons l ls ih => intro n; rw [List.foldl_cons, ih]; simp [Fqdn.appendLabel]
  rw [this]
  intro l h
  rcases List.mem_append.mp h with h | h
  · exact C15_new_utf8 s hs l h
  · exact hl l h
example : Defined (Fqdn.appendLabel (Fqdn.new [97]) [0xC3, 0xA4]).displayRaw :=
  C104_display_text_partial [97] (by rw [← utf8Valid_iff]; decide +kernel) [[0xC3, 0xA4]]
    (fun l hl => by rw [List.mem_singleton.mp hl, ← utf8Valid_iff]; decide +kernel)

/-- C104: what the setters of the header write into the bit field fits into it, so that they do not panic. -/
theorem C104_codes_fit (o : OpCode) (c : ResponseCode) : o.toU8.toNat < 2 ^ 4 ∧ c.toU8.toNat < 2 ^ 4 := by
  cases o <;> cases c <;> decide

/-- A machine with the memory at the address 1. -/
def oddMachine (bigEndian : Bool) : Machine := ⟨bigEndian, fun n => (1, n)⟩

/-- C104 is false: writing any packet is undefined if the allocator returns an odd address; showing the name of
a question that was read from a message is undefined. -/
theorem C104_counterexample :
    (∀ (cfg : Cfg) (p : Packet) (e : Bool), (∀ r ∈ records p, SetsOk r.rdata) → Roomy (oddMachine e) ∧
      p.toBytesRaw (oddMachine e) cfg = .ub .unaligned) ∧
    ∃ p q, Packet.parse ⟨true, true, true⟩ [0, 1, 0, 0, 0, 1, 0, 0, 0, 0, 0, 0, 1, 0xFF, 0, 0, 1, 0, 1] = .ok p ∧
      q ∈ p.questions ∧ q.qName.displayRaw = .ub .utf8 := by
  refine ⟨fun cfg p e hs => ⟨fun n => Nat.le_refl _, ?_⟩, ?_⟩
  · obtain ⟨n, h1, h2⟩ := packetSize_ok (cfg := cfg) hs
    unfold Packet.toBytesRaw
    rw [h1]
    simp only
    rw [headerRaw_odd _ p n h2 (by decide : 1 % 2 ≠ 0)]
    rfl
  · exact ⟨⟨⟨1, ⟨0, 0⟩, 1, 0, 0, 0⟩, [⟨[[0xFF]], .rr .A, .IN, false⟩], [], [], []⟩, ⟨[[0xFF]], .rr .A, .IN, false⟩,
      by decide +kernel, List.mem_singleton.mpr rfl, by decide +kernel⟩

/-- A machine with the memory at the address 4096, and text with an umlaut and a label appended. -/
example : Roomy ⟨false, fun n => (4096, n + 3)⟩ ∧ (∀ r ∈ records exPacket, SetsOk r.rdata) ∧
    (∀ n, ((Machine.alloc ⟨false, fun n => (4096, n + 3)⟩) n).1 % 2 = 0) ∧
    exPacket.toBytesRaw ⟨false, fun n => (4096, n + 3)⟩ ⟨true, true, true⟩ = .ok (exPacket.toBytes ⟨true, true, true⟩) := by
  exact ⟨fun n => Nat.le_add_right _ _, fun r hr => Spec.Writable.sets (exPacket_ok.2.1 r hr).2.2.2.2.2.2.1,
    fun _ => (by decide : 4096 % 2 = 0), by decide +kernel⟩
example : IsUtf8 [0xC3, 0xA4, 0x2E, 99] ∧ IsUtf8 [97] ∧
    ([[97]].foldl Fqdn.appendLabel (Fqdn.new [0xC3, 0xA4, 0x2E, 99])).displayRaw =
      .ok [0xC3, 0xA4, 0x2E, 99, 0x2E, 97] := by
  simp only [← utf8Valid_iff]
  decide +kernel

end Dns
