import Verif.Props.Append
import Verif.Props.Compression

/-
C93: names that are repeated are compressed.
-/

namespace Dns
open Spec Buf

/-- The names of a question or a record that may be compressed: the owner name, and the names in the data
of the types of RFC 1035. -/
def Part.names : Part → List Fqdn
  | .question q => [q.qName]
  | .record r => r.name :: if mayCompress r.rdata.type then rdataNames r.rdata else []

/-- `k` octets are as few as possible for `n` if the names `seen` have been written: only the labels in
front of the part that one of those names ends with are written, and two octets. -/
def Short (seen : List Fqdn) (n : Fqdn) (k : Nat) : Prop :=
  ∀ front rest : Fqdn, n = front ++ rest → rest ≠ [] → (∃ m ∈ seen, rest <:+ m) →
    k ≤ (front.map (fun l => l.length + 1)).sum + 2

/-- Octets `d` of record data in which all names are `Short`. -/
def ShortData (cfg : Cfg) (seen : List Fqdn) (r : RecordData) (d : Bytes) : Prop :=
  match r with
  | .NS r => Short seen r.nsdname d.length
  | .CNAME r => Short seen r.cname d.length
  | .PTR r => Short seen r.ptrdname d.length
  | .MX r => ∃ k, d.length = 2 + k ∧ Short seen r.exchange k
  | .SOA r => ∃ k l, d.length = k + l + 20 ∧ Short seen r.mname k ∧ Short (seen ++ [r.mname]) r.rname l
  | .MINFO r => ∃ k l, d.length = k + l ∧ Short seen r.rmailbx k ∧ Short (seen ++ [r.rmailbx]) r.emailbx l
  | .SRV r => ∃ k, d.length = 6 + k ∧ Short seen r.target k
  | .NAPTR r => ∃ k, d.length = 7 + r.flags.length + r.service.length + r.regexp.length + k ∧
      Short seen r.replacement k
  | .NSEC r => ∃ k t, d.length = k + t ∧ Short seen r.nextDomainName k ∧
      ∀ b, RecordData.toBytes cfg (.NSEC r) = .ok b → b.length = r.nextDomainName.byteSize + t
  | r => r.toBytes cfg = .ok d

/-- Octets of a question or a record in which all names are `Short`. -/
def Part.ShortOctets (cfg : Cfg) (seen : List Fqdn) (x : Part) (b : Bytes) : Prop :=
  match x with
  | .question q => ∃ n c, b = n ++ octets16 (UInt16.ofNat (qtypeNumber q.qType)) ++ octets16 c ∧
      Short seen q.qName n.length
  | .record r => ∃ n c d, b = n ++ octets16 (UInt16.ofNat (typeNumber r.type)) ++ octets16 c ++ octets32 r.ttl ++
        octets16 (UInt16.ofNat d.length) ++ d ∧
      Short seen r.name n.length ∧ ShortData cfg (seen ++ [r.name]) r.rdata d

/-- Every ending of the names is in the map. -/
def Knows (h : Hash) (seen : List Fqdn) (m : Names) : Prop :=
  ∀ n ∈ seen, ∀ s, s <:+ n → s ≠ [] → m (h s) ≠ none

theorem Knows.short {h : Hash} {seen : List Fqdn} {m : Names} (hk : Knows h seen m) :
    ∀ (n : Fqdn) (m' : Names) (off : Nat), (∀ k, m k ≠ none → m' k ≠ none) →
      Short seen n (n.toBytesCompressed h m' off).1.length := by
  intro n
  induction n with
  | nil => intro m' off _ front rest e hr; simp at e; exact absurd e.2 hr
  | cons l n ih =>
    intro m' off hm front rest e hr hs
    unfold Fqdn.toBytesCompressed
    cases hx : m' (h (l :: n)) with
    | some o => simp [u16be, toBE]
    | none =>
      cases front with
      | nil =>
        obtain ⟨s, hs1, hs2⟩ := hs
        exact absurd hx (hm _ (hk s hs1 _ (by rw [List.nil_append] at e; rw [e]; exact hs2) (by simp)))
      | cons f front =>
        rw [List.cons_append] at e
        obtain ⟨rfl, rfl⟩ := List.cons.inj e
        have := ih (m'.insert (h (l :: (front ++ rest))) off) (off + (l.length + 1))
          (fun k hk => by unfold Names.insert; split <;> simp [hm k hk]) front rest rfl hr hs
        simp only [List.length_cons, List.length_append, List.map_cons, List.sum_cons]
        omega

theorem name_grows (h : Hash) : ∀ (n : Fqdn) (m : Names) (off : Nat),
    (∀ k, m k ≠ none → (n.toBytesCompressed h m off).2 k ≠ none) := by
  intro n
  induction n with
  | nil => intro m off k hk; exact hk
  | cons l n ih =>
    intro m off k hk
    unfold Fqdn.toBytesCompressed
    split
    · exact hk
    · exact ih _ _ _ (by unfold Names.insert; split <;> simp [hk])

/-- The map has the endings of everything in it, apart from `x`. -/
def ClosedBut (h : Hash) (U : Fqdn → Prop) (x : Fqdn) (m : Names) : Prop :=
  ∀ l ls, U (l :: ls) → m (h (l :: ls)) ≠ none → ls = [] ∨ ls = x ∨ m (h ls) ≠ none

/-- The map has the endings of everything in it. -/
def Closed (h : Hash) (U : Fqdn → Prop) (m : Names) : Prop := ClosedBut h U [] m

section
variable {U : Fqdn → Prop} {h : Hash} (hU : TailClosed U) (hi : InjOn U h)
include hU

theorem Closed.suffix {m : Names} (hc : Closed h U m) : ∀ {n s : Fqdn}, U n → m (h n) ≠ none → s <:+ n →
    s ≠ [] → m (h s) ≠ none := by
  intro n
  induction n with
  | nil => intro s _ _ hs hne; exact absurd (List.suffix_nil.mp hs) hne
  | cons l n ih =>
    intro s hn hm hs hne
    rcases List.suffix_cons_iff.mp hs with rfl | hs
    · exact hm
    · rcases hc l n hn hm with rfl | rfl | hx
      · exact absurd (List.suffix_nil.mp hs) hne
      · exact absurd (List.suffix_nil.mp hs) hne
      · exact ih (hU _ _ hn) hx hs hne

include hi

theorem name_closed : ∀ (n : Fqdn) (m : Names) (off : Nat), U n → ClosedBut h U n m →
    Closed h U (n.toBytesCompressed h m off).2 ∧
      ∀ s, s <:+ n → s ≠ [] → (n.toBytesCompressed h m off).2 (h s) ≠ none := by
  intro n
  induction n with
  | nil =>
    intro m off _ hc
    exact ⟨hc, fun s hs hne => absurd (List.suffix_nil.mp hs) hne⟩
  | cons l n ih =>
    intro m off hn hc
    unfold Fqdn.toBytesCompressed
    cases hx : m (h (l :: n)) with
    | some o =>
      have hx' : m (h (l :: n)) ≠ none := by rw [hx]; simp
      have hc' : Closed h U m := by
        intro a b hab hm
        rcases hc a b hab hm with h1 | rfl | h1
        · exact .inl h1
        · exact .inr (.inr hx')
        · exact .inr (.inr h1)
      exact ⟨hc', fun s hs hne => hc'.suffix hU hn hx' hs hne⟩
    | none =>
      have hins : ∀ k, m k ≠ none → (m.insert (h (l :: n)) off) k ≠ none := by
        intro k hk; unfold Names.insert; split <;> simp [hk]
      have hself : (m.insert (h (l :: n)) off) (h (l :: n)) ≠ none := by simp [Names.insert]
      have hc' : ClosedBut h U n (m.insert (h (l :: n)) off) := by
        intro a b hab hm
        by_cases he : h (a :: b) = h (l :: n)
        · obtain ⟨rfl, rfl⟩ := List.cons.inj (hi _ _ hab hn he)
          exact .inr (.inl rfl)
        · have hm' : m (h (a :: b)) ≠ none := by
            rw [Names.insert, if_neg he] at hm; exact hm
          rcases hc a b hab hm' with h1 | rfl | h1
          · exact .inl h1
          · exact .inr (.inr hself)
          · exact .inr (.inr (hins _ h1))
      obtain ⟨h1, h2⟩ := ih _ (off + (l.length + 1)) (hU _ _ hn) hc'
      refine ⟨h1, fun s hs hne => ?_⟩
      rcases List.suffix_cons_iff.mp hs with rfl | hs
      · exact name_grows h n _ _ _ hself
      · exact h2 s hs hne

end

/-- What is known of the map when the names `seen` have been written. -/
structure Seen (h : Hash) (U : Fqdn → Prop) (seen : List Fqdn) (m : Names) : Prop where
  closed : Closed h U m
  knows : Knows h seen m

theorem Seen.empty (h : Hash) (U : Fqdn → Prop) : Seen h U [] Names.empty :=
  ⟨fun _ _ _ hm => absurd rfl hm, fun _ hn => absurd hn (by simp)⟩

section
variable {U : Fqdn → Prop} {h : Hash} (hU : TailClosed U) (hi : InjOn U h)
include hU hi

theorem Seen.name {seen : List Fqdn} {m : Names} (hs : Seen h U seen m) (n : Fqdn) (hn : U n) (off : Nat) :
    Short seen n (n.toBytesCompressed h m off).1.length ∧
      Seen h U (seen ++ [n]) (n.toBytesCompressed h m off).2 := by
  have hc : ClosedBut h U n m := by
    intro a b hab hm
    rcases hs.closed a b hab hm with h1 | rfl | h1
    · exact .inl h1
    · exact .inl rfl
    · exact .inr (.inr h1)
  obtain ⟨h1, h2⟩ := name_closed hU hi n m off hn hc
  refine ⟨hs.knows.short n m off (fun _ hk => hk), h1, fun x hx s hsx hne => ?_⟩
  rcases List.mem_append.mp hx with hx | hx
  · exact name_grows h n m off _ (hs.knows x hx s hsx hne)
  · rw [List.mem_singleton] at hx
    subst hx
    exact h2 s hsx hne

omit hU hi in
theorem Seen.mono {seen seen' : List Fqdn} {m : Names} (hs : Seen h U seen m) 
    (hsub : ∀ n ∈ seen', n ∈ seen) :
    Seen h U seen' m := ⟨hs.closed, fun n hn => hs.knows n 
    (hsub n hn)⟩

theorem Seen.data {seen : List Fqdn} {m : Names} (hs : Seen h U seen m) (cfg : Cfg) (r : RecordData)
    (hr : ∀ n ∈ rdataNames r, U n) (off : Nat) (b : Bytes × Names)
    (hb : r.toBytesCompressed cfg h m off = .ok b) :
    ShortData cfg seen r b.1 ∧ Seen h U (seen ++ if mayCompress r.type then rdataNames r else []) b.2 := by
  cases r
  case NS r => cases hb; exact hs.name hU hi _ (hr _ (by simp [rdataNames])) off
  case CNAME r => cases hb; exact hs.name hU hi _ (hr _ (by simp [rdataNames])) off
  case PTR r => cases hb; exact hs.name hU hi _ (hr _ (by simp [rdataNames])) off
  case MX r =>
    cases hb
    have := hs.name hU hi r.exchange (hr _ (by simp [rdataNames])) (off + 2)
    exact ⟨⟨_, by simp [Mx.toBytesCompressed, u16be, toBE]; omega, this.1⟩, this.2⟩
  case SOA r =>
    cases hb
    have h1 := hs.name hU hi r.mname (hr _ (by simp [rdataNames])) off
    have h2 := h1.2.name hU hi r.rname (hr _ (by simp [rdataNames]))
      (off + (r.mname.toBytesCompressed h m off).1.length)
    refine ⟨⟨_, _, ?_, h1.1, h2.1⟩, ?_⟩
    · simp [Soa.toBytesCompressed, u32be, toBE]; omega
    · simpa [mayCompress, RecordData.type, rdataNames, Soa.toBytesCompressed] using h2.2
  case MINFO r =>
    cases hb
    have h1 := hs.name hU hi r.rmailbx (hr _ (by simp [rdataNames])) off
    have h2 := h1.2.name hU hi r.emailbx (hr _ (by simp [rdataNames]))
      (off + (r.rmailbx.toBytesCompressed h m off).1.length)
    refine ⟨⟨_, _, ?_, h1.1, h2.1⟩, ?_⟩
    · simp [Minfo.toBytesCompressed]
    · simpa [mayCompress, RecordData.type, rdataNames, Minfo.toBytesCompressed] using h2.2
  case SRV r =>
    cases hb
    have := hs.name hU hi r.target (hr _ (by simp [rdataNames])) (off + 6)
    exact ⟨⟨_, by simp [Srv.toBytesCompressed, u16be, toBE]; omega, this.1⟩,
      this.2.mono (by simp [mayCompress, RecordData.type]; tauto)⟩
  case NAPTR r =>
    cases hb
    have := hs.name hU hi r.replacement (hr _ (by simp [rdataNames])) (off + r.headBytes.length)
    exact ⟨⟨_, by simp [Naptr.toBytesCompressed, Naptr.headBytes, u16be, toBE]; omega, this.1⟩,
      this.2.mono (by simp [mayCompress, RecordData.type]; tauto)⟩
  case NSEC r =>
    simp only [RecordData.toBytesCompressed, Nsec.toBytesCompressed, Res.bind_eq_ok, Res.pure_eq, Res.ok.injEq] at hb
    obtain ⟨x, hx, rfl⟩ := hb
    have := hs.name hU hi r.nextDomainName (hr _ (by simp [rdataNames])) off
    refine ⟨⟨_, x.length, by simp, this.1, fun b hb => ?_⟩, this.2.mono (by simp [mayCompress, RecordData.type]; tauto)⟩
    simp only [RecordData.toBytes, Nsec.toBytes, Res.bind_eq_ok, Res.pure_eq, Res.ok.injEq, hx] at hb
    obtain ⟨_, _, _, rfl, rfl⟩ := hb
    simp [Fqdn.byteSize_eq]
  case CSYNC r =>
    simp only [RecordData.toBytesCompressed, Res.bind_eq_ok, Res.pure_eq, Res.ok.injEq] at hb
    obtain ⟨x, hx, rfl⟩ := hb
    exact ⟨hx, hs.mono (by simp [mayCompress, RecordData.type])⟩
  case SVCB r =>
    simp only [RecordData.toBytesCompressed, Res.bind_eq_ok, Res.pure_eq, Res.ok.injEq] at hb
    obtain ⟨x, hx, rfl⟩ := hb
    exact ⟨hx, hs.mono (by simp [mayCompress, RecordData.type])⟩
  all_goals
    cases hb
    exact ⟨rfl, hs.mono (by simp [mayCompress, RecordData.type])⟩

theorem Seen.part {seen : List Fqdn} {m : Names} (hs : Seen h U seen m) (cfg : Cfg) (x : Part)
    (hx : match x with | .question q => U q.qName | .record r => U r.name ∧ ∀ n ∈ rdataNames r.rdata, U n)
    (off : Nat) (b : Bytes × Names) (hb : x.toBytesCompressed cfg h m off = .ok b) :
    x.ShortOctets cfg seen b.1 ∧ Seen h U (seen ++ x.names) b.2 := by
  cases x with
  | question q =>
    cases hb
    have := hs.name hU hi q.qName hx off
    exact ⟨⟨_, q.classBits cfg, by simp [Question.toBytesCompressed, u16be_eq, QType.toU16_eq], this.1⟩, this.2⟩
  | record r =>
    simp only [Part.toBytesCompressed, ResourceRecord.toBytesCompressed, Res.bind_eq_ok, Res.pure_eq,
      Res.ok.injEq] at hb
    obtain ⟨d, hd, rfl⟩ := hb
    have h1 := hs.name hU hi r.name hx.1 off
    have h2 := h1.2.data hU hi cfg r.rdata hx.2 _ d hd
    refine ⟨⟨_, r.classBits cfg, d.1, ?_, h1.1, h2.1⟩, ?_⟩
    · simp [ResourceRecord.headCompressed, u16be_eq, u32be_eq, lenU16, RecordType.toU16_eq]
    · simpa [Part.names] using h2.2

theorem Seen.parts (cfg : Cfg) : ∀ (xs : List Part) {seen : List Fqdn} {m : Names}, Seen h U seen m →
    (∀ x ∈ xs, match x with | .question q => U q.qName | .record r => U r.name ∧ ∀ n ∈ rdataNames r.rdata, U n) →
    ∀ (off : Nat) (b : Bytes × Names), partsCompressed cfg h xs m off = .ok b →
      Seen h U (seen ++ xs.flatMap Part.names) b.2 := by
  intro xs
  induction xs with
  | nil => intro seen m hs _ off b hb; cases hb; simpa using hs
  | cons x xs ih =>
    intro seen m hs hx off b hb
    simp only [partsCompressed, Res.bind_eq_ok, Res.pure_eq, Res.ok.injEq] at hb
    obtain ⟨y, hy, z, hz, rfl⟩ := hb
    have h1 := hs.part hU hi cfg x (hx x (by simp)) off y hy
    have h2 := ih h1.2 (fun x' hx' => hx x' (by simp [hx'])) _ z hz
    simpa using h2

end

/-- C93: a name that ends like a name written before (a question's name, an owner name, or a name in the
data of a record of a type of RFC 1035) takes two octets for this end in the compressed form.  More
precisely, if a packet `q` has one more question or record `x` than `p`, then its compressed form has
some more octets than that of `p`, and these consist of the ten octets for type, class, time to live and
length (four for a question) and the octets for the name, for which this holds, and the data; and if the
data consist of names, it holds for these too. -/
theorem C93_repeated_names (cfg : Cfg) (h : Hash) (p q : Packet) (x : Part) (hq : parts q = parts p ++ [x])
    (hc : NoCollision h (packetNames q)) (a b : Bytes) (ha : p.toBytesCompressed cfg h = .ok a)
    (hb : q.toBytesCompressed cfg h = .ok b) :
    ∃ e, b.drop 12 = a.drop 12 ++ e ∧ x.ShortOctets cfg ((parts p).flatMap Part.names) e := by
  have hall : ∀ x ∈ parts q, match x with
      | .question q' => SuffixOf (packetNames q) q'.qName
      | .record r => SuffixOf (packetNames q) r.name ∧ ∀ n ∈ rdataNames r.rdata, SuffixOf (packetNames q) n := by
    intro x hx
    unfold parts at hx
    rcases List.mem_append.mp hx with hx | hx <;> obtain ⟨y, hy, rfl⟩ := List.mem_map.mp hx
    · exact ⟨_, by simp only [packetNames, List.mem_append, List.mem_map]; exact .inl ⟨y, hy, rfl⟩, List.suffix_refl _⟩
    · refine ⟨⟨_, ?_, List.suffix_refl _⟩, fun n hn => ⟨_, ?_, List.suffix_refl _⟩⟩ <;>
        simp only [packetNames, List.mem_append, List.mem_flatMap]
      · exact .inr ⟨y, by simpa [records] using hy, by simp⟩
      · exact .inr ⟨y, by simpa [records] using hy, by simp [hn]⟩
  rw [hq] at hall
  rw [toBytesCompressed_parts] at ha hb
  rw [hq, partsCompressed_append] at hb
  simp only [Res.bind_eq_ok, Res.pure_eq, Res.ok.injEq] at ha hb
  obtain ⟨u, h1, rfl⟩ := ha
  obtain ⟨_, ⟨u', h1', v, h2, rfl⟩, rfl⟩ := hb
  rw [h1] at h1'
  cases h1'
  have hs := (Seen.empty h (SuffixOf (packetNames q))).parts (suffixOf_tailClosed _) hc cfg (parts p)
    (fun y hy => hall y (List.mem_append_left _ hy)) 12 u h1
  simp only [partsCompressed, Res.bind_eq_ok, Res.pure_eq, Res.ok.injEq] at h2
  obtain ⟨w, hw, _, rfl, rfl⟩ := h2
  have l2 : ∀ p : Packet, p.header.toBytes.length = 12 := fun p => rfl
  rw [List.drop_left' (l2 p), List.drop_left' (l2 q)]
  refine ⟨w.1, by simp, ?_⟩
  have := (hs.part (suffixOf_tailClosed _) hc cfg x (hall x (by simp)) _ w hw).1
  simpa using this

/-- The hypotheses are met: the last record of the packet of the example, whose data end with a name that
was written before, so that seven octets of the name are written as four. -/
example : parts exPacket = parts { exPacket with additional := [] } ++
      [.record ⟨[], .MX, false, .udpPayloadSize 1232, 0, .MX ⟨10, [[109], [97], [98]]⟩⟩] ∧
    NoCollision exHash (packetNames exPacket) ∧
    Res.ok ([0, 0, 15, 4, 208, 0, 0, 0, 0, 0, 6, 0, 10, 1, 109, 192, 12] : Bytes) =
      ((exPacket.toBytesCompressed ⟨true, true, true⟩ exHash).bind fun b =>
        ({ exPacket with additional := [] }.toBytesCompressed ⟨true, true, true⟩ exHash).bind fun a =>
          .ok (b.drop a.length)) := by
  refine ⟨rfl, ?_, by decide +kernel⟩
  have key : ∀ a ∈ (packetNames exPacket).flatMap List.tails, ∀ b ∈ (packetNames exPacket).flatMap List.tails,
      exHash a = exHash b → a = b := by decide +kernel
  rintro a b ⟨n, hn, ha⟩ ⟨m, hm, hb⟩ h
  exact key a (List.mem_flatMap.mpr ⟨n, hn, (List.mem_tails _ _).mpr ha⟩) b
    (List.mem_flatMap.mpr ⟨m, hm, (List.mem_tails _ _).mpr hb⟩) h

end Dns
