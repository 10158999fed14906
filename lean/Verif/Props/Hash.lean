import Mathlib.Data.Fintype.Pigeonhole
import Mathlib.Data.Fintype.BigOperators
import Verif.Props.PacketWire

/-
C83: name compression and the hash function.
-/

namespace Dns
open Spec Buf

/-! ## C83 -/

/-- Two maps have the same entries for the names in `U`. -/
def Agree (U : Fqdn → Prop) (h h' : Hash) (m m' : Names) : Prop := ∀ s, U s → m (h s) = m' (h' s)

/-- The same octets, and maps that agree. -/
def Same (U : Fqdn → Prop) (h h' : Hash) (x y : Bytes × Names) : Prop := x.1 = y.1 ∧ Agree U h h' x.2 y.2

/-- The same for calls that may fail. -/
inductive SameRes (U : Fqdn → Prop) (h h' : Hash) : Res (Bytes × Names) → Res (Bytes × Names) → Prop
  | ok {x y} : Same U h h' x y → SameRes U h h' (.ok x) (.ok y)
  | err e : SameRes U h h' (.err e) (.err e)
  | panic k : SameRes U h h' (.panic k) (.panic k)
  | hang : SameRes U h h' .hang .hang

section
variable {U : Fqdn → Prop} {h h' : Hash} (hU : TailClosed U) (hi : InjOn U h) (hi' : InjOn U h')
include hU hi hi'

theorem name_same : ∀ (n : Fqdn) (m m' : Names) (off : Nat), U n → Agree U h h' m m' →
    Same U h h' (n.toBytesCompressed h m off) (n.toBytesCompressed h' m' off) := by
  intro n
  induction n with
  | nil => intro m m' off _ ha; exact ⟨rfl, ha⟩
  | cons l ls ih =>
    intro m m' off hn ha
    have e := ha _ hn
    unfold Fqdn.toBytesCompressed
    cases hm : m (h (l :: ls)) with
    | some o =>
      rw [hm] at e
      rw [← e]
      exact ⟨rfl, ha⟩
    | none =>
      rw [hm] at e
      rw [← e]
      have ha2 : Agree U h h' (m.insert (h (l :: ls)) off) (m'.insert (h' (l :: ls)) off) := by
        intro s hs
        unfold Names.insert
        by_cases hc : s = l :: ls
        · simp [hc]
        · rw [if_neg (fun x => hc (hi _ _ hs hn x)), if_neg (fun x => hc (hi' _ _ hs hn x))]
          exact ha s hs
      obtain ⟨h1, h2⟩ := ih _ _ (off + (l.length + 1)) (hU _ _ hn) ha2
      exact ⟨by simp only [h1], h2⟩

theorem question_same (cfg : Cfg) (q : Question) (m m' : Names) (off : Nat) (hq : U q.qName)
    (ha : Agree U h h' m m') :
    Same U h h' (q.toBytesCompressed cfg h m off) (q.toBytesCompressed cfg h' m' off) := by
  obtain ⟨h1, h2⟩ := name_same hU hi hi' q.qName m m' off hq ha
  exact ⟨by simp only [Question.toBytesCompressed, h1], h2⟩

theorem rdata_same (cfg : Cfg) (r : RecordData) (m m' : Names) (off : Nat) (hr : ∀ n ∈ rdataNames r, U n)
    (ha : Agree U h h' m m') :
    SameRes U h h' (r.toBytesCompressed cfg h m off) (r.toBytesCompressed cfg h' m' off) := by
  have nm := fun n off hn m m' ha => name_same hU hi hi' n m m' off hn ha
  cases r
  case NS r => exact .ok (nm _ _ (hr _ (by simp [rdataNames])) _ _ ha)
  case CNAME r => exact .ok (nm _ _ (hr _ (by simp [rdataNames])) _ _ ha)
  case PTR r => exact .ok (nm _ _ (hr _ (by simp [rdataNames])) _ _ ha)
  case MX r =>
    obtain ⟨h1, h2⟩ := nm r.exchange (off + 2) (hr _ (by simp [rdataNames])) _ _ ha
    exact .ok ⟨by simp only [Mx.toBytesCompressed, h1], h2⟩
  case SRV r =>
    obtain ⟨h1, h2⟩ := nm r.target (off + 6) (hr _ (by simp [rdataNames])) _ _ ha
    exact .ok ⟨by simp only [Srv.toBytesCompressed, h1], h2⟩
  case NAPTR r =>
    obtain ⟨h1, h2⟩ := nm r.replacement (off + r.headBytes.length) (hr _ (by simp [rdataNames])) _ _ ha
    exact .ok ⟨by simp only [Naptr.toBytesCompressed, h1], h2⟩
  case SOA r =>
    obtain ⟨h1, h2⟩ := nm r.mname off (hr _ (by simp [rdataNames])) _ _ ha
    obtain ⟨h3, h4⟩ := nm r.rname (off + (r.mname.toBytesCompressed h m off).1.length)
      (hr _ (by simp [rdataNames])) _ _ h2
    rw [h1] at h3 h4
    exact .ok ⟨by simp only [Soa.toBytesCompressed, h1, h3], by simp only [Soa.toBytesCompressed, h1]; exact h4⟩
  case MINFO r =>
    obtain ⟨h1, h2⟩ := nm r.rmailbx off (hr _ (by simp [rdataNames])) _ _ ha
    obtain ⟨h3, h4⟩ := nm r.emailbx (off + (r.rmailbx.toBytesCompressed h m off).1.length)
      (hr _ (by simp [rdataNames])) _ _ h2
    rw [h1] at h3 h4
    exact .ok ⟨by simp only [Minfo.toBytesCompressed, h1, h3],
      by simp only [Minfo.toBytesCompressed, h1]; exact h4⟩
  case NSEC r =>
    obtain ⟨h1, h2⟩ := nm r.nextDomainName off (hr _ (by simp [rdataNames])) _ _ ha
    simp only [RecordData.toBytesCompressed, Nsec.toBytesCompressed]
    generalize hx : Bitmap.toBytes cfg r.types = x
    cases x with
    | ok b => exact .ok ⟨by simp only [h1], h2⟩
    | err e => exact .err e
    | panic k => exact .panic k
    | hang => exact .hang
  case CSYNC r =>
    simp only [RecordData.toBytesCompressed]
    generalize r.toBytes cfg = x
    cases x with
    | ok b => exact .ok ⟨rfl, ha⟩
    | err e => exact .err e
    | panic k => exact .panic k
    | hang => exact .hang
  case SVCB r =>
    simp only [RecordData.toBytesCompressed]
    generalize r.toBytes cfg = x
    cases x with
    | ok b => exact .ok ⟨rfl, ha⟩
    | err e => exact .err e
    | panic k => exact .panic k
    | hang => exact .hang
  all_goals exact .ok ⟨rfl, ha⟩

theorem record_same (cfg : Cfg) (r : ResourceRecord) (m m' : Names) (off : Nat) (hn : U r.name)
    (hr : ∀ n ∈ rdataNames r.rdata, U n) (ha : Agree U h h' m m') :
    SameRes U h h' (r.toBytesCompressed cfg h m off) (r.toBytesCompressed cfg h' m' off) := by
  obtain ⟨h1, h2⟩ := name_same hU hi hi' r.name m m' off hn ha
  have h3 : (r.headCompressed cfg h m off).1 = (r.headCompressed cfg h' m' off).1 := by
    simp only [ResourceRecord.headCompressed, h1]
  have h4 : Agree U h h' (r.headCompressed cfg h m off).2 (r.headCompressed cfg h' m' off).2 := h2
  have h5 := rdata_same hU hi hi' cfg r.rdata _ _ (off + (r.headCompressed cfg h' m' off).1.length + 2) hr h4
  simp only [ResourceRecord.toBytesCompressed, h3]
  generalize RecordData.toBytesCompressed cfg h r.rdata _ _ = x at h5 ⊢
  generalize RecordData.toBytesCompressed cfg h' r.rdata _ _ = y at h5 ⊢
  cases h5 with
  | ok h6 => exact .ok ⟨by simp only [h6.1], h6.2⟩
  | err e => exact .err e
  | panic k => exact .panic k
  | hang => exact .hang

theorem questions_same (cfg : Cfg) : ∀ (qs : List Question) (m m' : Names) (bin : Bytes),
    (∀ q ∈ qs, U q.qName) → Agree U h h' m m' →
    Same U h h' (Packet.questionsCompressed cfg h qs m bin) (Packet.questionsCompressed cfg h' qs m' bin) := by
  intro qs
  induction qs with
  | nil => intro m m' bin _ ha; exact ⟨rfl, ha⟩
  | cons q qs ih =>
    intro m m' bin hq ha
    obtain ⟨h1, h2⟩ := question_same hU hi hi' cfg q m m' bin.length (hq q (by simp)) ha
    simp only [Packet.questionsCompressed]
    rw [h1]
    exact ih _ _ _ (fun x hx => hq x (by simp [hx])) h2

theorem records_same (cfg : Cfg) : ∀ (rs : List ResourceRecord) (m m' : Names) (bin : Bytes),
    (∀ r ∈ rs, U r.name ∧ ∀ n ∈ rdataNames r.rdata, U n) → Agree U h h' m m' →
    SameRes U h h' (Packet.recordsCompressed cfg h rs m bin) (Packet.recordsCompressed cfg h' rs m' bin) := by
  intro rs
  induction rs with
  | nil => intro m m' bin _ ha; exact .ok ⟨rfl, ha⟩
  | cons r rs ih =>
    intro m m' bin hr ha
    have h1 := record_same hU hi hi' cfg r m m' bin.length (hr r (by simp)).1 (hr r (by simp)).2 ha
    simp only [Packet.recordsCompressed]
    generalize r.toBytesCompressed cfg h m bin.length = x at h1 ⊢
    generalize r.toBytesCompressed cfg h' m' bin.length = y at h1 ⊢
    cases h1 with
    | ok h6 =>
      rename_i x y
      have := ih x.2 y.2 (bin ++ x.1) (fun x hx => hr x (by simp [hx])) h6.2
      have e := h6.1
      simp only [Res.bind, bind]
      rw [← e]
      exact this
    | err e => exact .err e
    | panic k => exact .panic k
    | hang => exact .hang

end

/-- C83 (partial): the octets written with compression, and whether writing fails, are the same for all
hash functions without collisions on the suffixes of the names of the packet.  What is missing: hash
functions with collisions, for which it is false (`C83_counterexample`). -/
theorem C83_hash_independent_partial (cfg : Cfg) (h h' : Hash) (p : Packet)
    (hh : NoCollision h (packetNames p)) (hh' : NoCollision h' (packetNames p)) :
    p.toBytesCompressed cfg h = p.toBytesCompressed cfg h' := by
  have hU := suffixOf_tailClosed (packetNames p)
  have hq : ∀ q ∈ p.questions, SuffixOf (packetNames p) q.qName := fun q hq =>
    ⟨q.qName, by simp only [packetNames, List.mem_append, List.mem_map]; exact .inl ⟨q, hq, rfl⟩, List.suffix_refl _⟩
  have hr : ∀ r ∈ records p, SuffixOf (packetNames p) r.name ∧
      ∀ n ∈ rdataNames r.rdata, SuffixOf (packetNames p) n := by
    intro r hr
    have : ∀ n ∈ r.name :: rdataNames r.rdata, SuffixOf (packetNames p) n := fun n hn =>
      ⟨n, by simp only [packetNames, List.mem_append, List.mem_flatMap]; exact .inr ⟨r, hr, hn⟩, List.suffix_refl _⟩
    exact ⟨this _ (by simp), fun n hn => this n (by simp [hn])⟩
  obtain ⟨a1, a2⟩ := questions_same hU hh hh' cfg p.questions Names.empty Names.empty p.header.toBytes hq
    (fun _ _ => rfl)
  simp only [Packet.toBytesCompressed]
  rw [← a1]
  have b := records_same hU hh hh' cfg p.answers _ _
    (Packet.questionsCompressed cfg h p.questions Names.empty p.header.toBytes).1
    (fun r hx => hr r (by simp [records, hx])) a2
  generalize Packet.recordsCompressed cfg h p.answers _ _ = x at b ⊢
  generalize Packet.recordsCompressed cfg h' p.answers _ _ = y at b ⊢
  cases b with
  | err e => rfl
  | panic k => rfl
  | hang => rfl
  | ok b =>
    rename_i x y
    have c := records_same hU hh hh' cfg p.authorities _ _ x.1 (fun r hx => hr r (by simp [records, hx])) b.2
    simp only [Res.bind, bind]
    rw [← b.1]
    generalize Packet.recordsCompressed cfg h p.authorities _ _ = x at c ⊢
    generalize Packet.recordsCompressed cfg h' p.authorities _ _ = y at c ⊢
    cases c with
    | err e => rfl
    | panic k => rfl
    | hang => rfl
    | ok c =>
      rename_i x y
      have d := records_same hU hh hh' cfg p.additional _ _ x.1 (fun r hx => hr r (by simp [records, hx])) c.2
      simp only
      rw [← c.1]
      generalize Packet.recordsCompressed cfg h p.additional _ _ = x at d ⊢
      generalize Packet.recordsCompressed cfg h' p.additional _ _ = y at d ⊢
      cases d with
      | err e => rfl
      | panic k => rfl
      | hang => rfl
      | ok d => simp only [pure, d.1]

/-- C83: the packet of the example is written to the same octets for two different hash functions. -/
example : exPacket.toBytesCompressed ⟨true, true, true⟩ exHash =
    exPacket.toBytesCompressed ⟨true, true, true⟩ (fun n => 3 * exHash n + 1) := by decide +kernel

example : NoCollision (fun n => 3 * exHash n + 1) (packetNames exPacket) := by
  have key : ∀ a ∈ (packetNames exPacket).flatMap List.tails, ∀ b ∈ (packetNames exPacket).flatMap List.tails,
      3 * exHash a + 1 = 3 * exHash b + 1 → a = b := by decide +kernel
  rintro a b ⟨n, hn, ha⟩ ⟨m, hm, hb⟩ h
  exact key a (List.mem_flatMap.mpr ⟨n, hn, (List.mem_tails _ _).mpr ha⟩) b
    (List.mem_flatMap.mpr ⟨m, hm, (List.mem_tails _ _).mpr hb⟩) h

/-- The label of 33 letters chosen among `a`, `b`, `c`, `d`. -/
def letters (f : Fin 33 → Fin 4) : Bytes := List.ofFn (fun i => UInt8.ofNat (97 + (f i).val))

theorem letters_injective {f g : Fin 33 → Fin 4} (h : letters f = letters g) : f = g := by
  have h1 := List.ofFn_injective h
  funext i
  have h2 := congrArg UInt8.toNat (congrFun h1 i)
  simp only [UInt8.toNat_ofNat', Nat.reducePow] at h2
  have := (f i).isLt
  have := (g i).isLt
  exact Fin.ext (by omega)

/-- For every hash function there are two names of one label of 33 letters with the same hash. -/
theorem collision (h : Hash) : ∃ f g : Fin 33 → Fin 4, f ≠ g ∧ h [letters f] = h [letters g] := by
  obtain ⟨f, g, h1, h2⟩ := Fintype.exists_ne_map_eq_of_card_lt
    (fun f : Fin 33 → Fin 4 => (⟨(h [letters f]).toNat, (h [letters f]).toNat_lt⟩ : Fin (2 ^ 64))) (by simp)
  exact ⟨f, g, h1, UInt64.toNat_inj.mp (congrArg Fin.val h2)⟩

/-- A query with two questions. -/
def twoQuestions (a b : Bytes) : Packet :=
  ⟨⟨1, ⟨0, 0⟩, 2, 0, 0, 0⟩, [⟨[a], .rr .A, .IN, false⟩, ⟨[b], .rr .A, .IN, false⟩], [], [], []⟩

theorem twoQuestions_ok (cfg : Cfg) (max : Nat) (hm : 63 ≤ max) (f g : Fin 33 → Fin 4) :
    PacketOk cfg max (twoQuestions (letters f) (letters g)) ∧ CountsOk (twoQuestions (letters f) (letters g)) := by
  have hl : ∀ f, (letters f).length = 33 := fun f => List.length_ofFn
  refine ⟨⟨?_, by simp [records, twoQuestions], ?_, ?_, ?_, ?_⟩, ⟨rfl, rfl, rfl, rfl⟩⟩
  · simp only [twoQuestions, List.forall_mem_cons]
    refine ⟨⟨?_, by simp [QReadable, Readable, dnssecTypes], by simp⟩, ⟨?_, by simp [QReadable, Readable, dnssecTypes], by simp⟩, by simp⟩ <;>
    · simp only [NameOk, List.mem_singleton, forall_eq, hl]; omega
  all_goals simp [twoQuestions]

theorem twoQuestions_bytes (cfg : Cfg) (h : Hash) (a b : Bytes) (e : h [a] = h [b]) :
    (twoQuestions a b).toBytesCompressed cfg h = .ok ([0, 1, 0, 0, 0, 2, 0, 0, 0, 0, 0, 0] ++
      lenU8 a.length :: (a ++ [0, 0, 1, 0, 1, 0xC0, 12, 0, 1, 0, 1])) := by
  have e1 : u16be 1 = [0, 1] := by decide
  have e0 : u16be 0 = [0, 0] := by decide
  have e2 : u16be 2 = [0, 2] := by decide
  have ec : u16be (12 ||| 0xC000) = [0xC0, 12] := by decide
  have eq : (⟨[a], .rr .A, .IN, false⟩ : Question).classBits cfg = 1 ∧
      (⟨[b], .rr .A, .IN, false⟩ : Question).classBits cfg = 1 := by
    constructor <;> (simp [Question.classBits]; decide)
  have et : (QType.rr .A).toU16 = 1 := by decide
  simp [Packet.toBytesCompressed, twoQuestions, Packet.questionsCompressed, Question.toBytesCompressed,
    Fqdn.toBytesCompressed, Names.empty, Names.insert, e, Packet.recordsCompressed, Header.toBytes, e0, e1, e2, ec,
    eq, et, bind, Res.bind, pure]

/-- Missing in C83, and in C28 without its hypothesis: for every hash function there is a packet with two
questions about names of 33 lower case letters that is written, and read back as a packet that asks for
the first name twice. -/
theorem C83_counterexample (cfg : Cfg) (h : Hash) : ∃ (p q : Packet) (b : Bytes) (x y : Question),
    PacketOk cfg 63 p ∧ CountsOk p ∧ p.questions = [x, y] ∧ x ≠ y ∧ p.toBytesCompressed cfg h = .ok b ∧
    Packet.parse cfg b = .ok q ∧ q.questions = [x, x] := by
  obtain ⟨f, g, h1, h2⟩ := collision h
  have hl : ∀ f, (letters f).length = 33 := fun f => List.length_ofFn
  obtain ⟨k1, k2⟩ := twoQuestions_ok cfg 63 (by omega) f g
  obtain ⟨k3, k4⟩ := twoQuestions_ok cfg 191 (by omega) f f
  let h0 : Hash := fun n => UInt64.ofNat n.length
  obtain ⟨b, c1, c2⟩ := C28_compressed_round_trip_partial cfg h0 (twoQuestions (letters f) (letters f))
    k3 k4 (by simp [records, twoQuestions]) (by
      rintro a b ⟨n, hn, ha⟩ ⟨m, hm, hb⟩ e
      simp only [packetNames, twoQuestions, records] at hn hm
      simp only [List.map_cons, List.map_nil, List.append_nil, List.flatMap_nil, List.mem_cons, or_self,
        List.not_mem_nil, or_false] at hn hm
      subst hn; subst hm
      simp only [List.suffix_cons_iff, List.suffix_nil] at ha hb
      rcases ha with rfl | rfl <;> rcases hb with rfl | rfl
      · rfl
      · simp [h0] at e
      · simp [h0] at e
      · rfl)
  have e1 := twoQuestions_bytes cfg h0 (letters f) (letters f) rfl
  have e2 := twoQuestions_bytes cfg h (letters f) (letters g) h2
  rw [c1] at e1
  rw [← e1] at e2
  have hb : b.length ≤ 16384 := by cases e1; simp [hl]
  have c3 := (c2 hb []).1
  rw [List.append_nil] at c3
  exact ⟨twoQuestions (letters f) (letters g), twoQuestions (letters f) (letters f), b,
    ⟨[letters f], .rr .A, .IN, false⟩, ⟨[letters g], .rr .A, .IN, false⟩, k1, k2, rfl,
    fun e => h1 (letters_injective (by simpa using e)), e2, c3, rfl⟩

end Dns
