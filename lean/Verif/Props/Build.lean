import Verif.Lemmas.Builds
import Verif.Props.Robust
import Verif.Props.Dnssec
import Verif.Props.Counts
import Verif.Lemmas.Parsed

/-! C84-C86: what the build changes.

A program using the crate is built with or without overflow checks (debug and release profile) and with
or without the features `mdns` and `dnssec`.  The theorems compare the outcomes of the same call in two
builds. -/

namespace Dns
open Spec Buf

/-- The same features with and without overflow checks. -/
def Cfg.debug (cfg : Cfg) : Cfg := { cfg with overflowChecks := true }
def Cfg.release (cfg : Cfg) : Cfg := { cfg with overflowChecks := false }

/-- `debug` and `release` are the outcomes of one call in the two profiles: they are the same, unless
the debug profile stops at an overflow. -/
def SameProfile {α : Type} (debug release : Res α) : Prop := debug = .panic .overflow ∨ release = debug

theorem SameProfile.of {α : Type} {a b : Res α} (h : Res.Agree (fun _ => False) (· = .overflow) id a b) :
    SameProfile a b := by
  rcases h with h | h
  · left
    cases a with
    | ok _ => exact h.elim
    | err _ => exact h.elim
    | panic k => rw [show k = .overflow from h]
    | hang => exact h.elim
  · exact .inr (by rw [h, Res.mapValue_id])

theorem profiles (cfg : Cfg) : Cfg.Agree (fun _ => False) (· = .overflow) cfg.debug cfg.release :=
  .release rfl rfl

/-- C84 is false without the exception: a bitmap of 33 octets for window 255 stops the debug profile,
while the release profile reads the type number 65536 + 1 as the type A; a parameter `mandatory` of odd
length stops the debug profile and is an error in the release profile. -/
theorem C84_counterexample (cfg : Cfg) (hd : cfg.dnssec = true) :
    (∃ p r, Packet.parse cfg.debug (exOne 47 ([0, 255, 33] ++ List.replicate 32 0 ++ [64])) = .panic .overflow ∧
      Packet.parse cfg.release (exOne 47 ([0, 255, 33] ++ List.replicate 32 0 ++ [64])) = .ok p ∧
      p.answers = [r] ∧ r.rdata = .NSEC ⟨[], [.A]⟩) ∧
    Packet.parse cfg.debug (exOne 64 [0, 1, 0, 0, 0, 0, 1, 0, 0]) = .panic .overflow ∧
    Packet.parse cfg.release (exOne 64 [0, 1, 0, 0, 0, 0, 1, 0, 0]) = .err .lengthViolation := by
  obtain ⟨a, b, c⟩ := cfg
  simp only at hd
  subst hd
  refine ⟨⟨⟨⟨1, ⟨0x80, 0⟩, 0, 1, 0, 0⟩, [], [⟨[], .NSEC, false, .IN, 0, .NSEC ⟨[], [.A]⟩⟩], [], []⟩,
    ⟨[], .NSEC, false, .IN, 0, .NSEC ⟨[], [.A]⟩⟩, ?_, ?_, rfl, rfl⟩, ?_, ?_⟩ <;>
  cases a <;> cases b <;> decide +kernel
example := C84_counterexample ⟨true, true, true⟩ rfl

/-- C84: a message is read with the same outcome in both profiles, unless the debug profile stops at an
overflow. -/
theorem C84_parse_partial (cfg : Cfg) (data : Bytes) :
    SameProfile (Packet.parse cfg.debug data) (Packet.parse cfg.release data) :=
  .of (Packet.parse_agree (profiles cfg) rfl data)

/-- C84: the same for the writers and the size. -/
theorem C84_write_partial (cfg : Cfg) (hash : Hash) (p : Packet) :
    SameProfile (p.toBytes cfg.debug) (p.toBytes cfg.release) ∧
    SameProfile (p.toBytesCompressed cfg.debug hash) (p.toBytesCompressed cfg.release hash) ∧
    SameProfile (p.byteSize cfg.debug) (p.byteSize cfg.release) :=
  ⟨.of (Packet.toBytes_agree (profiles cfg).toArith p (fun _ _ => rfl) (fun _ _ => rfl)),
   .of (Packet.toBytesCompressed_agree (profiles cfg).toArith hash p (fun _ _ => rfl) (fun _ _ => rfl)),
   .of (Packet.byteSize_agree (profiles cfg).toArith p)⟩

/-- C84: the same for the calls that change a packet. -/
theorem C84_calls_partial (cfg : Cfg) (p : Packet) (c : PacketCall) :
    SameProfile (c.run cfg.debug p) (c.run cfg.release p) := by
  have h : ∀ n, Res.Agree (fun _ => False) (· = .overflow) id (Packet.incr cfg.debug n)
      (Packet.incr cfg.release n) := fun n => ((profiles cfg).add16 _ _).bind_id fun _ => .refl _
  cases c
  case addQuestion => exact .of ((h _).bind_id fun _ => .refl _)
  case addAnswer => exact .of ((h _).bind_id fun _ => .refl _)
  case addAuthority => exact .of ((h _).bind_id fun _ => .refl _)
  case addAdditional => exact .of ((h _).bind_id fun _ => .refl _)
  all_goals exact .inr rfl

/-- C84: the same for the DNSSEC operations. -/
theorem C84_dnssec_partial (cfg : Cfg) (c : Crypto) (search : Search) (k : DnsKey) (set : RRSet) (r : Rrsig)
    (inception expiration : SysTime) (priv : Bytes) :
    SameProfile (k.computeKeyTag cfg.debug) (k.computeKeyTag cfg.release) ∧
    SameProfile (set.toBytes cfg.debug search) (set.toBytes cfg.release search) ∧
    SameProfile (Rrsig.fromDnsKey cfg.debug c search k set inception expiration priv)
      (Rrsig.fromDnsKey cfg.release c search k set inception expiration priv) ∧
    SameProfile (r.verify cfg.debug c search k set) (r.verify cfg.release c search k set) :=
  ⟨.of (DnsKey.computeKeyTag_agree (profiles cfg).toArith k), .of (RRSet.toBytes_agree (profiles cfg).toArith search set),
   .of (Rrsig.fromDnsKey_agree (profiles cfg).toArith ..), .of (Rrsig.verify_agree (profiles cfg).toArith ..)⟩

/-- C84: both sides of the alternative occur: a message with an answer of type NSEC that is read by both
profiles, and a type list that neither writes as it should: the debug profile stops. -/
example :
    (∃ p, Packet.parse (Cfg.debug ⟨true, true, true⟩) (exOne 47 [0, 0, 1, 64]) = .ok p ∧
      Packet.parse (Cfg.release ⟨true, true, true⟩) (exOne 47 [0, 0, 1, 64]) = .ok p) ∧
    Bitmap.toBytes (Cfg.debug ⟨true, true, true⟩) [.URI, .A] = .panic .overflow ∧
    Bitmap.toBytes (Cfg.release ⟨true, true, true⟩) [.URI, .A] ≠ .panic .overflow :=
  ⟨⟨⟨⟨1, ⟨0x80, 0⟩, 0, 1, 0, 0⟩, [], [⟨[], .NSEC, false, .IN, 0, .NSEC ⟨[], [.A]⟩⟩], [], []⟩,
    by decide +kernel, by decide +kernel⟩, by decide +kernel, by decide +kernel⟩

/-! ### The feature `dnssec` -/

/-- The errors a build without the feature `dnssec` returns for the types it does not know. -/
def UnknownType (e : DnsError) : Prop := ∃ t ∈ dnssecTypes, e = .invalidType t.toU16

/-- C85: what a build without the feature `dnssec` reads is read with the same outcome by a build with
it; only the errors for the types DS, RRSIG, NSEC and DNSKEY may go away. -/
theorem C85_parse (cfg : Cfg) (data : Bytes) :
    Packet.parse { cfg with dnssec := true } data = Packet.parse { cfg with dnssec := false } data ∨
    ∃ e, UnknownType e ∧ Packet.parse { cfg with dnssec := false } data = .err e := by
  rcases Packet.parse_agree (c := { cfg with dnssec := false }) (c' := { cfg with dnssec := true })
    (.dnssec rfl rfl) rfl data with h | h
  · right
    cases hr : Packet.parse { cfg with dnssec := false } data <;> rw [hr] at h
    case err e =>
      obtain ⟨n, hn, rfl⟩ := h
      refine ⟨_, ?_, rfl⟩
      simp only [List.mem_cons, List.not_mem_nil, or_false] at hn
      rcases hn with rfl | rfl | rfl | rfl
      · exact ⟨.DS, by decide, rfl⟩
      · exact ⟨.RRSIG, by decide, rfl⟩
      · exact ⟨.NSEC, by decide, rfl⟩
      · exact ⟨.DNSKEY, by decide, rfl⟩
    all_goals exact h.elim
  · exact .inl (by rw [h, Res.mapValue_id])

/-- C85: both alternatives occur. -/
example :
    (∃ p, Packet.parse ⟨true, true, false⟩ (exOne 1 [127, 0, 0, 1]) = .ok p ∧ p.answers.length = 1) ∧
    Packet.parse ⟨true, true, false⟩ (exOne 47 [0, 0, 1, 64]) = .err (.invalidType 47) ∧
    UnknownType (.invalidType 47) ∧
    (∃ p, Packet.parse ⟨true, true, true⟩ (exOne 47 [0, 0, 1, 64]) = .ok p ∧ p.answers.length = 1) :=
  ⟨Res.exists_ok (by decide +kernel), by decide +kernel, ⟨.NSEC, by decide, rfl⟩, Res.exists_ok (by decide +kernel)⟩

theorem listAt_imp {α : Type} {R S : Nat → α → Nat → Prop} : ∀ {xs : List α} {i j : Nat},
    (∀ i x j, x ∈ xs → R i x j → S i x j) → ListAt R i xs j → ListAt S i xs j
  | [], _, _, _, h => h
  | _ :: _, _, _, h, ⟨k, h1, h2⟩ =>
    ⟨k, h _ _ _ (List.mem_cons_self ..) h1, listAt_imp (fun i y j hm => h i y j (List.mem_cons_of_mem _ hm)) h2⟩

/-- Nothing in the packet is of a type that only the feature `dnssec` knows: no question and no record,
and no type listed in a CSYNC record. -/
structure NoDnssec (p : Packet) : Prop where
  questions : ∀ q ∈ p.questions, ∀ t ∈ dnssecTypes, q.qType ≠ .rr t
  types : ∀ r ∈ records p, r.type ∉ dnssecTypes
  listed : ∀ r ∈ records p, ∀ x, r.rdata = .CSYNC x → ∀ t ∈ x.types, t ∉ dnssecTypes

/-- The data of a record are read alike with and without the feature, if their type is not one of the
feature. -/
theorem parsedData_dnssec {cfg : Cfg} {t : RecordType} {d : Bytes} {k : Nat} {r : RecordData}
    (ht : t ∉ dnssecTypes) (hl : ∀ x, r = .CSYNC x → ∀ t ∈ x.types, t ∉ dnssecTypes) :
    ParsedData { cfg with dnssec := true } t d k r → ParsedData { cfg with dnssec := false } t d k r := by
  rintro ⟨e, h⟩
  refine ⟨e, ?_⟩
  by_cases hc : t = .CSYNC
  · subst hc
    have hr := RecordData.parse_type h
    cases r <;> cases hr
    rename_i x
    obtain ⟨_, its, ⟨ws, h1, h2, h3⟩, h4⟩ := (RecordData.parse_ok (by trivial)).mp h
    refine (RecordData.parse_ok (by trivial)).mpr ⟨rfl, its, ⟨ws, h1, h2, h3.sorted, ?_, h3.bits, h3.small⟩, h4⟩
    intro t ht
    exact ⟨(h3.known t ht).1, (h3.known t ht).2.1, fun hm => absurd hm (hl x rfl t ht)⟩
  · have hs : Cfg.Arith (fun _ => False) (fun _ => False) { cfg with dnssec := true } { cfg with dnssec := false } :=
      .same rfl
    cases t
    case CSYNC => exact absurd rfl hc
    case NSEC => exact absurd (by decide) ht
    case RRSIG => exact absurd (by decide) ht
    case SVCB =>
      rcases Svcb.parse_agree hs d k with h1 | h1
      · revert h1
        generalize (Svcb.parse { cfg with dnssec := true } d k).1 = r
        intro h1
        cases r <;> exact h1.elim
      · simp only [RecordData.parse, Parser.bind_ok, Parser.pure_ok] at h ⊢
        rw [h1, Res.mapValue_id]
        exact h
    all_goals (simp only [RecordData.parse] at h ⊢; exact h)

/-- C85: the packets a build without the feature reads are the ones a build with it reads in which
nothing is of the types of the feature. -/
theorem C85_parse_iff (cfg : Cfg) (data : Bytes) (p : Packet) :
    Packet.parse { cfg with dnssec := false } data = .ok p ↔
      Packet.parse { cfg with dnssec := true } data = .ok p ∧ NoDnssec p := by
  constructor
  · intro h
    constructor
    · rcases C85_parse cfg data with h1 | ⟨e, _, h1⟩
      · rw [h1, h]
      · rw [h] at h1; cases h1
    obtain ⟨e, _, _, _, _, i1, i2, i3, i4, _, hq, ha, hu, hd⟩ := Packet.parse_ok.mp h
    have hr : ∀ r ∈ records p, ∃ i j, RecordAtWith (ParsedData { cfg with dnssec := false }) Decodes
        { cfg with dnssec := false } data i r j := by
      intro r hr
      simp only [records, List.mem_append] at hr
      rcases hr with (hr | hr) | hr
      · exact listAt_mem ha hr
      · exact listAt_mem hu hr
      · exact listAt_mem hd hr
    refine ⟨?_, ?_, ?_⟩
    · intro q hm t ht hx
      obtain ⟨a, b, h5, _⟩ := listAt_mem hq hm
      rw [hx] at h5
      cases h5.2.2 ht
    · intro r hm ht
      obtain ⟨a, b, h5, _⟩ := hr r hm
      cases h5.2.2 ht
    · intro r hm x hx t ht hn
      obtain ⟨a, b, _, _, _, _, k, _, _, _, _, e, he⟩ := hr r hm
      rw [hx] at he
      have hy := RecordData.parse_type he
      rw [← hy] at he
      obtain ⟨_, its, ⟨ws, _, _, h3⟩, _⟩ := (RecordData.parse_ok (by trivial)).mp he
      cases (h3.known t ht).2.2 hn
  · rintro ⟨h, hn⟩
    obtain ⟨e, h1, h2, h3, h4, i1, i2, i3, i4, hh, hq, ha, hu, hd⟩ := Packet.parse_ok.mp h
    have hq' : ∀ i q j, q ∈ p.questions → QuestionAt Decodes { cfg with dnssec := true } data i q j →
        QuestionAt Decodes { cfg with dnssec := false } data i q j := by
      rintro i q j hm ⟨h5, h6⟩
      refine ⟨?_, h6⟩
      have := hn.questions q hm
      revert h5 this
      cases q.qType with
      | rr t => exact fun h5 h7 => ⟨h5.1, h5.2.1, fun h8 => absurd rfl (h7 t h8)⟩
      | _ => exact fun _ _ => trivial
    have hr' : ∀ i r j, r ∈ records p → RecordAtWith (ParsedData { cfg with dnssec := true }) Decodes
          { cfg with dnssec := true } data i r j →
        RecordAtWith (ParsedData { cfg with dnssec := false }) Decodes { cfg with dnssec := false } data i r j := by
      rintro i r j hm ⟨h5, h6, v, len, k, h7, h8, h9, h10, h11⟩
      exact ⟨⟨h5.1, h5.2.1, fun h8 => absurd h8 (hn.types r hm)⟩, h6, v, len, k, h7, h8, h9, h10,
        parsedData_dnssec (hn.types r hm) (hn.listed r hm) h11⟩
    refine Packet.parse_ok.mpr ⟨e, h1, h2, h3, h4, i1, i2, i3, i4, hh, listAt_imp hq' hq, listAt_imp ?_ ha,
      listAt_imp ?_ hu, listAt_imp ?_ hd⟩
    all_goals exact fun i r j hm => hr' i r j (by simp [records, hm])

/-- C85: a packet with a question for DS is not one of them, one with a list of the types A and MX is. -/
example : ¬ NoDnssec ⟨.default, [⟨[], .rr .DS, .IN, false⟩], [], [], []⟩ ∧
    NoDnssec ⟨.default, [⟨[], .rr .A, .IN, false⟩], [⟨[], .CSYNC, false, .IN, 0, .CSYNC ⟨1, ⟨3⟩, [.A, .MX]⟩⟩], [], []⟩ :=
  ⟨fun h => h.questions _ (List.mem_singleton.mpr rfl) .DS (by decide) rfl,
   ⟨by decide, by decide, by
      intro r hr x hx
      rw [List.mem_singleton.mp hr] at hx
      cases hx
      decide⟩⟩

/-- C85: the writers do not depend on the feature. -/
theorem C85_write (cfg : Cfg) (hash : Hash) (p : Packet) :
    p.toBytes { cfg with dnssec := true } = p.toBytes { cfg with dnssec := false } ∧
    p.toBytesCompressed { cfg with dnssec := true } hash = p.toBytesCompressed { cfg with dnssec := false } hash ∧
    p.byteSize { cfg with dnssec := true } = p.byteSize { cfg with dnssec := false } := by
  have h : Cfg.Arith (fun _ => False) (fun _ => False) { cfg with dnssec := false } { cfg with dnssec := true } :=
    .same rfl
  exact ⟨(Packet.toBytes_agree h p (fun _ _ => rfl) (fun _ _ => rfl)).eq,
    (Packet.toBytesCompressed_agree h hash p (fun _ _ => rfl) (fun _ _ => rfl)).eq, (Packet.byteSize_agree h p).eq⟩

/-! ### The feature `mdns` -/

/-- What a packet contains for a program that does not know the two bits of multicast DNS. -/
def withoutBits (p : Packet) : Packet :=
  { p with
    questions := p.questions.map fun q => { q with unicastResponse := false }
    answers := p.answers.map fun r => { r with cacheFlush := false }
    authorities := p.authorities.map fun r => { r with cacheFlush := false }
    additional := p.additional.map fun r => { r with cacheFlush := false } }

theorem withoutBits_eq : withoutBits = Packet.seen true := by
  funext p
  simp [withoutBits, Packet.seen, Question.seen, ResourceRecord.seen]

/-- C86: a build without the feature `mdns` reads from a message what a build with it reads, without the
two bits; in particular both return the same errors, and panic or hang for the same messages. -/
theorem C86_parse (cfg : Cfg) (data : Bytes) :
    Packet.parse { cfg with mdns := false } data =
      (Packet.parse { cfg with mdns := true } data).mapValue withoutBits := by
  have h : Cfg.Agree (fun _ => False) (fun _ => False) { cfg with mdns := true } { cfg with mdns := false } :=
    .same rfl rfl
  have hq : Parser.Agree (fun _ => False) (fun _ => False) (Question.seen true)
      (Question.parse { cfg with mdns := true }) (Question.parse { cfg with mdns := false }) := by
    refine .bind_same fun n => .bind_same fun t => (Parser.Agree.lift (QType.ofU16_agree h _)).bind_id fun t =>
      .bind_same fun v => ?_
    simp only [if_true, Bool.false_eq_true, if_false]
    split
    · have : QClass.ofU16 v = QClass.ofU16 (v &&& ~~~0x8000) := by
        unfold QClass.ofU16
        have : v &&& ~~~0x8000 &&& 0x7FFF = v &&& 0x7FFF := by rw [UInt16.and_assoc]; rfl
        rw [this]
      rw [this]
      exact .bind_same fun c => .pure _
    · exact .bind_same fun c => .pure _
  have hc : Parser.Agree (fun _ => False) (fun _ => False) (fun x => (x.1, if true then false else x.2))
      (ResourceRecord.parseClass { cfg with mdns := true }) (ResourceRecord.parseClass { cfg with mdns := false }) := by
    refine .bind_same fun v => ?_
    simp only [if_true, Bool.false_eq_true, if_false]
    split
    · have : RecordClass.ofU16 v = RecordClass.ofU16 (v &&& ~~~0x8000) := by
        unfold RecordClass.ofU16
        have : v &&& ~~~0x8000 &&& 0x7FFF = v &&& 0x7FFF := by rw [UInt16.and_assoc]; rfl
        rw [this]
      rw [this]
      exact .pure _
    · exact .pure _
  rw [withoutBits_eq]
  rcases Packet.parseBuf_agree_of h hq hc data 0 with h | h
  · revert h
    generalize (Packet.parseBuf { cfg with mdns := true } data 0).1 = r
    intro h
    cases r <;> exact h.elim
  · simp only [Packet.parse, h]

/-- C86: a packet in which the two bits are not set is written to the same octets in both builds. -/
theorem C86_write (cfg : Cfg) (hash : Hash) (p : Packet) (hp : withoutBits p = p) :
    p.toBytes { cfg with mdns := true } = p.toBytes { cfg with mdns := false } ∧
    p.toBytesCompressed { cfg with mdns := true } hash = p.toBytesCompressed { cfg with mdns := false } hash := by
  have h : Cfg.Arith (fun _ => False) (fun _ => False) { cfg with mdns := false } { cfg with mdns := true } :=
    .same rfl
  have hq : ∀ x ∈ p.questions, x.unicastResponse = false := by
    rw [← hp]
    intro x hx
    obtain ⟨y, _, rfl⟩ := List.mem_map.mp hx
    rfl
  have hr : ∀ x ∈ p.answers ++ p.authorities ++ p.additional, x.cacheFlush = false := by
    rw [← hp]
    intro x hx
    rw [List.mem_append, List.mem_append] at hx
    rcases hx with (hx | hx) | hx <;> obtain ⟨y, _, rfl⟩ := List.mem_map.mp hx <;> rfl
  have hq' : ∀ x ∈ p.questions, x.classBits { cfg with mdns := true } = x.classBits { cfg with mdns := false } := by
    intro x hx; simp [Question.classBits, hq x hx]
  have hr' : ∀ x ∈ p.answers ++ p.authorities ++ p.additional,
      x.classBits { cfg with mdns := true } = x.classBits { cfg with mdns := false } := by
    intro x hx; simp [ResourceRecord.classBits, hr x hx]
  exact ⟨(Packet.toBytes_agree h p hq' hr').eq, (Packet.toBytesCompressed_agree h hash p hq' hr').eq⟩
example (cfg : Cfg) : Packet.toBytes { cfg with mdns := true } ⟨.default, [⟨[[97]], .rr .A, .IN, false⟩], [], [], []⟩ =
    Packet.toBytes { cfg with mdns := false } ⟨.default, [⟨[[97]], .rr .A, .IN, false⟩], [], [], []⟩ :=
  (C86_write cfg (fun _ => 0) _ rfl).1

/-- C86: what a build with the feature writes is read by one without it as the packet without the two
bits. -/
theorem C86_exchange (cfg : Cfg) (p : Packet) (hp : PacketOk { cfg with mdns := true } 191 p)
    (hs : ∀ r ∈ records p, r.rdata.type ≠ .SSHFP ∧ sizeError r.rdata = 0) :
    ∃ b, p.toBytes { cfg with mdns := true } = .ok b ∧
      Packet.parse { cfg with mdns := false } b = .ok (withoutBits (withCounts p)) := by
  obtain ⟨b, h1, h2⟩ := C27_packet_round_trip_partial _ p hp hs
  refine ⟨b, h1, ?_⟩
  have := (h2 []).1
  rw [List.append_nil] at this
  rw [C86_parse, this]
  rfl

/-- C86: a question for a unicast response and an answer that flushes the cache, as read by the two
builds. -/
example :
    Packet.parse ⟨true, true, true⟩ ([0, 7, 0x80, 0, 0, 1, 0, 1, 0, 0, 0, 0, 1, 97, 0, 0, 1, 0x80, 1] ++
      [1, 97, 0, 0, 1, 0x80, 1, 0, 0, 0, 9, 0, 4, 10, 0, 0, 1]) =
      .ok ⟨⟨7, ⟨0x80, 0⟩, 1, 1, 0, 0⟩, [⟨[[97]], .rr .A, .IN, true⟩],
        [⟨[[97]], .A, true, .IN, 9, .A ⟨0x0A000001⟩⟩], [], []⟩ ∧
    Packet.parse ⟨true, false, true⟩ ([0, 7, 0x80, 0, 0, 1, 0, 1, 0, 0, 0, 0, 1, 97, 0, 0, 1, 0x80, 1] ++
      [1, 97, 0, 0, 1, 0x80, 1, 0, 0, 0, 9, 0, 4, 10, 0, 0, 1]) =
      .ok ⟨⟨7, ⟨0x80, 0⟩, 1, 1, 0, 0⟩, [⟨[[97]], .rr .A, .IN, false⟩],
        [⟨[[97]], .A, false, .IN, 9, .A ⟨0x0A000001⟩⟩], [], []⟩ := by
  constructor <;> decide +kernel

end Dns
