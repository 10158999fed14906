import Verif.Spec.Confuse
import Verif.Props.Repeat
import Verif.Props.SipHash

/-
C131: names that others have chosen in a message written with compression.
-/

namespace Dns
open Spec Buf

section
variable {h : Hash} {n m : Fqdn} (hn : n ≠ []) (hm : m ≠ []) (he : h n = h m)
include hn hm he

theorem name_confused (x : Fqdn) (ns : Names) (o : Nat) (hk : ns (h n) ≠ none) :
    (insteadOf n m x).toBytesCompressed h ns o = x.toBytesCompressed h ns o := by
  unfold insteadOf
  split
  · rename_i e
    subst e
    obtain ⟨v, hv⟩ := Option.ne_none_iff_exists'.mp hk
    have hv' := hv
    rw [he] at hv'
    cases n with
    | nil => exact absurd rfl hn
    | cons a as =>
      cases x with
      | nil => exact absurd rfl hm
      | cons b bs =>
        unfold Fqdn.toBytesCompressed
        rw [hv, hv']
  · rfl

theorem data_confused (cfg : Cfg) (r : RecordData) (ns : Names) (o : Nat) (hk : ns (h n) ≠ none) :
    (confuseData (insteadOf n m) r).toBytesCompressed cfg h ns o = r.toBytesCompressed cfg h ns o ∧
      ∀ b, r.toBytesCompressed cfg h ns o = .ok b → b.2 (h n) ≠ none := by
  have nm := fun x o => name_confused hn hm he x ns o hk
  have gr := fun (x : Fqdn) o => name_grows h x ns o _ hk
  cases r
  case NS r => exact ⟨congrArg Res.ok (nm _ _), fun b hb => by cases hb; exact gr _ _⟩
  case CNAME r => exact ⟨congrArg Res.ok (nm _ _), fun b hb => by cases hb; exact gr _ _⟩
  case PTR r => exact ⟨congrArg Res.ok (nm _ _), fun b hb => by cases hb; exact gr _ _⟩
  case MX r =>
    exact ⟨by simp only [confuseData, RecordData.toBytesCompressed, Mx.toBytesCompressed, nm],
      fun b hb => by cases hb; exact gr _ _⟩
  case SRV r =>
    exact ⟨by simp only [confuseData, RecordData.toBytesCompressed, Srv.toBytesCompressed, nm],
      fun b hb => by cases hb; exact gr _ _⟩
  case NAPTR r =>
    exact ⟨by simp only [confuseData, RecordData.toBytesCompressed, Naptr.toBytesCompressed, Naptr.headBytes, nm],
      fun b hb => by cases hb; exact gr _ _⟩
  case SOA r =>
    exact ⟨by simp only [confuseData, RecordData.toBytesCompressed, Soa.toBytesCompressed, nm,
        name_confused hn hm he r.rname _ _ (gr r.mname o)],
      fun b hb => by cases hb; exact name_grows h _ _ _ _ (gr _ _)⟩
  case MINFO r =>
    exact ⟨by simp only [confuseData, RecordData.toBytesCompressed, Minfo.toBytesCompressed, nm,
        name_confused hn hm he r.emailbx _ _ (gr r.rmailbx o)],
      fun b hb => by cases hb; exact name_grows h _ _ _ _ (gr _ _)⟩
  case NSEC r =>
    refine ⟨by simp only [confuseData, RecordData.toBytesCompressed, Nsec.toBytesCompressed, nm], fun b hb => ?_⟩
    simp only [RecordData.toBytesCompressed, Nsec.toBytesCompressed, Res.bind_eq_ok, Res.pure_eq, Res.ok.injEq] at hb
    obtain ⟨x, hx, rfl⟩ := hb
    exact gr _ _
  case CSYNC r =>
    refine ⟨rfl, fun b hb => ?_⟩
    simp only [RecordData.toBytesCompressed, Res.bind_eq_ok, Res.pure_eq, Res.ok.injEq] at hb
    obtain ⟨x, hx, rfl⟩ := hb
    exact hk
  case SVCB r =>
    refine ⟨rfl, fun b hb => ?_⟩
    simp only [RecordData.toBytesCompressed, Res.bind_eq_ok, Res.pure_eq, Res.ok.injEq] at hb
    obtain ⟨x, hx, rfl⟩ := hb
    exact hk
  all_goals exact ⟨rfl, fun b hb => by cases hb; exact hk⟩

/-- The same for a question or a record. -/
def confusePart (f : Fqdn → Fqdn) : Part → Part
  | .question q => .question { q with qName := f q.qName }
  | .record r => .record (confuseRecord f r)

theorem part_confused (cfg : Cfg) (x : Part) (ns : Names) (o : Nat) (hk : ns (h n) ≠ none) :
    (confusePart (insteadOf n m) x).toBytesCompressed cfg h ns o = x.toBytesCompressed cfg h ns o ∧
      ∀ b, x.toBytesCompressed cfg h ns o = .ok b → b.2 (h n) ≠ none := by
  cases x with
  | question q =>
    refine ⟨?_, fun b hb => by cases hb; exact name_grows h _ _ _ _ hk⟩
    have hc : ({ q with qName := insteadOf n m q.qName } : Question).classBits cfg = q.classBits cfg := rfl
    simp only [confusePart, Part.toBytesCompressed, Question.toBytesCompressed, name_confused hn hm he _ _ _ hk, hc]
  | record r =>
    have hc : (confuseRecord (insteadOf n m) r).headCompressed cfg h ns o = r.headCompressed cfg h ns o := by
      have hc : (confuseRecord (insteadOf n m) r).classBits cfg = r.classBits cfg := rfl
      simp only [ResourceRecord.headCompressed, hc]
      simp only [confuseRecord, name_confused hn hm he _ _ _ hk]
    have hg : (r.headCompressed cfg h ns o).2 (h n) ≠ none := name_grows h _ _ _ _ hk
    obtain ⟨h1, h2⟩ := data_confused hn hm he cfg r.rdata (r.headCompressed cfg h ns o).2
      (o + (r.headCompressed cfg h ns o).1.length + 2) hg
    refine ⟨?_, fun b hb => ?_⟩
    · simp only [confusePart, Part.toBytesCompressed, ResourceRecord.toBytesCompressed, hc]
      simp only [confuseRecord, h1]
    · simp only [Part.toBytesCompressed, ResourceRecord.toBytesCompressed, Res.bind_eq_ok, Res.pure_eq,
        Res.ok.injEq] at hb
      obtain ⟨d, hd, rfl⟩ := hb
      exact h2 d hd

theorem parts_confused (cfg : Cfg) : ∀ (xs : List Part) (ns : Names) (o : Nat), ns (h n) ≠ none →
    partsCompressed cfg h (xs.map (confusePart (insteadOf n m))) ns o = partsCompressed cfg h xs ns o := by
  intro xs
  induction xs with
  | nil => intro ns o _; rfl
  | cons x xs ih =>
    intro ns o hk
    obtain ⟨h1, h2⟩ := part_confused hn hm he cfg x ns o hk
    simp only [List.map_cons, partsCompressed, h1]
    cases hx : x.toBytesCompressed cfg h ns o with
    | ok b => simp only [Res.ok_bind, ih b.2 _ (h2 b hx)]
    | err e => rfl
    | panic k => rfl
    | hang => rfl

end

/-- C131, where it fails: if two names have the same hash, then a packet whose first question is for the one is
written as the packet that has this name wherever it had the other one; for every hash function. -/
theorem C131_confused (cfg : Cfg) (h : Hash) (n m : Fqdn) (hn : n ≠ []) (hm : m ≠ []) (he : h n = h m)
    (p : Packet) (q : Question) (qs : List Question) (hq : p.questions = q :: qs) (hqn : q.qName = n) :
    p.toBytesCompressed cfg h = (confuse n m p).toBytesCompressed cfg h := by
  have hf : insteadOf n m n = n := by unfold insteadOf; split <;> rfl
  have e1 : parts p = .question q :: (qs.map Part.question ++ (records p).map Part.record) := by
    simp [parts, hq, records]
  have e2 : parts (confuse n m p) = .question q ::
      (qs.map Part.question ++ (records p).map Part.record).map (confusePart (insteadOf n m)) := by
    have : ({ q with qName := insteadOf n m q.qName } : Question) = q := by rw [hqn, hf, ← hqn]
    simp [parts, confuse, hq, records, confusePart, Function.comp_def, this]
  rw [toBytesCompressed_parts, toBytesCompressed_parts, e1, e2]
  have hk : (q.toBytesCompressed cfg h Names.empty 12).2 (h n) ≠ none := by
    show (q.qName.toBytesCompressed h Names.empty 12).2 (h n) ≠ none
    rw [hqn]
    cases n with
    | nil => exact absurd rfl hn
    | cons a as =>
      unfold Fqdn.toBytesCompressed
      exact name_grows h as _ _ _ (by simp [Names.insert])
  have := parts_confused hn hm he cfg (qs.map Part.question ++ (records p).map Part.record)
    (q.toBytesCompressed cfg h Names.empty 12).2 (12 + (q.toBytesCompressed cfg h Names.empty 12).1.length) hk
  have hh : (confuse n m p).header = p.header := rfl
  simp only [partsCompressed, Part.toBytesCompressed, Res.ok_bind, this, hh]

/-- The name `mbgcejclaefkakni.com`. -/
def firstName : Fqdn := [[109, 98, 103, 99, 101, 106, 99, 108, 97, 101, 102, 107, 97, 107, 110, 105], [99, 111, 109]]

/-- The name `cgpmhhmiehfcfehk.com`. -/
def secondName : Fqdn := [[99, 103, 112, 109, 104, 104, 109, 105, 101, 104, 102, 99, 102, 101, 104, 107], [99, 111, 109]]

/-- The hash function of the crate has the same value for these two names, on machines of 64 bits with the low octet
first. -/
theorem C131_collision : firstName ≠ secondName ∧
    Target.hashFqdn ⟨false, 8⟩ firstName = Target.hashFqdn ⟨false, 8⟩ secondName := by decide +kernel

/-- C131 (partial): on every machine, a packet that can be represented on the wire is written with compression and read
back as it was, unless SipHash-1-3 has a collision on its names and their endings.  What is missing: packets with such
names (false, `C131_counterexample`), and SSHFP records (false, see C28). -/
theorem C131_kept_partial (cfg : Cfg) (t : Target) (p : Packet) (hp : PacketOk cfg 191 p) (hc : CountsOk p)
    (hs : ∀ r ∈ records p, r.rdata.type ≠ .SSHFP) (hf : ∀ n ∈ packetNames p, t.Fits n)
    (hh : t.NoSipCollision (packetNames p)) :
    ∃ b, p.toBytesCompressed cfg t.hashFqdn = .ok b ∧ (b.length ≤ 16384 → Packet.parse cfg b = .ok p) := by
  obtain ⟨b, h1, h2⟩ := C28_compressed_round_trip_partial cfg t.hashFqdn p hp hc hs (hashFqdn_noCollision t _ hf hh)
  exact ⟨b, h1, fun hl => by simpa using (h2 hl []).1⟩

/-- C131, where it fails: every packet that asks for the first name and has records of the second name is written, and
the reader takes all these records for records of the first name, and all links to the second name for links to the
first one.  (The hypotheses are about the packet that is read: there is no other collision in it.) -/
theorem C131_read_confused (cfg : Cfg) (p : Packet) (q : Question) (qs : List Question)
    (hq : p.questions = q :: qs) (hqn : q.qName = firstName) (hp : PacketOk cfg 191 (confuse firstName secondName p))
    (hc : CountsOk p) (hs : ∀ r ∈ records p, r.rdata.type ≠ .SSHFP)
    (hf : ∀ n ∈ packetNames (confuse firstName secondName p), Target.Fits ⟨false, 8⟩ n)
    (hh : Target.NoSipCollision ⟨false, 8⟩ (packetNames (confuse firstName secondName p))) :
    ∃ b, p.toBytesCompressed cfg (Target.hashFqdn ⟨false, 8⟩) = .ok b ∧
      (b.length ≤ 16384 → Packet.parse cfg b = .ok (confuse firstName secondName p)) := by
  rw [C131_confused cfg _ firstName secondName (by decide) (by decide) C131_collision.2 p q qs hq hqn]
  refine C131_kept_partial cfg _ _ hp ?_ ?_ hf hh
  · obtain ⟨h1, h2, h3, h4⟩ := hc
    exact ⟨by simpa [confuse] using h1, by simpa [confuse] using h2, by simpa [confuse] using h3,
      by simpa [confuse] using h4⟩
  · intro r hr
    have : ∃ r' ∈ records p, confuseRecord (insteadOf firstName secondName) r' = r := by
      simpa [records, confuse, or_and_right, exists_or, or_assoc] using hr
    obtain ⟨r', h1, rfl⟩ := this
    have h2 : (confuseData (insteadOf firstName secondName) r'.rdata).type = r'.rdata.type := by
      cases r'.rdata <;> rfl
    rw [confuseRecord, h2]
    exact hs r' h1

/-- A reply for the name `a`: it is an alias of the name `b`, and there is an address for `c`. -/
def aliasReply (a b c : Fqdn) : Packet :=
  ⟨⟨7, ⟨0x84, 0⟩, 1, 2, 0, 0⟩, [⟨a, .rr .A, .IN, false⟩],
    [⟨a, .CNAME, false, .IN, 60, .CNAME ⟨b⟩⟩, ⟨c, .A, false, .IN, 60, .A ⟨0xC0000201⟩⟩], [], []⟩

theorem aliasReply_ok (cfg : Cfg) (max : Nat) (a b c : Fqdn) (ha : NameOk max a) (hb : NameOk max b) (hc : NameOk max c)
    (hl : b.toBytes.length < 65536) : PacketOk cfg max (aliasReply a b c) ∧ CountsOk (aliasReply a b c) := by
  refine ⟨⟨?_, ?_, by simp [aliasReply], by simp [aliasReply], by simp [aliasReply], by simp [aliasReply]⟩, rfl, rfl, rfl, rfl⟩
  · simp only [aliasReply, List.forall_mem_cons]
    exact ⟨⟨ha, by simp [QReadable, Readable, dnssecTypes], by simp⟩, by simp⟩
  · simp only [records, aliasReply, List.append_nil, List.forall_mem_cons]
    refine ⟨⟨ha, by simp [Readable, dnssecTypes], rfl, trivial, by simp [classNumber], by simp, by simpa [Writable] using hb,
      fun x hx => ?_⟩, ⟨hc, by simp [Readable, dnssecTypes], rfl, trivial, by simp [classNumber], by simp, by simp [Writable],
      fun x hx => by cases hx; decide⟩, by simp⟩
    cases hx
    exact hl

/-- The reply for the first name, an alias of the second name, meets the hypotheses of `C131_read_confused`. -/
theorem aliasReply_confused (cfg : Cfg) :
    confuse firstName secondName (aliasReply firstName secondName secondName) = aliasReply firstName firstName firstName ∧
    PacketOk cfg 191 (aliasReply firstName firstName firstName) ∧
    (∀ n ∈ packetNames (aliasReply firstName firstName firstName), Target.Fits ⟨false, 8⟩ n) ∧
    Target.NoSipCollision ⟨false, 8⟩ (packetNames (aliasReply firstName firstName firstName)) := by
  have key : ∀ a ∈ (packetNames (aliasReply firstName firstName firstName)).flatMap List.tails,
      ∀ b ∈ (packetNames (aliasReply firstName firstName firstName)).flatMap List.tails,
      (sipHash13 (Target.hashInput ⟨false, 8⟩ a) = sipHash13 (Target.hashInput ⟨false, 8⟩ b) → a = b) := by
    decide +kernel
  refine ⟨by decide +kernel, ?_, ?_, ?_⟩
  · exact (aliasReply_ok cfg 191 _ _ _ (by decide) (by decide) (by decide) (by decide)).1
  · unfold Target.Fits
    decide +kernel
  · rintro a b ⟨n, hn, ha⟩ ⟨m, hm, hb⟩ h
    rw [key a (List.mem_flatMap.mpr ⟨n, hn, (List.mem_tails _ _).mpr ha⟩) b
      (List.mem_flatMap.mpr ⟨m, hm, (List.mem_tails _ _).mpr hb⟩) h]

/-- The hypotheses of `C131_confused` and `C131_kept_partial` are met, too. -/
example : (aliasReply firstName secondName secondName).questions = [⟨firstName, .rr .A, .IN, false⟩] ∧
    PacketOk ⟨false, false, false⟩ 191 (aliasReply firstName firstName firstName) ∧
    Target.NoSipCollision ⟨false, 8⟩ (packetNames (aliasReply firstName firstName firstName)) :=
  ⟨rfl, (aliasReply_confused _).2.1, (aliasReply_confused ⟨false, false, false⟩).2.2.2⟩

/-- Missing in C131: the reply that the first name is an alias of the second name, which has an address, is written with
compression and read back as the reply that the first name is an alias of itself and has this address, although both
names are legal names of lower case letters; with all features, on machines of 64 bits with the low octet first. -/
theorem C131_counterexample (cfg : Cfg) : 
    PacketOk cfg 63 (aliasReply firstName secondName secondName) ∧
    CountsOk (aliasReply firstName secondName secondName) ∧
    ∃ b, (aliasReply firstName secondName secondName).toBytesCompressed cfg (Target.hashFqdn ⟨false, 8⟩) = .ok b ∧
      Packet.parse cfg b = .ok (aliasReply firstName firstName firstName) := by
  obtain ⟨h1, h2⟩ := aliasReply_ok cfg 63 firstName secondName secondName (by decide) (by decide) (by decide) (by decide)
  obtain ⟨k1, k2, k3, k4⟩ := aliasReply_confused cfg
  refine ⟨h1, h2, ?_⟩
  rw [← k1] at k2 k3 k4 ⊢
  obtain ⟨b, c1, c2⟩ := C131_read_confused cfg (aliasReply firstName secondName secondName) _ [] rfl rfl k2 h2
    (by simp [records, aliasReply, RecordData.type]) k3 k4
  refine ⟨b, c1, c2 ?_⟩
  have hlen : ∀ a b c : Bool, ((aliasReply firstName secondName secondName).toBytesCompressed ⟨a, b, c⟩
      (Target.hashFqdn ⟨false, 8⟩)).bind (fun x => .ok x.length) = .ok 68 := by decide +kernel
  have := hlen cfg.overflowChecks cfg.mdns cfg.dnssec
  rw [c1] at this
  have := Res.ok.inj this
  omega

end Dns
