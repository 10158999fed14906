import Verif.Model.Accessors
import Verif.Props.Counts
import Verif.Lemmas.Parsed

/-! C65: the type of a record and its data.  C68: what a packet contains after a history of calls. -/

namespace Dns
open Spec Buf

/-! ## C65 -/

/-- The data type `α` belongs to the record type `t`: it says so, a value made into record data is of
the variant of `t`, different values stay different, and the reader of records of type `t` gives a value of `α`. -/
structure TypeAgrees (α : Type) [RDataTrait α] (t : RecordType) : Prop where
  reported : ∀ x : α, RDataTrait.recordType x = t
  variant : ∀ x : α, (RDataTrait.intoRecordData x).type = t
  inj : ∀ x y : α, RDataTrait.intoRecordData x = RDataTrait.intoRecordData y → x = y
  read : ∀ (cfg : Cfg) (d : Bytes) (i j : Nat) (r : RecordData), RecordData.parse cfg t d i = (.ok r, j) →
    ∃ x : α, r = RDataTrait.intoRecordData x

/-- C65: for each of the 35 data types, `record_type()`, `into_record_data()` and the reader agree on
the record type. -/
theorem C65_record_types :
    TypeAgrees A .A ∧
    TypeAgrees Ns .NS ∧
    TypeAgrees Cname .CNAME ∧
    TypeAgrees Soa .SOA ∧
    TypeAgrees Null .NULL ∧
    TypeAgrees Wks .WKS ∧
    TypeAgrees Ptr .PTR ∧
    TypeAgrees Hinfo .HINFO ∧
    TypeAgrees Minfo .MINFO ∧
    TypeAgrees Mx .MX ∧
    TypeAgrees Txt .TXT ∧
    TypeAgrees Aaaa .AAAA ∧
    TypeAgrees Loc .LOC ∧
    TypeAgrees Srv .SRV ∧
    TypeAgrees Naptr .NAPTR ∧
    TypeAgrees Opt .OPT ∧
    TypeAgrees Apl .APL ∧
    TypeAgrees Ds .DS ∧
    TypeAgrees Sshfp .SSHFP ∧
    TypeAgrees IpSecKey .IPSECKEY ∧
    TypeAgrees Rrsig .RRSIG ∧
    TypeAgrees Nsec .NSEC ∧
    TypeAgrees DnsKey .DNSKEY ∧
    TypeAgrees Dhcid .DHCID ∧
    TypeAgrees Tlsa .TLSA ∧
    TypeAgrees Hip .HIP ∧
    TypeAgrees OpenPgpKey .OPENPGPKEY ∧
    TypeAgrees Csync .CSYNC ∧
    TypeAgrees Svcb .SVCB ∧
    TypeAgrees Eui48 .EUI48 ∧
    TypeAgrees Eui64 .EUI64 ∧
    TypeAgrees Tkey .TKEY ∧
    TypeAgrees Tsig .TSIG ∧
    TypeAgrees Uri .URI ∧
    TypeAgrees Caa .CAA := by
  refine ⟨?_, ?_, ?_, ?_, ?_, ?_, ?_, ?_, ?_, ?_, ?_, ?_, ?_, ?_, ?_, ?_, ?_, ?_, ?_, ?_, ?_, ?_, ?_, ?_, ?_, ?_, ?_, ?_, ?_, ?_, ?_, ?_, ?_, ?_, ?_⟩
  all_goals
    refine ⟨fun _ => rfl, fun _ => rfl, fun x y h => by injection h, fun cfg d i j r h => ?_⟩
    have ht := RecordData.parse_type h
    cases r <;> cases ht
    exact ⟨_, rfl⟩

/-- C65: the data of every record of a packet that was read are of the type of the record. -/
theorem C65_parsed (cfg : Cfg) (d : Bytes) (p : Packet) (h : Packet.parse cfg d = .ok p) :
    ∀ r ∈ p.answers ++ p.authorities ++ p.additional, r.rdata.type = r.type := by
  obtain ⟨e, h1, h2, h3, h4, i1, i2, i3, i4, _, hq, ha, hu, hd⟩ := Packet.parse_ok.mp h
  intro r hm
  have : ∃ a b, RecordAtWith (ParsedData cfg) Decodes cfg d a r b := by
    simp only [List.mem_append] at hm
    rcases hm with (hm | hm) | hm
    · exact listAt_mem ha hm
    · exact listAt_mem hu hm
    · exact listAt_mem hd hm
  obtain ⟨a, b, _, _, v, len, k, _, _, _, _, e, h10⟩ := this
  exact RecordData.parse_type h10

/-- C65: a message with an MX record. -/
example : ∃ p, Packet.parse ⟨true, true, true⟩
    ([0, 1, 0x80, 0, 0, 0, 0, 1, 0, 0, 0, 0, 0, 0, 15, 0, 1, 0, 0, 0, 0, 0, 5, 0, 10, 1, 97, 0] : Bytes) = .ok p ∧
      p.answers.map (fun r => (r.type, r.rdata)) = [(.MX, .MX ⟨10, [[97]]⟩)] :=
  ⟨⟨⟨1, ⟨0x80, 0⟩, 0, 1, 0, 0⟩, [], [⟨[], .MX, false, .IN, 0, .MX ⟨10, [[97]]⟩⟩], [], []⟩, by decide +kernel, rfl⟩

/-- The calls that change a record (src/resource.rs:315-367; `set_data` stands for changes through
`data_mut` too). -/
inductive RecordCall where
  | setName (n : Fqdn) | setRecordType (t : RecordType) | setCacheFlush (f : Bool)
  | setClass (c : RecordClass) | setTimeToLive (t : UInt32) | setData (d : RecordData)

def RecordCall.run (r : ResourceRecord) : RecordCall → ResourceRecord
  | .setName n => r.setName n
  | .setRecordType t => r.setRecordType t
  | .setCacheFlush f => r.setCacheFlush f
  | .setClass c => r.setClass c
  | .setTimeToLive t => r.setTimeToLive t
  | .setData d => r.setData d

/-- The value a history of calls leaves: that of the last call for which `f` gives one, or the initial
one. -/
def lastOr {κ α : Type} (init : α) (f : κ → Option α) (cs : List κ) : α :=
  (cs.reverse.findSome? f).getD init

theorem lastOr_foldl {σ κ α : Type} (run : σ → κ → σ) (g : σ → α) (f : κ → Option α)
    (hg : ∀ r c, g (run r c) = (f c).getD (g r)) (cs : List κ) (r : σ) :
    g (cs.foldl run r) = lastOr (g r) f cs := by
  induction cs generalizing r with
  | nil => rfl
  | cons c cs ih =>
    rw [List.foldl_cons, ih, hg]
    simp only [lastOr, List.reverse_cons, List.findSome?_append]
    cases h : cs.reverse.findSome? f <;> cases h2 : f c <;> simp [h2]

/-- C65: after any history of calls on a record, each getter reports the argument of the last setter
for that value, and the other setters do not disturb it. -/
theorem C65_record_setters (r : ResourceRecord) (cs : List RecordCall) :
    let q := cs.foldl RecordCall.run r
    q.name = lastOr r.name (fun | .setName n => some n | _ => none) cs ∧
    q.type = lastOr r.type (fun | .setRecordType t => some t | _ => none) cs ∧
    q.cacheFlush = lastOr r.cacheFlush (fun | .setCacheFlush f => some f | _ => none) cs ∧
    q.class_ = lastOr r.class_ (fun | .setClass c => some c | _ => none) cs ∧
    q.ttl = lastOr r.ttl (fun | .setTimeToLive t => some t | _ => none) cs ∧
    q.rdata = lastOr r.rdata (fun | .setData d => some d | _ => none) cs := by
  refine ⟨lastOr_foldl _ ResourceRecord.name _ ?_ cs r, lastOr_foldl _ ResourceRecord.type _ ?_ cs r,
    lastOr_foldl _ ResourceRecord.cacheFlush _ ?_ cs r, lastOr_foldl _ ResourceRecord.class_ _ ?_ cs r,
    lastOr_foldl _ ResourceRecord.ttl _ ?_ cs r, lastOr_foldl _ ResourceRecord.rdata _ ?_ cs r⟩
  all_goals (intro r c; cases c <;> rfl)

/-- C65: a history in which a value is set twice. -/
example : ([RecordCall.setTimeToLive 5, .setName [[98]], .setTimeToLive 7].foldl RecordCall.run
    (ResourceRecord.new [[97]] .A .IN 1 (.A ⟨1⟩))) = ⟨[[98]], .A, false, .IN, 7, .A ⟨1⟩⟩ := by decide

/-- The calls that change a question (src/question.rs:276-304). -/
inductive QuestionCall where
  | setName (n : Fqdn) | setQueryType (t : QType) | setClass (c : QClass) | setUnicastResponse (u : Bool)

def QuestionCall.run (q : Question) : QuestionCall → Question
  | .setName n => q.setName n
  | .setQueryType t => q.setQueryType t
  | .setClass c => q.setClass c
  | .setUnicastResponse u => q.setUnicastResponse u

/-- C65: the same for questions. -/
theorem C65_question_setters (q : Question) (cs : List QuestionCall) :
    let q' := cs.foldl QuestionCall.run q
    q'.qName = lastOr q.qName (fun | .setName n => some n | _ => none) cs ∧
    q'.qType = lastOr q.qType (fun | .setQueryType t => some t | _ => none) cs ∧
    q'.qClass = lastOr q.qClass (fun | .setClass c => some c | _ => none) cs ∧
    q'.unicastResponse = lastOr q.unicastResponse (fun | .setUnicastResponse u => some u | _ => none) cs := by
  refine ⟨lastOr_foldl _ Question.qName _ ?_ cs q, lastOr_foldl _ Question.qType _ ?_ cs q,
    lastOr_foldl _ Question.qClass _ ?_ cs q, lastOr_foldl _ Question.unicastResponse _ ?_ cs q⟩
  all_goals (intro r c; cases c <;> rfl)

/-- C65 (partial): a record whose type and data agree keeps this under every history in which
`set_record_type` and `set_data` are only given the type the data have, respectively data of the type
of the record.  What is missing: other uses of these calls, see the counterexample. -/
theorem C65_agreement_partial (r : ResourceRecord) (cs : List RecordCall) (hr : r.rdata.type = r.type)
    (hc : ∀ c ∈ cs, ∀ t, c = .setRecordType t → t = r.type)
    (hd : ∀ c ∈ cs, ∀ d, c = .setData d → d.type = r.type) :
    (cs.foldl RecordCall.run r).rdata.type = (cs.foldl RecordCall.run r).type := by
  have key : ∀ (cs : List RecordCall) (q : ResourceRecord), q.type = r.type → q.rdata.type = r.type →
      (∀ c ∈ cs, ∀ t, c = .setRecordType t → t = r.type) →
      (∀ c ∈ cs, ∀ d, c = .setData d → d.type = r.type) →
      (cs.foldl RecordCall.run q).type = r.type ∧ (cs.foldl RecordCall.run q).rdata.type = r.type := by
    intro cs
    induction cs with
    | nil => intro q h1 h2 _ _; exact ⟨h1, h2⟩
    | cons c cs ih =>
      intro q h1 h2 h3 h4
      apply ih
      · cases c with
        | setRecordType t => exact h3 _ List.mem_cons_self t rfl
        | _ => exact h1
      · cases c with
        | setData d => exact h4 _ List.mem_cons_self d rfl
        | _ => exact h2
      · exact fun c h => h3 c (List.mem_cons_of_mem _ h)
      · exact fun c h => h4 c (List.mem_cons_of_mem _ h)
  obtain ⟨h1, h2⟩ := key cs r rfl hr hc hd
  rw [h1, h2]

/-- C65: a history that meets the conditions and changes the data. -/
example : let r : ResourceRecord := ⟨[], .A, false, .IN, 0, .A ⟨1⟩⟩
    let cs : List RecordCall := [.setData (.A ⟨2⟩), .setRecordType .A, .setTimeToLive 7]
    r.rdata.type = r.type ∧ (∀ c ∈ cs, ∀ t, c = .setRecordType t → t = r.type) ∧
      (∀ c ∈ cs, ∀ d, c = .setData d → d.type = r.type) ∧ (cs.foldl RecordCall.run r).rdata = .A ⟨2⟩ := by
  refine ⟨rfl, ?_, ?_, rfl⟩ <;> simp [RecordData.type]

/-- C65 is false for records made by hand: nothing keeps the type and the data together, and such a
record is written without complaint and read as other data: an A record with the address 1.98.0.0 made
into a name.  -/
theorem C65_counterexample : ∃ r : ResourceRecord, r.rdata.type ≠ r.type ∧
    (r.toBytes ⟨true, true, true⟩).bind (fun b => (ResourceRecord.parse ⟨true, true, true⟩ b 0).1) =
      .ok { r with rdata := .NS ⟨[[98]]⟩ } :=
  ⟨(ResourceRecord.new [[97]] .A .IN 5 (.A ⟨0x01620000⟩)).setRecordType .NS, by decide, by decide +kernel⟩

/-! ## C68 -/

/-- What a caller put into the sections of a packet. -/
structure Sections where
  questions : List Question
  answers : List ResourceRecord
  authorities : List ResourceRecord
  additionals : List ResourceRecord
  deriving DecidableEq

/-- What each call is documented to do with the sections. -/
def PacketCall.onSections (s : Sections) : PacketCall → Sections
  | .setId _ | .header _ | .setHeader _ => s
  | .questionsMut qs | .setQuestions qs => { s with questions := qs }
  | .takeQuestions => { s with questions := [] }
  | .addQuestion q => { s with questions := s.questions ++ [q] }
  | .takeAnswers => { s with answers := [] }
  | .addAnswer r => { s with answers := s.answers ++ [r] }
  | .setAnswers rs => { s with answers := rs }
  | .takeAuthorities => { s with authorities := [] }
  | .addAuthority r => { s with authorities := s.authorities ++ [r] }
  | .setAuthorities rs => { s with authorities := rs }
  | .takeAdditionals => { s with additionals := [] }
  | .addAdditional r => { s with additionals := s.additionals ++ [r] }
  | .setAdditionals rs => { s with additionals := rs }

/-- What the getters `questions()`, `answers()`, `authorities()`, `additionals()` report. -/
def Packet.sections (p : Packet) : Sections := ⟨p.questions, p.answers, p.authorities, p.additional⟩

/-- The effect of the calls on the identification and the flags: only calls on the header have one. -/
def PacketCall.onHeader (h : UInt16 × Flags) : PacketCall → UInt16 × Flags
  | .setId id => (id, h.2)
  | .setHeader h' => (h'.id, h'.flags)
  | .header c => ((c.run ⟨h.1, h.2, 0, 0, 0, 0⟩).id, (c.run ⟨h.1, h.2, 0, 0, 0, 0⟩).flags)
  | _ => h

/-- C68: after every history of calls that return, the sections contain exactly what was put into
them and not taken out, in the order it was added. -/
theorem C68_sections (cfg : Cfg) (p q : Packet) (cs : List PacketCall) (h : History cfg p cs q) :
    q.sections = cs.foldl PacketCall.onSections p.sections := by
  induction h with
  | nil => rfl
  | @cons p q r c cs h hs ih =>
    rw [ih, List.foldl_cons]
    congr 1
    cases c with
    | addQuestion x =>
      simp only [PacketCall.run, Packet.addQuestion, Res.bind_ok] at h
      obtain ⟨n, _, e⟩ := h; cases e; rfl
    | addAnswer x =>
      simp only [PacketCall.run, Packet.addAnswer, Res.bind_ok] at h
      obtain ⟨n, _, e⟩ := h; cases e; rfl
    | addAuthority x =>
      simp only [PacketCall.run, Packet.addAuthority, Res.bind_ok] at h
      obtain ⟨n, _, e⟩ := h; cases e; rfl
    | addAdditional x =>
      simp only [PacketCall.run, Packet.addAdditional, Res.bind_ok] at h
      obtain ⟨n, _, e⟩ := h; cases e; rfl
    | _ => cases h; rfl
example : ∃ q, History ⟨true, true, true⟩ (.newQuery 1 true) [.addQuestion exQuestion, .addAnswer exRecord, .takeAnswers] q ∧
      q.sections = ⟨[exQuestion], [], [], []⟩ :=
  have h : History ⟨true, true, true⟩ (.newQuery 1 true) [.addQuestion exQuestion, .addAnswer exRecord, .takeAnswers] _ :=
    .cons rfl (.cons rfl (.cons rfl (.nil _)))
  ⟨_, h, C68_sections _ _ _ _ h⟩

/-- The identification and the flags after a call on the header do not depend on the counts. -/
theorem HeaderCall.run_counts (c : HeaderCall) (id : UInt16) (fl : Flags) (x1 x2 x3 x4 : UInt16) :
    ((c.run ⟨id, fl, x1, x2, x3, x4⟩).id, (c.run ⟨id, fl, x1, x2, x3, x4⟩).flags) =
      ((c.run ⟨id, fl, 0, 0, 0, 0⟩).id, (c.run ⟨id, fl, 0, 0, 0, 0⟩).flags) := by
  cases c with
  | setQueryResponse v => cases v <;> rfl
  | setResponseCode c => cases c <;> rfl
  | setRecursionAvailable v => cases v <;> rfl
  | _ => rfl

/-- C68: the identification and the flags are changed by the calls on the header only; adding,
setting and taking questions and records does not disturb them. -/
theorem C68_header (cfg : Cfg) (p q : Packet) (cs : List PacketCall) (h : History cfg p cs q) :
    (q.header.id, q.header.flags) = cs.foldl PacketCall.onHeader (p.header.id, p.header.flags) := by
  induction h with
  | nil => rfl
  | @cons p q r c cs h hs ih =>
    rw [ih, List.foldl_cons]
    congr 1
    cases c with
    | addQuestion x =>
      simp only [PacketCall.run, Packet.addQuestion, Res.bind_ok] at h
      obtain ⟨n, _, e⟩ := h; cases e; rfl
    | addAnswer x =>
      simp only [PacketCall.run, Packet.addAnswer, Res.bind_ok] at h
      obtain ⟨n, _, e⟩ := h; cases e; rfl
    | addAuthority x =>
      simp only [PacketCall.run, Packet.addAuthority, Res.bind_ok] at h
      obtain ⟨n, _, e⟩ := h; cases e; rfl
    | addAdditional x =>
      simp only [PacketCall.run, Packet.addAdditional, Res.bind_ok] at h
      obtain ⟨n, _, e⟩ := h; cases e; rfl
    | header c =>
      cases h
      obtain ⟨⟨id, fl, x1, x2, x3, x4⟩, q, an, au, ad⟩ := p
      exact HeaderCall.run_counts c id fl x1 x2 x3 x4
    | _ => cases h; rfl
example : ∃ q, History ⟨true, true, true⟩ (.newQuery 1 true) [.addQuestion exQuestion, .setId 9] q ∧
      (q.header.id, q.header.flags) = (9, ⟨1, 0⟩) :=
  have h : History ⟨true, true, true⟩ (.newQuery 1 true) [.addQuestion exQuestion, .setId 9] _ :=
    .cons rfl (.cons rfl (.nil _))
  ⟨_, h, C68_header _ _ _ _ h⟩

/-- C68: what `take_*` returns is what the section contained after the history. -/
theorem C68_take (cfg : Cfg) (p q : Packet) (cs : List PacketCall) (h : History cfg p cs q) :
    let s := cs.foldl PacketCall.onSections p.sections
    q.takeQuestions.2 = s.questions ∧ q.takeAnswers.2 = s.answers ∧
      q.takeAuthorities.2 = s.authorities ∧ q.takeAdditionals.2 = s.additionals := by
  simp only [← C68_sections cfg p q cs h]
  exact ⟨rfl, rfl, rfl, rfl⟩

/-- C68: a history with calls on two sections and the header. -/
example : ∃ q, History ⟨true, true, true⟩ (.newQuery 1 true)
    [.addAnswer exRecord, .addQuestion exQuestion, .setId 9, .takeAnswers, .addQuestion exQuestion] q ∧
    q.sections = ⟨[exQuestion, exQuestion], [], [], []⟩ ∧ q.header.id = 9 :=
  ⟨⟨⟨9, ⟨1, 0⟩, 2, 0, 0, 0⟩, [exQuestion, exQuestion], [], [], []⟩,
    .cons (q := ⟨⟨1, ⟨1, 0⟩, 0, 1, 0, 0⟩, [], [exRecord], [], []⟩) (by decide +kernel)
    (.cons (q := ⟨⟨1, ⟨1, 0⟩, 1, 1, 0, 0⟩, [exQuestion], [exRecord], [], []⟩) (by decide +kernel)
    (.cons rfl (.cons rfl (.cons (by decide +kernel) (.nil _))))), by decide, rfl⟩

/-- C68: every call returns in a build without overflow checks; with them an `add_*` call panics exactly
when the count of the section in the header is 65535. -/
theorem C68_returns (cfg : Cfg) (p : Packet) (c : PacketCall) :
    (∃ q, c.run cfg p = .ok q) ∨ (cfg.overflowChecks = true ∧ c.run cfg p = .panic .overflow ∧
      match c with
      | .addQuestion _ => p.header.quesCount = 65535
      | .addAnswer _ => p.header.ansCount = 65535
      | .addAuthority _ => p.header.authCount = 65535
      | .addAdditional _ => p.header.addCount = 65535
      | _ => False) := by
  have key : ∀ n : UInt16, (∃ m, Packet.incr cfg n = .ok m) ∨
      (cfg.overflowChecks = true ∧ Packet.incr cfg n = .panic .overflow ∧ n = 65535) := by
    intro n
    unfold Packet.incr addU16
    have := n.toNat_lt
    by_cases h1 : n.toNat + 1 < 65536
    · rw [if_pos h1]; exact .inl ⟨_, rfl⟩
    · rw [if_neg h1]
      by_cases h2 : cfg.overflowChecks = true
      · rw [if_pos h2]
        refine .inr ⟨h2, rfl, UInt16.toNat_inj.mp ?_⟩
        show n.toNat = 65535; omega
      · rw [if_neg h2]; exact .inl ⟨_, rfl⟩
  cases c with
  | addQuestion x =>
    rcases key p.header.quesCount with ⟨m, h⟩ | ⟨h1, h2, h3⟩
    · exact .inl ⟨_, by simp only [PacketCall.run, Packet.addQuestion, h]; rfl⟩
    · exact .inr ⟨h1, by simp only [PacketCall.run, Packet.addQuestion, h2]; rfl, h3⟩
  | addAnswer x =>
    rcases key p.header.ansCount with ⟨m, h⟩ | ⟨h1, h2, h3⟩
    · exact .inl ⟨_, by simp only [PacketCall.run, Packet.addAnswer, h]; rfl⟩
    · exact .inr ⟨h1, by simp only [PacketCall.run, Packet.addAnswer, h2]; rfl, h3⟩
  | addAuthority x =>
    rcases key p.header.authCount with ⟨m, h⟩ | ⟨h1, h2, h3⟩
    · exact .inl ⟨_, by simp only [PacketCall.run, Packet.addAuthority, h]; rfl⟩
    · exact .inr ⟨h1, by simp only [PacketCall.run, Packet.addAuthority, h2]; rfl, h3⟩
  | addAdditional x =>
    rcases key p.header.addCount with ⟨m, h⟩ | ⟨h1, h2, h3⟩
    · exact .inl ⟨_, by simp only [PacketCall.run, Packet.addAdditional, h]; rfl⟩
    · exact .inr ⟨h1, by simp only [PacketCall.run, Packet.addAdditional, h2]; rfl, h3⟩
  | _ => exact .inl ⟨_, rfl⟩

end Dns
