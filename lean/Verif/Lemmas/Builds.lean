import Verif.Lemmas.Agree

/-
The code run in two builds whose arithmetic and type numbers agree.
-/

namespace Dns
open Buf

/-- The builds `c` and `c'` agree in arithmetic. -/
structure Cfg.Arith (e : DnsError → Prop) (p : PanicKind → Prop) (c c' : Cfg) : Prop where
  sub16 : ∀ a b, Res.Agree e p id (subU16 c a b) (subU16 c' a b)
  add16 : ∀ a b, Res.Agree e p id (addU16 c a b) (addU16 c' a b)
  subSize : ∀ a b, Res.Agree e p id (subUsize c a b) (subUsize c' a b)
  add32 : ∀ a b, Res.Agree e p id (addU32 c a b) (addU32 c' a b)

/-- The builds `c` and `c'` agree in the operations that depend on the build (but for the feature
`mdns`). -/
structure Cfg.Agree (e : DnsError → Prop) (p : PanicKind → Prop) (c c' : Cfg) : Prop extends
    Cfg.Arith e p c c' where
  type : ∀ n, Res.Agree e p id (RecordType.ofU16 c n) (RecordType.ofU16 c' n)

/-- Overflow checks turned off. -/
theorem Cfg.Agree.release {c c' : Cfg} (hd : c'.dnssec = c.dnssec) (h : c.overflowChecks = true) :
    Cfg.Agree (fun _ => False) (· = .overflow) c c' := by
  refine ⟨⟨fun a b => ?_, fun a b => ?_, fun a b => ?_, fun a b => ?_⟩, fun n => ?_⟩
  · unfold subU16; split
    · exact .refl _
    · left; simp [h, Res.Excused]
  · unfold addU16; split
    · exact .refl _
    · left; simp [h, Res.Excused]
  · unfold subUsize; split
    · exact .refl _
    · left; simp [h, Res.Excused]
  · unfold addU32; split
    · exact .refl _
    · left; simp [h, Res.Excused]
  · unfold RecordType.ofU16; rw [hd]; exact .refl _

/-- The feature `dnssec` turned on. -/
theorem Cfg.Agree.dnssec {c c' : Cfg} (ho : c'.overflowChecks = c.overflowChecks) (h : c.dnssec = false) :
    Cfg.Agree (fun x => ∃ n ∈ [43, 46, 47, 48], x = .invalidType n) (fun _ => False) c c' := by
  refine ⟨⟨fun a b => ?_, fun a b => ?_, fun a b => ?_, fun a b => ?_⟩, fun n => ?_⟩
  · unfold subU16; rw [ho]; exact .refl _
  · unfold addU16; rw [ho]; exact .refl _
  · unfold subUsize; rw [ho]; exact .refl _
  · unfold addU32; rw [ho]; exact .refl _
  · unfold RecordType.ofU16
    split <;> first
      | exact .refl _
      | (left; simp [h, Res.Excused])

/-- The same arithmetic. -/
theorem Cfg.Arith.same {c c' : Cfg} (ho : c'.overflowChecks = c.overflowChecks) :
    Cfg.Arith (fun _ => False) (fun _ => False) c c' := by
  refine ⟨fun a b => ?_, fun a b => ?_, fun a b => ?_, fun a b => ?_⟩
  · unfold subU16; rw [ho]; exact .refl _
  · unfold addU16; rw [ho]; exact .refl _
  · unfold subUsize; rw [ho]; exact .refl _
  · unfold addU32; rw [ho]; exact .refl _

theorem Res.Agree.eq {α : Type} {r r' : Res α} (h : Res.Agree (fun _ => False) (fun _ => False) id r r') :
    r' = r := by
  rcases h with h | h
  · cases r <;> exact h.elim
  · rw [h, Res.mapValue_id]

/-- The same build but for the feature `mdns`. -/
theorem Cfg.Agree.same {c c' : Cfg} (ho : c'.overflowChecks = c.overflowChecks) (h : c'.dnssec = c.dnssec) :
    Cfg.Agree (fun _ => False) (fun _ => False) c c' := by
  refine ⟨⟨fun a b => ?_, fun a b => ?_, fun a b => ?_, fun a b => ?_⟩, fun n => ?_⟩
  · unfold subU16; rw [ho]; exact .refl _
  · unfold addU16; rw [ho]; exact .refl _
  · unfold subUsize; rw [ho]; exact .refl _
  · unfold addU32; rw [ho]; exact .refl _
  · unfold RecordType.ofU16; rw [h]; exact .refl _

section
variable {e : DnsError → Prop} {p : PanicKind → Prop} {c c' : Cfg}

theorem Res.Agree.bind_id {α γ δ : Type} {g : γ → δ} {r r' : Res α} {k : α → Res γ} {k' : α → Res δ}
    (h : Res.Agree e p id r r') (hk : ∀ a, Res.Agree e p g (k a) (k' a)) :
    Res.Agree e p g (r >>= k) (r' >>= k') := h.bind fun a _ => hk a

theorem Parser.Agree.bind_id {α γ δ : Type} {g : γ → δ} {r r' : Parser α} {k : α → Parser γ}
    {k' : α → Parser δ} (h : Parser.Agree e p id r r') (hk : ∀ a, Parser.Agree e p g (k a) (k' a)) :
    Parser.Agree e p g (r >>= k) (r' >>= k') := h.bind hk

theorem Parser.Agree.sub_id {α : Type} {x y : Parser α} (n : Nat) (h : Parser.Agree e p id x y) :
    Parser.Agree e p id (withSubBuffer n x) (withSubBuffer n y) := h.sub n

/-! ### Reading -/

theorem Bitmap.parse_agree (h : c.Agree e p c') : Parser.Agree e p id (Bitmap.parse c) (Bitmap.parse c') := by
  have hbit : ∀ w idx o i acc, Res.Agree e p id (readBit c w idx o i acc) (readBit c' w idx o i acc) := by
    intro w idx o i acc
    unfold readBit
    split
    · exact (h.add16 _ _).bind_id fun _ => (h.add16 _ _).bind_id fun _ => (h.type _).bind_id fun _ => .refl _
    · exact .refl _
  have hoct : ∀ is w idx o acc, Res.Agree e p id (readOctet c w idx o is acc) (readOctet c' w idx o is acc) := by
    intro is
    induction is with
    | nil => intros; exact .refl _
    | cons i is ih => intro w idx o acc; exact (hbit ..).bind_id fun _ => ih ..
  have hwin : ∀ os w idx acc, Res.Agree e p id (readWindow c w idx os acc) (readWindow c' w idx os acc) := by
    intro os
    induction os with
    | nil => intros; exact .refl _
    | cons o os ih => intro w idx acc; exact (hoct ..).bind_id fun _ => ih ..
  exact Parser.Agree.while _ fun s => .bind_same fun _ => .bind_same fun _ => .bind_same fun _ =>
    .lift (hwin ..)

theorem Param.parse_agree (h : c.Arith e p c') : Parser.Agree e p id (Param.parse c) (Param.parse c') := by
  have hm : ∀ fuel len ks, Parser.Agree e p id (Param.mandatoryLoop c fuel len ks)
      (Param.mandatoryLoop c' fuel len ks) := by
    intro fuel
    induction fuel with
    | zero => intros; exact .refl _
    | succ fuel ih =>
      intro len ks
      unfold Param.mandatoryLoop
      split
      · exact .bind_same fun _ => .bind_same fun _ => (Parser.Agree.lift (h.subSize _ _)).bind_id fun _ => ih _ _
      · exact .refl _
  have ha : ∀ fuel len ks, Parser.Agree e p id (Param.alpnLoop c fuel len ks)
      (Param.alpnLoop c' fuel len ks) := by
    intro fuel
    induction fuel with
    | zero => intros; exact .refl _
    | succ fuel ih =>
      intro len ks
      unfold Param.alpnLoop
      split
      · exact .bind_same fun _ => .bind_same fun _ => (Parser.Agree.lift (h.subSize _ _)).bind_id fun _ => ih _ _
      · exact .refl _
  refine .bind_same fun _ => .bind_same fun k => .bind_same fun _ => ?_
  cases k
  case mandatory => exact .bind_same fun _ => (hm _ _ _).bind_id fun _ => .refl _
  case alpn => exact .bind_same fun _ => (ha _ _ _).bind_id fun _ => .refl _
  all_goals exact .refl _

theorem Svcb.parse_agree (h : c.Arith e p c') : Parser.Agree e p id (Svcb.parse c) (Svcb.parse c') := by
  refine .bind_same fun _ => .bind_same fun _ => Parser.Agree.bind_id (Parser.Agree.while _ fun s => ?_) fun _ => .refl _
  exact .bind_same fun _ => ((Param.parse_agree h).sub_id _).bind_id fun _ => .refl _

theorem RecordData.parse_agree (h : c.Agree e p c') (t : RecordType) :
    Parser.Agree e p id (RecordData.parse c t) (RecordData.parse c' t) := by
  cases t
  case SVCB => exact (Svcb.parse_agree h.toArith).bind_id fun _ => .refl _
  case CSYNC =>
    exact Parser.Agree.bind_id (.bind_same fun _ => .bind_same fun _ => .bind_same fun _ =>
      (Bitmap.parse_agree h).bind_id fun _ => .refl _) fun _ => .refl _
  case NSEC =>
    exact Parser.Agree.bind_id (.bind_same fun _ => (Bitmap.parse_agree h).bind_id fun _ => .refl _) fun _ => .refl _
  case RRSIG =>
    exact Parser.Agree.bind_id (.bind_same fun _ => (Parser.Agree.lift (h.type _)).bind_id fun _ => .refl _)
      fun _ => .refl _
  all_goals exact .refl _

theorem QType.ofU16_agree (h : c.Agree e p c') (n : UInt16) :
    Res.Agree e p id (QType.ofU16 c n) (QType.ofU16 c' n) := by
  unfold QType.ofU16
  split <;> try exact .refl _
  rcases h.type n with hx | hx
  · left
    cases hr : RecordType.ofU16 c n <;> rw [hr] at hx <;> exact hx
  · right
    rw [hx, Res.mapValue_id, Res.mapValue_id]

/-- The value read by a build with the feature `mdns` as seen by one without it (or by itself). -/
def Question.seen (erase : Bool) (q : Question) : Question :=
  { q with unicastResponse := if erase then false else q.unicastResponse }
def ResourceRecord.seen (erase : Bool) (r : ResourceRecord) : ResourceRecord :=
  { r with cacheFlush := if erase then false else r.cacheFlush }
def Packet.seen (erase : Bool) (q : Packet) : Packet :=
  { q with questions := q.questions.map (·.seen erase), answers := q.answers.map (·.seen erase)
           authorities := q.authorities.map (·.seen erase), additional := q.additional.map (·.seen erase) }

@[simp] theorem Question.seen_false : Question.seen false = id := by funext q; simp [Question.seen]
@[simp] theorem ResourceRecord.seen_false : ResourceRecord.seen false = id := by
  funext q; simp [ResourceRecord.seen]
@[simp] theorem Packet.seen_false : Packet.seen false = id := by
  funext q
  obtain ⟨h, a, b, c, d⟩ := q
  simp [Packet.seen]

theorem Packet.parseBuf_agree_of {er : Bool} (h : c.Agree e p c')
    (hq : Parser.Agree e p (Question.seen er) (Question.parse c) (Question.parse c'))
    (hc : Parser.Agree e p (fun x => (x.1, if er then false else x.2)) (ResourceRecord.parseClass c)
      (ResourceRecord.parseClass c')) :
    Parser.Agree e p (Packet.seen er) (Packet.parseBuf c) (Packet.parseBuf c') := by
  have hr : Parser.Agree e p (ResourceRecord.seen er) (ResourceRecord.parse c) (ResourceRecord.parse c') :=
    .bind_same fun _ => .bind_same fun _ => (Parser.Agree.lift (h.type _)).bind_id fun _ => hc.bind fun _ =>
      .bind_same fun _ => .bind_same fun _ => ((RecordData.parse_agree h _).sub_id _).bind_id fun _ =>
      .bind_same fun _ => .pure _
  exact .bind_same fun _ => (hq.times _).bind fun _ => (hr.times _).bind fun _ => (hr.times _).bind fun _ =>
    (hr.times _).bind fun _ => .pure _

/-- Messages are read alike. -/
theorem Packet.parse_agree (h : c.Agree e p c') (hm : c'.mdns = c.mdns) (d : Bytes) :
    Res.Agree e p id (Packet.parse c d) (Packet.parse c' d) := by
  have hq : Parser.Agree e p (Question.seen false) (Question.parse c) (Question.parse c') := by
    rw [Question.seen_false]
    unfold Question.parse
    rw [hm]
    exact .bind_same fun _ => .bind_same fun _ => (Parser.Agree.lift (QType.ofU16_agree h _)).bind_id fun _ =>
      .refl _
  have hc : Parser.Agree e p (fun x => (x.1, if false then false else x.2)) (ResourceRecord.parseClass c)
      (ResourceRecord.parseClass c') := by
    unfold ResourceRecord.parseClass
    rw [hm]
    exact .refl _
  have := Packet.parseBuf_agree_of h hq hc d 0
  rw [Packet.seen_false] at this
  rcases this with h | h
  · exact .inl h
  · exact .inr (by simp [Packet.parse, h])

/-! ### Writing -/

theorem Bitmap.toBytes_agree (h : c.Arith e p c') (ts : List RecordType) :
    Res.Agree e p id (Bitmap.toBytes c ts) (Bitmap.toBytes c' ts) := by
  have ht : ∀ s t, Res.Agree e p id (writeType c s t) (writeType c' s t) := by
    intro s t
    unfold writeType
    refine (h.sub16 _ _).bind_id fun _ => ?_
    simp only
    split
    · exact Res.Agree.bind_id (.refl _) fun _ => (h.sub16 _ _).bind_id fun _ => .refl _
    · exact (h.sub16 _ _).bind_id fun _ => .refl _
  have hl : ∀ (l : List Nat) s, Res.Agree e p id (writeLoop c s l) (writeLoop c' s l) := by
    intro l
    induction l with
    | nil => intros; exact .refl _
    | cons t l ih => intro s; exact (ht _ _).bind_id fun _ => ih _
  exact hl _ _

theorem Bitmap.byteSize_agree (h : c.Arith e p c') (ts : List RecordType) :
    Res.Agree e p id (Bitmap.byteSize c ts) (Bitmap.byteSize c' ts) := by
  have hl : ∀ (l : List Nat) b x s, Res.Agree e p id (sizeLoop c b x s l) (sizeLoop c' b x s l) := by
    intro l
    induction l with
    | nil => intros; exact (h.sub16 _ _).bind_id fun _ => .refl _
    | cons t l ih =>
      intro b x s
      unfold sizeLoop
      refine (h.sub16 _ _).bind_id fun _ => ?_
      split
      · exact (h.sub16 _ _).bind_id fun _ => ih ..
      · exact ih ..
  exact hl ..

theorem Svcb.toBytes_agree (h : c.Arith e p c') (r : Svcb) :
    Res.Agree e p id (Svcb.toBytes c r) (Svcb.toBytes c' r) := by
  have hl : ∀ ps, Res.Agree e p id (Svcb.paramBytes c ps) (Svcb.paramBytes c' ps) := by
    intro ps
    induction ps with
    | nil => exact .refl _
    | cons q ps ih => exact Res.Agree.bind_id ((h.sub16 _ _).bind_id fun _ => .refl _) fun _ => ih.bind_id fun _ => .refl _
  exact (hl _).bind_id fun _ => .refl _

theorem RecordData.byteSize_agree (h : c.Arith e p c') (r : RecordData) :
    Res.Agree e p id (RecordData.byteSize c r) (RecordData.byteSize c' r) := by
  cases r
  case NSEC => exact (Bitmap.byteSize_agree h _).bind_id fun _ => .refl _
  case CSYNC => exact (Bitmap.byteSize_agree h _).bind_id fun _ => .refl _
  all_goals exact .refl _

theorem RecordData.toBytes_agree (h : c.Arith e p c') (r : RecordData) :
    Res.Agree e p id (RecordData.toBytes c r) (RecordData.toBytes c' r) := by
  cases r
  case CSYNC => exact (Bitmap.toBytes_agree h _).bind_id fun _ => .refl _
  case SVCB => exact Svcb.toBytes_agree h _
  case NSEC =>
    exact Res.Agree.bind_id ((Bitmap.byteSize_agree h _).bind_id fun _ => .refl _) fun _ =>
      (Bitmap.toBytes_agree h _).bind_id fun _ => .refl _
  all_goals exact .refl _

theorem RecordData.toBytesCompressed_agree (h : c.Arith e p c') (hs : Hash) (r : RecordData) (ns : Names)
    (o : Nat) : Res.Agree e p id (RecordData.toBytesCompressed c hs r ns o)
      (RecordData.toBytesCompressed c' hs r ns o) := by
  cases r
  case NSEC => exact (Bitmap.toBytes_agree h _).bind_id fun _ => .refl _
  case CSYNC => exact Res.Agree.bind_id ((Bitmap.toBytes_agree h _).bind_id fun _ => .refl _) fun _ => .refl _
  case SVCB => exact (Svcb.toBytes_agree h _).bind_id fun _ => .refl _
  all_goals exact .refl _

theorem Packet.byteSize_agree (h : c.Arith e p c') (q : Packet) :
    Res.Agree e p id (q.byteSize c) (q.byteSize c') := by
  have hr : ∀ rs n, Res.Agree e p id (Packet.recordsSize c rs n) (Packet.recordsSize c' rs n) := by
    intro rs
    induction rs with
    | nil => intros; exact .refl _
    | cons r rs ih =>
      intro n
      exact Res.Agree.bind_id ((RecordData.byteSize_agree h _).bind_id fun _ => .refl _) fun _ => ih _
  exact (hr _ _).bind_id fun _ => (hr _ _).bind_id fun _ => hr _ _

/-- Packets whose questions and records have the same class octets in both builds are written alike. -/
theorem Packet.toBytes_agree (h : c.Arith e p c') (q : Packet)
    (hq : ∀ x ∈ q.questions, x.classBits c' = x.classBits c)
    (hr : ∀ x ∈ q.answers ++ q.authorities ++ q.additional, x.classBits c' = x.classBits c) :
    Res.Agree e p id (q.toBytes c) (q.toBytes c') := by
  have h1 : ∀ rs b, (∀ x ∈ rs, ResourceRecord.classBits c' x = x.classBits c) →
      Res.Agree e p id (Packet.recordsBytes c rs b) (Packet.recordsBytes c' rs b) := by
    intro rs
    induction rs with
    | nil => intros; exact .refl _
    | cons r rs ih =>
      intro b hx
      refine Res.Agree.bind_id ?_ fun _ => ih _ fun x hm => hx x (List.mem_cons_of_mem _ hm)
      unfold ResourceRecord.toBytes
      rw [hx r (List.mem_cons_self ..)]
      exact (RecordData.byteSize_agree h _).bind_id fun _ => (RecordData.toBytes_agree h _).bind_id fun _ => .refl _
  have h2 : ∀ (qs : List Question) b, (∀ x ∈ qs, Question.classBits c' x = x.classBits c) →
      qs.foldl (fun bin q => bin ++ q.toBytes c') b = qs.foldl (fun bin q => bin ++ q.toBytes c) b := by
    intro qs
    induction qs with
    | nil => intros; rfl
    | cons r rs ih =>
      intro b hx
      simp only [List.foldl_cons]
      rw [ih _ fun x hm => hx x (List.mem_cons_of_mem _ hm)]
      unfold Question.toBytes
      rw [hx r (List.mem_cons_self ..)]
  unfold Packet.toBytes
  rw [h2 _ _ hq]
  refine (h1 _ _ fun x hx => hr x (by simp [hx])).bind_id fun _ => (h1 _ _ fun x hx => hr x (by simp [hx])).bind_id
    fun _ => h1 _ _ fun x hx => hr x (by simp [hx])

theorem Packet.toBytesCompressed_agree (h : c.Arith e p c') (hs : Hash) (q : Packet)
    (hq : ∀ x ∈ q.questions, x.classBits c' = x.classBits c)
    (hr : ∀ x ∈ q.answers ++ q.authorities ++ q.additional, x.classBits c' = x.classBits c) :
    Res.Agree e p id (q.toBytesCompressed c hs) (q.toBytesCompressed c' hs) := by
  have h1 : ∀ rs ns b, (∀ x ∈ rs, ResourceRecord.classBits c' x = x.classBits c) →
      Res.Agree e p id (Packet.recordsCompressed c hs rs ns b) (Packet.recordsCompressed c' hs rs ns b) := by
    intro rs
    induction rs with
    | nil => intros; exact .refl _
    | cons r rs ih =>
      intro ns b hx
      refine Res.Agree.bind_id ?_ fun _ => ih _ _ fun x hm => hx x (List.mem_cons_of_mem _ hm)
      unfold ResourceRecord.toBytesCompressed ResourceRecord.headCompressed
      rw [hx r (List.mem_cons_self ..)]
      exact (RecordData.toBytesCompressed_agree h ..).bind_id fun _ => .refl _
  have h2 : ∀ (qs : List Question) ns b, (∀ x ∈ qs, Question.classBits c' x = x.classBits c) →
      Packet.questionsCompressed c' hs qs ns b = Packet.questionsCompressed c hs qs ns b := by
    intro qs
    induction qs with
    | nil => intros; rfl
    | cons r rs ih =>
      intro ns b hx
      unfold Packet.questionsCompressed
      have : r.toBytesCompressed c' hs ns b.length = r.toBytesCompressed c hs ns b.length := by
        unfold Question.toBytesCompressed
        rw [hx r (List.mem_cons_self ..)]
      rw [this, ih _ _ fun x hm => hx x (List.mem_cons_of_mem _ hm)]
  unfold Packet.toBytesCompressed
  rw [h2 _ _ _ hq]
  exact (h1 _ _ _ fun x hx => hr x (by simp [hx])).bind_id fun _ =>
    (h1 _ _ _ fun x hx => hr x (by simp [hx])).bind_id fun _ =>
    (h1 _ _ _ fun x hx => hr x (by simp [hx])).bind_id fun _ => .refl _

/-! ### Sets of records, keys and signatures -/

theorem RRSet.toBytes_agree (h : c.Arith e p c') (search : Search) (s : RRSet) :
    Res.Agree e p id (s.toBytes c search) (s.toBytes c' search) := by
  have hr : ∀ rs n, Res.Agree e p id (RRSet.collect c search rs n) (RRSet.collect c' search rs n) := by
    intro rs
    induction rs with
    | nil => intros; exact .refl _
    | cons r rs ih => intro n; exact (RecordData.toBytes_agree h _).bind_id fun _ => ih _
  exact (hr _ _).bind_id fun _ => .refl _

theorem DnsKey.computeKeyTag_agree (h : c.Arith e p c') (k : DnsKey) :
    Res.Agree e p id (k.computeKeyTag c) (k.computeKeyTag c') := by
  have hr : ∀ bs i n, Res.Agree e p id (DnsKey.keyTagLoop c i n bs) (DnsKey.keyTagLoop c' i n bs) := by
    intro rs
    induction rs with
    | nil => intros; exact .refl _
    | cons r rs ih => intro i n; exact (h.add32 _ _).bind_id fun _ => ih _ _
  exact (hr ..).bind_id fun _ => (h.add32 _ _).bind_id fun _ => .refl _

theorem Rrsig.fromDnsKey_agree (h : c.Arith e p c') (x : Crypto) (search : Search) (k : DnsKey) (s : RRSet)
    (a b : SysTime) (priv : Bytes) :
    Res.Agree e p id (Rrsig.fromDnsKey c x search k s a b priv) (Rrsig.fromDnsKey c' x search k s a b priv) :=
  Res.Agree.bind_id (.refl _) fun _ => Res.Agree.bind_id (.refl _) fun _ =>
    (DnsKey.computeKeyTag_agree h _).bind_id fun _ => (RRSet.toBytes_agree h _ _).bind_id fun _ => .refl _

theorem Rrsig.verify_agree (h : c.Arith e p c') (x : Crypto) (search : Search) (r : Rrsig) (k : DnsKey)
    (s : RRSet) : Res.Agree e p id (Rrsig.verify c x search r k s) (Rrsig.verify c' x search r k s) := by
  unfold Rrsig.verify
  split
  · exact .refl _
  · exact (RRSet.toBytes_agree h _ _).bind_id fun _ => .refl _

end
end Dns
