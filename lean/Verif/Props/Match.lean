import Verif.Spec.Match
import Verif.Props.Receive
import Verif.Props.Codes
import Verif.Props.PacketWire
import Mathlib.Data.List.ProdSigma
import Mathlib.Data.List.Nodup

/-!
C134: a resolver tells the replies to its queries from other messages.
-/

namespace Dns
open Spec Buf

theorem qr_bit (h : Header) : h.queryResponse = true ↔ 128 ≤ h.flags.hi.toNat := by
  have : ∀ b : UInt8, ((Flags.getField b 7 1 != 0) = true ↔ 128 ≤ b.toNat) := forall_u8 (by decide +kernel)
  exact this h.flags.hi

theorem accepts_iff {cfg : Cfg} {id : UInt16} {q : Question} {d : Bytes} : accepts cfg id q d = true ↔
    ∃ p, Packet.parse cfg d = .ok p ∧ p.header.id = id ∧ p.header.queryResponse = true ∧ p.questions = [q] := by
  unfold accepts
  cases hp : Packet.parse cfg d with
  | ok p => simp [and_assoc]
  | err e => simp
  | panic k => simp
  | hang => simp

/-- The octets of the header and the place of the questions of a message that is read. -/
theorem read_front {cfg : Cfg} {d : Bytes} {p : Packet} (h : Packet.parse cfg d = .ok p) :
    Octets d 0 (octets16 p.header.id) 2 ∧ Octets d 2 [p.header.flags.hi] 3 ∧ Octets d 4 (octets16 p.header.quesCount) 6 ∧
      p.questions.length = p.header.quesCount.toNat ∧ ∃ j, ListAt (QuestionAt Decodes cfg d) 12 p.questions j := by
  obtain ⟨e, h1, _, _, _, i1, i2, _, _, h0, h2, _⟩ := Packet.parse_ok.mp h
  obtain ⟨k1, a1, k2, a2, k3, a3, k4, a4, k5, a5, k6, a6, k7, a7, rfl⟩ := h0
  simp only [Item.At] at a1 a2 a3 a4 a5 a6 a7
  have e1 := a1.end_eq
  have e2 := a2.end_eq
  have e3 := a3.end_eq
  have e4 := a4.end_eq
  have e5 := a5.end_eq
  have e6 := a6.end_eq
  have e7 := a7.end_eq
  simp only [octets16_length, List.length_singleton, Nat.zero_add] at e1 e2 e3 e4 e5 e6 e7
  subst e1; subst e2; subst e3; subst e4; subst e5; subst e6; subst e7
  exact ⟨a1, a2, a4, h1, _, h2⟩

theorem question_sound {cfg : Cfg} {d : Bytes} {i j : Nat} {q : Question} (h : QuestionAt Decodes cfg d i q j) :
    QuestionAt (NameWith 191 (fun _ _ => True)) cfg d i q j := by
  obtain ⟨h1, v, h2, k, h3, h4⟩ := h
  exact ⟨h1, v, h2, k, C07_decoded_name_sound _ _ _ _ h3, h4⟩

/-- C134: a message that is accepted starts with the identification of the query, is marked as a reply, has one
question, and the question is that of the query: its name octet for octet, its type and its class. -/
theorem C134_accepted (cfg : Cfg) (id : UInt16) (q : Question) (d : Bytes) (h : accepts cfg id q d = true) :
    AnswerTo (NameWith 191 (fun _ _ => True)) cfg id q d := by
  obtain ⟨p, hp, h1, h2, h3⟩ := accepts_iff.mp h
  obtain ⟨a1, a2, a3, a4, j, a5⟩ := read_front hp
  rw [h3] at a4 a5
  obtain ⟨k, a5, _⟩ := a5
  have : p.header.quesCount = 1 := UInt16.toNat_inj.mp (by rw [← a4]; rfl)
  exact ⟨h1 ▸ a1, ⟨_, a2, (qr_bit _).mp h2⟩, this ▸ a3, k, question_sound a5⟩
example : AnswerTo (NameWith 191 (fun _ _ => True)) ⟨true, true, true⟩ 1 ⟨[[97]], .rr .A, .IN, false⟩
    [0, 1, 128, 0, 0, 1, 0, 0, 0, 0, 0, 0, 1, 97, 0, 0, 1, 0, 1] :=
  C134_accepted _ _ _ _ (by decide +kernel)

/-- C134, exactly: of the messages that are read, those are accepted that have these octets. -/
theorem C134_exact (cfg : Cfg) (id : UInt16) (q : Question) (d : Bytes) (p : Packet) (hp : Packet.parse cfg d = .ok p) :
    accepts cfg id q d = true ↔ AnswerTo (NameWith 191 (fun _ _ => True)) cfg id q d := by
  refine ⟨C134_accepted cfg id q d, ?_⟩
  rintro ⟨h1, ⟨b, h2, h3⟩, h4, j, h5⟩
  obtain ⟨a1, a2, a3, a4, e, a5⟩ := read_front hp
  refine accepts_iff.mpr ⟨p, hp, octets_at_unique a1 h1, (qr_bit _).mpr ?_, ?_⟩
  · have := a2.inj h2 rfl
    rw [List.cons.injEq] at this
    rw [this.1]; exact h3
  · rw [octets_at_unique a3 h4] at a4
    obtain ⟨q', hq⟩ := List.length_eq_one_iff.mp a4
    rw [hq] at a5 ⊢
    obtain ⟨k, a5, _⟩ := a5
    have hn : QuestionAt Decodes cfg d 12 q j := by
      obtain ⟨x1, v, x2, m, x3, x4⟩ := h5
      obtain ⟨y1, w, y2, m', y3, y4⟩ := a5
      have x3 : NameWith 191 (fun _ _ => True) d 12 q.qName m := x3
      have y3 : Decodes d 12 q'.qName m' := y3
      obtain ⟨hn, rfl⟩ := nameWith_unique (Nat.le_refl _) (Nat.le_refl _) x3 (C07_decoded_name_sound _ _ _ _ y3)
      rw [← hn] at y3
      exact ⟨x1, v, x2, m, y3, x4⟩
    have z1 := Question.parse_ok.mpr hn
    have z2 := Question.parse_ok.mpr a5
    rw [z1] at z2
    simp only [Prod.mk.injEq, Res.ok.injEq] at z2
    rw [z2.1]

/-- C134: a reply with a pointer from the answer to the question. -/
example : accepts ⟨true, true, true⟩ 258 ⟨[[65, 98]], .rr .A, .IN, false⟩ [1, 2, 0x81, 0x80, 0, 1, 0, 1, 0, 0, 0, 0, 2, 65, 98, 0, 0, 1,
    0, 1, 0xC0, 12, 0, 1, 0, 1, 0, 0, 0, 5, 0, 4, 10, 0, 0, 1] = true := by decide +kernel

/-- C134: with another case of a letter, or as a query, it is not accepted. -/
example : accepts ⟨true, true, true⟩ 258 ⟨[[97, 98]], .rr .A, .IN, false⟩ [1, 2, 0x81, 0x80, 0, 1, 0, 0, 0, 0, 0, 0, 2, 65, 98, 0,
      0, 1, 0, 1] = false ∧
    accepts ⟨true, true, true⟩ 258 ⟨[[65, 98]], .rr .A, .IN, false⟩ [1, 2, 1, 0, 0, 1, 0, 0, 0, 0, 0, 0, 2, 65, 98, 0,
      0, 1, 0, 1] = false := by decide +kernel

/-- C134: a message is accepted for one query only; queries that differ in the identification, or in the case of one letter
of the name, are told apart. -/
theorem C134_one_query (cfg : Cfg) (id id' : UInt16) (q q' : Question) (d : Bytes) (h : accepts cfg id q d = true)
    (h' : accepts cfg id' q' d = true) : id = id' ∧ q = q' := by
  obtain ⟨p, hp, h1, _, h3⟩ := accepts_iff.mp h
  obtain ⟨p', hp', h1', _, h3'⟩ := accepts_iff.mp h'
  rw [hp] at hp'
  obtain rfl := Res.ok.inj hp'
  rw [h3] at h3'
  exact ⟨h1 ▸ h1', by simpa using h3'⟩
example (id : UInt16) (q : Question)
    (h : accepts ⟨true, true, true⟩ id q [0, 1, 128, 0, 0, 1, 0, 0, 0, 0, 0, 0, 1, 97, 0, 0, 1, 0, 1] = true) :
    id = 1 ∧ q = ⟨[[97]], .rr .A, .IN, false⟩ :=
  C134_one_query _ _ _ _ _ _ h (by decide +kernel)

/-- The letter in lower and upper case, or the octet alone. -/
def octetCases (b : UInt8) : List UInt8 :=
  if isLetter b then [lowerOctet b, UInt8.ofNat ((lowerOctet b).toNat - 32)] else [b]

/-- A label in all cases. -/
def labelCases : Bytes → List Bytes
  | [] => [[]]
  | b :: bs => (octetCases b ×ˢ labelCases bs).map fun x => x.1 :: x.2

/-- A name in all cases. -/
def nameCases : Fqdn → List Fqdn
  | [] => [[]]
  | l :: ls => (labelCases l ×ˢ nameCases ls).map fun x => x.1 :: x.2

theorem octetCases_spec : ∀ b : UInt8, (octetCases b).Nodup ∧ (octetCases b).length = 2 ^ (if isLetter b then 1 else 0) ∧
    ∀ c ∈ octetCases b, lowerOctet c = lowerOctet b := forall_u8 (by decide +kernel)

theorem cons_injective {α : Type} : Function.Injective fun x : α × List α => x.1 :: x.2 := by
  rintro ⟨a, b⟩ ⟨c, d⟩ h
  simpa using h

theorem labelCases_spec : ∀ l : Bytes, (labelCases l).Nodup ∧ (labelCases l).length = 2 ^ (l.filter isLetter).length ∧
    ∀ c ∈ labelCases l, c.map lowerOctet = l.map lowerOctet := by
  intro l
  induction l with
  | nil => simp [labelCases]
  | cons b bs ih =>
    obtain ⟨h1, h2, h3⟩ := octetCases_spec b
    obtain ⟨i1, i2, i3⟩ := ih
    refine ⟨(h1.product i1).map cons_injective, ?_, ?_⟩
    · simp only [labelCases, List.length_map, List.length_product, h2, i2, List.filter_cons]
      split
      · rw [List.length_cons, Nat.add_comm, Nat.pow_add]
      · rw [Nat.pow_zero, Nat.one_mul]
    · intro c hc
      simp only [labelCases, List.mem_map, Prod.exists] at hc
      obtain ⟨x, y, hm, rfl⟩ := hc
      obtain ⟨hx, hy⟩ := List.mem_product.mp hm
      simp [h3 x hx, i3 y hy]

theorem nameCases_spec : ∀ n : Fqdn, (nameCases n).Nodup ∧ (nameCases n).length = 2 ^ letters n ∧
    ∀ m ∈ nameCases n, SameName m n := by
  intro n
  induction n with
  | nil => simp [nameCases, letters, SameName]
  | cons l ls ih =>
    obtain ⟨h1, h2, h3⟩ := labelCases_spec l
    obtain ⟨i1, i2, i3⟩ := ih
    refine ⟨(h1.product i1).map cons_injective, ?_, ?_⟩
    · simp only [nameCases, List.length_map, List.length_product, h2, i2, letters, List.map_cons, List.sum_cons,
        Nat.pow_add]
    · intro c hc
      simp only [nameCases, List.mem_map, Prod.exists] at hc
      obtain ⟨x, y, hm, rfl⟩ := hc
      obtain ⟨hx, hy⟩ := List.mem_product.mp hm
      have h4 := i3 y hy
      simp only [SameName, lowerName, List.map_cons, h3 x hx] at h4 ⊢
      rw [h4]

/-- What a message is accepted for. -/
def acceptedFor (cfg : Cfg) (d : Bytes) : Option (UInt16 × Fqdn) :=
  match Packet.parse cfg d with
  | .ok p => p.questions.head?.map fun q => (p.header.id, q.qName)
  | _ => none

/-- C134: someone who cannot see a query has to guess the identification and the case of every letter of the name (RFC 5452;
"0x20" encoding).  If for every identification and every way to write the name in upper and lower case one of the
messages `ds` is accepted, there are at least 2^(16 + k) messages, where k is the number of letters of the name. -/
theorem C134_guesses (cfg : Cfg) (n : Fqdn) (t : QType) (c : QClass) (u : Bool) (ds : List Bytes)
    (h : ∀ id m, SameName m n → ∃ d ∈ ds, accepts cfg id ⟨m, t, c, u⟩ d = true) :
    2 ^ (16 + letters n) ≤ ds.length := by
  obtain ⟨h1, h2, h3⟩ := nameCases_spec n
  have hi : ((List.range 65536).map UInt16.ofNat).Nodup := by
    refine List.Nodup.map_on ?_ List.nodup_range
    intro x hx y hy hxy
    have := congrArg UInt16.toNat hxy
    rw [UInt16.toNat_ofNat', UInt16.toNat_ofNat'] at this
    rw [List.mem_range] at hx hy
    omega
  have hs : (((List.range 65536).map UInt16.ofNat) ×ˢ nameCases n) ⊆ ds.filterMap (acceptedFor cfg) := by
    rintro ⟨id, m⟩ hm
    obtain ⟨d, hd, ha⟩ := h id m (h3 m (List.mem_product.mp hm).2)
    obtain ⟨p, hp, e1, _, e2⟩ := accepts_iff.mp ha
    refine List.mem_filterMap.mpr ⟨d, hd, ?_⟩
    simp [acceptedFor, hp, e1, e2]
  have hl := (List.subperm_of_subset (hi.product h1) hs).length_le
  have hf := List.length_filterMap_le (acceptedFor cfg) ds
  rw [List.length_product, List.length_map, List.length_range, h2] at hl
  rw [Nat.pow_add]
  omega

theorem octetCases_complete (b c : UInt8) (h : lowerOctet c = lowerOctet b) : c ∈ octetCases b := by
  have key : ∀ b : UInt8, ∀ x : Fin 256, lowerOctet (UInt8.ofNat x.val) = lowerOctet b → UInt8.ofNat x.val ∈ octetCases b :=
    forall_u8 (by decide +kernel)
  have := key b ⟨c.toNat, c.toNat_lt⟩
  simp only [UInt8.ofNat_toNat] at this
  exact this h

theorem labelCases_complete : ∀ l c : Bytes, c.map lowerOctet = l.map lowerOctet → c ∈ labelCases l := by
  intro l
  induction l with
  | nil => intro c h; simpa [labelCases] using h
  | cons b bs ih =>
    intro c h
    cases c with
    | nil => simp at h
    | cons x xs =>
      simp only [List.map_cons, List.cons.injEq] at h
      exact List.mem_map.mpr ⟨(x, xs), List.mem_product.mpr ⟨octetCases_complete b x h.1, ih xs h.2⟩, rfl⟩

theorem nameCases_complete : ∀ n m : Fqdn, SameName m n → m ∈ nameCases n := by
  intro n
  induction n with
  | nil => intro m h; simpa [nameCases, SameName, lowerName] using h
  | cons l ls ih =>
    intro m h
    cases m with
    | nil => simp [SameName, lowerName] at h
    | cons x xs =>
      simp only [SameName, lowerName, List.map_cons, List.cons.injEq] at h
      exact List.mem_map.mpr ⟨(x, xs), List.mem_product.mpr ⟨labelCases_complete l x h.1, ih xs h.2⟩, rfl⟩

/-- A reply with one question and the records. -/
def replyTo (id : UInt16) (q : Question) (ans auth add : List ResourceRecord) : Packet :=
  ((((Packet.newReply id).setQuestions [q]).setAnswers ans).setAuthorities auth).setAdditionals add

theorem replyTo_counts (id : UInt16) (q : Question) (ans auth add : List ResourceRecord) (h1 : ans.length < 65536)
    (h2 : auth.length < 65536) (h3 : add.length < 65536) : CountsOk (replyTo id q ans auth add) := by
  have : ∀ n, n < 65536 → (lenU16 n).toNat = n := by
    intro n hn
    unfold lenU16
    rw [UInt16.toNat_ofNat']
    exact Nat.mod_eq_of_lt hn
  exact ⟨this 1 (by omega), this _ h1, this _ h2, this _ h3⟩

theorem replyTo_qr (id : UInt16) (q : Question) (ans auth add : List ResourceRecord) :
    (replyTo id q ans auth add).header.queryResponse = true := by
  exact (by decide : (Flags.qr (Header.newReply 0 .standardQuery).flags != 0) = true)

theorem accepts_of_parse {cfg : Cfg} {id : UInt16} {q : Question} {ans auth add : List ResourceRecord} {d : Bytes}
    (h : Packet.parse cfg d = .ok (replyTo id q ans auth add)) : accepts cfg id q d = true :=
  accepts_iff.mpr ⟨_, h, rfl, replyTo_qr id q ans auth add, rfl⟩

/-- C134: so many messages are enough; the number of `C134_guesses` is exact. -/
theorem C134_guesses_exact (cfg : Cfg) (n : Fqdn) (t : QType) (c : QClass) (u : Bool) (hq : QuestionOk cfg 63 ⟨n, t, c, u⟩) :
    ∃ ds : List Bytes, ds.length = 2 ^ (16 + letters n) ∧
      ∀ id m, SameName m n → ∃ d ∈ ds, accepts cfg id ⟨m, t, c, u⟩ d = true := by
  have key : ∀ id m, SameName m n → ∃ b, (replyTo id ⟨m, t, c, u⟩ [] [] []).toBytes cfg = .ok b ∧
      accepts cfg id ⟨m, t, c, u⟩ b = true := by
    intro id m hm
    have hok : NameOk 191 m := by
      have hl : ∀ a b : Fqdn, SameName a b → NameOk 63 b → NameOk 191 a := by
        intro a
        induction a with
        | nil => intro b _ _ l hl; cases hl
        | cons x xs ih =>
          intro b h hb
          cases b with
          | nil => simp [SameName, lowerName] at h
          | cons y ys =>
            simp only [SameName, lowerName, List.map_cons, List.cons.injEq] at h
            intro l hl
            rcases List.mem_cons.mp hl with rfl | hl
            · have := congrArg List.length h.1
              simp only [List.length_map] at this
              have := hb y List.mem_cons_self
              omega
            · exact ih ys h.2 (fun l hl => hb l (List.mem_cons_of_mem _ hl)) l hl
      exact hl m n hm hq.1
    have hp : PacketOk cfg 191 (replyTo id ⟨m, t, c, u⟩ [] [] []) := by
      refine ⟨?_, by simp [records, replyTo, Packet.setQuestions, Packet.setAnswers, Packet.setAuthorities,
        Packet.setAdditionals], (by decide : 1 < 65536), (by decide : 0 < 65536), (by decide : 0 < 65536),
        (by decide : 0 < 65536)⟩
      intro x hx
      simp only [replyTo, Packet.setQuestions, Packet.setAnswers, Packet.setAuthorities,
        Packet.setAdditionals, List.mem_singleton] at hx
      subst hx
      exact ⟨hok, hq.2⟩
    obtain ⟨b, h1, h2⟩ := C27_packet_round_trip_partial cfg _ hp (by simp [records, replyTo, Packet.setQuestions,
      Packet.setAnswers, Packet.setAuthorities, Packet.setAdditionals])
    have h3 := (h2 []).1
    rw [List.append_nil, C27_counts _ (replyTo_counts _ _ _ _ _ (by decide) (by decide) (by decide))] at h3
    exact ⟨b, h1, accepts_of_parse h3⟩
  have : ∃ f : UInt16 × Fqdn → Bytes, ∀ id m, SameName m n → accepts cfg id ⟨m, t, c, u⟩ (f (id, m)) = true := by
    classical
    refine ⟨fun x => if h : SameName x.2 n then (key x.1 x.2 h).choose else [], ?_⟩
    intro id m h
    simp only [h, dif_pos]
    exact (key id m h).choose_spec.2
  obtain ⟨f, hf⟩ := this
  refine ⟨(((List.range 65536).map UInt16.ofNat) ×ˢ nameCases n).map f, ?_, ?_⟩
  · rw [List.length_map, List.length_product, List.length_map, List.length_range, (nameCases_spec n).2.1, Nat.pow_add]
  · intro id m hm
    refine ⟨_, List.mem_map_of_mem (List.mem_product.mpr ⟨?_, nameCases_complete n m hm⟩), hf id m hm⟩
    exact List.mem_map.mpr ⟨id.toNat, List.mem_range.mpr id.toNat_lt, UInt16.ofNat_toNat⟩

/-- C134: 2^18 messages for a name of two letters, in builds with the feature `mdns` or without. -/
example (cfg : Cfg) : ∃ ds : List Bytes, ds.length = 2 ^ 18 ∧
    ∀ id m, SameName m [[65, 98, 49]] → ∃ d ∈ ds, accepts cfg id ⟨m, .ANY, .IN, false⟩ d = true := by
  obtain ⟨ds, h1, h2⟩ := C134_guesses_exact cfg [[65, 98, 49]] .ANY .IN false
    ⟨show NameOk 63 [[65, 98, 49]] by decide, trivial, by simp⟩
  exact ⟨ds, by rw [h1]; rfl, h2⟩

/-- C134 (partial): every reply of RFC 1035, with or without compression and whatever follows it, is accepted if its
identification and its question are those of the query.  What is missing: replies with data that are not `ReadWell` (C99),
and with records that the packet cannot say (`C134_unknown_type`). -/
theorem C134_reply_partial (cfg : Cfg) (id : UInt16) (q : Question) (d : Bytes) (r : Packet) (e : Nat)
    (h : ReceivedMessage cfg d r e) (hv : ∀ x ∈ records r, Writable cfg 63 x.rdata ∧ ReadWell x.rdata)
    (hi : r.header.id = id) (hr : 128 ≤ r.header.flags.hi.toNat) (hq : r.questions = [q]) :
    accepts cfg id q d = true :=
  accepts_iff.mpr ⟨r, (C99_received_partial cfg d r e h (fun x hx => (hv x hx).1) fun x hx => (hv x hx).2).1, hi,
    (qr_bit _).mpr hr, hq⟩

/-- C134: a reply in which one record has a type the crate does not know (HTTPS, NSEC3, CERT, ...) is not accepted for any
query, whatever else it says. -/
theorem C134_unknown_type (cfg : Cfg) (d : Bytes) (h : Header) (i1 i2 i k : Nat) (qs : List Question)
    (rs : List ResourceRecord) (n : Fqdn) (t : UInt16)
    (hh : Header.parse d 0 = (.ok h, i1)) (hq : Parser.times h.quesCount.toNat (Question.parse cfg) d i1 = (.ok qs, i2))
    (hrs : ListAt (fun a r b => ResourceRecord.parse cfg d a = (.ok r, b)) i2 rs i)
    (hl : rs.length < h.ansCount.toNat + h.authCount.toNat + h.addCount.toNat)
    (hn : extractFqdn d i = (.ok n, k)) (ht : Octets d k (octets16 t) (k + 2))
    (hr : ∀ u, Readable cfg u → typeNumber u ≠ t.toNat) (id : UInt16) (q : Question) : accepts cfg id q d = false := by
  rw [accepts, C42_packet_unknown_type cfg d h i1 i2 i k qs rs n t hh hq hrs hl hn ht hr]

/-- C134: the reply of `C134_counterexample`. -/
example (id : UInt16) (q : Question) : accepts ⟨true, true, true⟩ id q [0, 1, 128, 0, 0, 1, 0, 1, 0, 0, 0, 0, 1, 97, 0, 0, 255, 0, 1,
    0xC0, 12, 0, 65, 0, 1, 0, 0, 0, 5, 0, 3, 0, 1, 0] = false :=
  C134_unknown_type _ _ ⟨1, ⟨128, 0⟩, 1, 1, 0, 0⟩ 12 19 19 21 [⟨[[97]], .ANY, .IN, false⟩] [] [[97]] 65 (by decide +kernel)
    (by decide +kernel) rfl (by decide) (by decide +kernel)
    ⟨[0, 1, 128, 0, 0, 1, 0, 1, 0, 0, 0, 0, 1, 97, 0, 0, 255, 0, 1, 0xC0, 12], _, rfl, rfl, rfl⟩
    (by intro u _; cases u <;> decide) id q

/-- C134 is false: a reply to the query 1 for all records of `a`; it has the octets of a reply, the answer is an HTTPS
record (type 65, RFC 9460), and it is not accepted. -/
theorem C134_counterexample (cfg : Cfg) : ∃ d : Bytes,
    AnswerTo LegalName cfg 1 ⟨[[97]], .ANY, .IN, false⟩ d ∧ accepts cfg 1 ⟨[[97]], .ANY, .IN, false⟩ d = false := by
  refine ⟨[0, 1, 128, 0, 0, 1, 0, 1, 0, 0, 0, 0, 1, 97, 0, 0, 255, 0, 1, 0xC0, 12, 0, 65, 0, 1, 0, 0, 0, 5, 0, 3, 0, 1, 0],
    ⟨⟨[], _, rfl, rfl, rfl⟩, ⟨128, ⟨[0, 1], _, rfl, rfl, rfl⟩, by decide⟩, ⟨[0, 1, 128, 0], _, rfl, rfl, rfl⟩, 19, ?_⟩, ?_⟩
  · refine ⟨trivial, 1, ⟨rfl, by simp⟩, 15, ?_, 17, ⟨[0, 1, 128, 0, 0, 1, 0, 1, 0, 0, 0, 0, 1, 97, 0], _, rfl, rfl, rfl⟩, 19,
      ⟨[0, 1, 128, 0, 0, 1, 0, 1, 0, 0, 0, 0, 1, 97, 0, 0, 255], _, rfl, rfl, rfl⟩, rfl⟩
    exact .label (len := 1) (by decide) (by decide) rfl ⟨[0, 1, 128, 0, 0, 1, 0, 1, 0, 0, 0, 0], _, rfl, rfl, rfl⟩ (.root rfl)
  · have : ∀ a b c : Bool, accepts ⟨a, b, c⟩ 1 ⟨[[97]], .ANY, .IN, false⟩ [0, 1, 128, 0, 0, 1, 0, 1, 0, 0, 0, 0, 1, 97, 0, 0,
        255, 0, 1, 0xC0, 12, 0, 65, 0, 1, 0, 0, 0, 5, 0, 3, 0, 1, 0] = false := by decide +kernel
    exact this cfg.overflowChecks cfg.mdns cfg.dnssec

/-- The query with one question. -/
def queryFor (id : UInt16) (rd : Bool) (q : Question) : Packet := (Packet.newQuery id rd).setQuestions [q]

theorem ask_eq (cfg : Cfg) (write : Packet → Res Bytes) (id : UInt16) (rd : Bool) (q : Question) :
    ask cfg write id rd q = write (queryFor id rd q) := by
  have : ∀ a b c : Bool, Packet.incr ⟨a, b, c⟩ 0 = .ok 1 := by decide
  have := this cfg.overflowChecks cfg.mdns cfg.dnssec
  simp only [ask, Packet.addQuestion, Packet.newQuery, Header.newQuery, Res.pure_eq]
  rw [show Packet.incr cfg 0 = .ok 1 from this]
  rfl

theorem queryFor_ok {cfg : Cfg} {id : UInt16} {rd : Bool} {q : Question} (hq : QuestionOk cfg 191 q) :
    PacketOk cfg 191 (queryFor id rd q) ∧ CountsOk (queryFor id rd q) ∧ records (queryFor id rd q) = [] ∧
      packetNames (queryFor id rd q) = [q.qName] := by
  refine ⟨⟨?_, (fun r hr => by cases hr), (by decide : 1 < 65536), (by decide : 0 < 65536), (by decide : 0 < 65536),
    (by decide : 0 < 65536)⟩, ⟨rfl, rfl, rfl, rfl⟩, rfl, rfl⟩
  intro x hx
  rcases List.mem_singleton.mp (show x ∈ [q] from hx) with rfl
  exact hq

theorem answer_eq {cfg : Cfg} {write : Packet → Res Bytes} {ans auth add : List ResourceRecord} {d : Bytes} {id : UInt16}
    {rd : Bool} {q : Question} (h : Packet.parse cfg d = .ok (queryFor id rd q)) :
    answer cfg write ans auth add d = write (replyTo id q ans auth add) := by
  unfold answer
  rw [h]
  rfl

theorem replyTo_ok {cfg : Cfg} {id : UInt16} {q : Question} {ans auth add : List ResourceRecord} (hq : QuestionOk cfg 191 q)
    (hr : ∀ r ∈ ans ++ auth ++ add, RecordOk cfg 191 r) (h1 : ans.length < 65536) (h2 : auth.length < 65536)
    (h3 : add.length < 65536) : PacketOk cfg 191 (replyTo id q ans auth add) := by
  refine ⟨?_, hr, (by decide : 1 < 65536), h1, h2, h3⟩
  intro x hx
  rcases List.mem_singleton.mp (show x ∈ [q] from hx) with rfl
  exact hq

/-- C134 (partial), with the crate on both sides and the plain writer: what the server sends is accepted.  What is missing: the
records with data that the plain writer does not write as they should be (C27). -/
theorem C134_exchange_partial (cfg : Cfg) (id : UInt16) (rd : Bool) (q : Question) (ans auth add : List ResourceRecord)
    (hq : QuestionOk cfg 191 q) (hr : ∀ r ∈ ans ++ auth ++ add, RecordOk cfg 191 r) (h1 : ans.length < 65536)
    (h2 : auth.length < 65536) (h3 : add.length < 65536)
    (hs : ∀ r ∈ ans ++ auth ++ add, r.rdata.type ≠ .SSHFP ∧ sizeError r.rdata = 0) :
    ∃ d e, ask cfg (fun p => p.toBytes cfg) id rd q = .ok d ∧ answer cfg (fun p => p.toBytes cfg) ans auth add d = .ok e ∧
      accepts cfg id q e = true := by
  obtain ⟨p1, p2, p3, _⟩ := queryFor_ok (id := id) (rd := rd) hq
  obtain ⟨d, a1, a2⟩ := C27_packet_round_trip_partial cfg _ p1 (by rw [p3]; simp)
  obtain ⟨e, b1, b2⟩ := C27_packet_round_trip_partial cfg _ (replyTo_ok (id := id) hq hr h1 h2 h3) hs
  have a2 := (a2 []).1
  have b2 := (b2 []).1
  rw [List.append_nil, C27_counts _ p2] at a2
  rw [List.append_nil, C27_counts _ (replyTo_counts id q ans auth add h1 h2 h3)] at b2
  exact ⟨d, e, by rw [ask_eq]; exact a1, by rw [answer_eq a2]; exact b1, accepts_of_parse b2⟩

/-- C134 (partial), with compression: what is missing are SSHFP data, names with the same hash, and messages of more than 16384
octets (C28). -/
theorem C134_exchange_compressed_partial (cfg : Cfg) (h : Hash) (id : UInt16) (rd : Bool) (q : Question)
    (ans auth add : List ResourceRecord) (hq : QuestionOk cfg 191 q)
    (hr : ∀ r ∈ ans ++ auth ++ add, RecordOk cfg 191 r)
    (h1 : ans.length < 65536) (h2 : auth.length < 65536) (h3 : add.length < 65536)
    (hs : ∀ r ∈ ans ++ auth ++ add, r.rdata.type ≠ .SSHFP)
    (hh : NoCollision h (q.qName :: (ans ++ auth ++ add).flatMap fun r => r.name :: rdataNames r.rdata)) :
    ∃ d, ask cfg (fun p => p.toBytesCompressed cfg h) id rd q = .ok d ∧ (d.length ≤ 16384 →
      ∃ e, answer cfg (fun p => p.toBytesCompressed cfg h) ans auth add d = .ok e ∧
        (e.length ≤ 16384 → accepts cfg id q e = true)) := by
  obtain ⟨p1, p2, p3, p4⟩ := queryFor_ok (id := id) (rd := rd) hq
  obtain ⟨d, a1, a2⟩ := C28_compressed_round_trip_partial cfg h _ p1 p2 (by rw [p3]; simp)
    (by rw [p4]; intro a b ha hb
        exact hh a b (by obtain ⟨n, hn, h⟩ := ha; exact ⟨n, by simp at hn; simp [hn], h⟩)
          (by obtain ⟨n, hn, h⟩ := hb; exact ⟨n, by simp at hn; simp [hn], h⟩))
  obtain ⟨e, b1, b2⟩ := C28_compressed_round_trip_partial cfg h _ (replyTo_ok (id := id) hq hr h1 h2 h3)
    (replyTo_counts id q ans auth add h1 h2 h3) hs hh
  refine ⟨d, by rw [ask_eq]; exact a1, fun hd => ?_⟩
  have a2 := (a2 hd []).1
  rw [List.append_nil] at a2
  refine ⟨e, by rw [answer_eq a2]; exact b1, fun he => ?_⟩
  have b2 := (b2 he []).1
  rw [List.append_nil] at b2
  exact accepts_of_parse b2

/-- C134: a server with an MX record, an EDNS record with the compressing writer. -/
example : ∃ d e, ask ⟨true, true, true⟩ (fun p => p.toBytesCompressed ⟨true, true, true⟩ exHash) 7 true ⟨[[97]], .rr .MX, .IN, false⟩ = .ok d ∧
    answer ⟨true, true, true⟩ (fun p => p.toBytesCompressed ⟨true, true, true⟩ exHash)
      [⟨[[97]], .MX, false, .IN, 5, .MX ⟨10, [[98], [97]]⟩⟩] [] [⟨[], .OPT, false, .udpPayloadSize 1232, 0, .OPT ⟨[]⟩⟩] d = .ok e ∧
    accepts ⟨true, true, true⟩ 7 ⟨[[97]], .rr .MX, .IN, false⟩ e = true := by
  exact ⟨_, _, rfl, rfl, by decide +kernel⟩

/-- C134: the same with the plain writer, from the theorem. -/
example : ∃ d e, ask ⟨true, true, true⟩ (fun p => p.toBytes ⟨true, true, true⟩) 7 true ⟨[[97]], .rr .MX, .IN, false⟩ = .ok d ∧
    answer ⟨true, true, true⟩ (fun p => p.toBytes ⟨true, true, true⟩)
      [⟨[[97]], .MX, false, .IN, 5, .MX ⟨10, [[98], [97]]⟩⟩] [] [] d = .ok e ∧
    accepts ⟨true, true, true⟩ 7 ⟨[[97]], .rr .MX, .IN, false⟩ e = true := by
  refine C134_exchange_partial _ 7 true _ _ [] [] ⟨show NameOk 191 [[97]] by decide, by simp [QReadable, Readable], by simp⟩ ?_ (by decide)
    (by decide) (by decide) ?_
  · intro r hr
    simp only [List.append_nil, List.mem_singleton] at hr
    subst hr
    refine ⟨show NameOk 191 [[97]] by decide, by simp [Readable], rfl, trivial, by simp [classNumber], by simp,
      show NameOk 191 [[98], [97]] by decide, ?_⟩
    intro b hb
    cases hb
    decide
  · intro r hr
    simp only [List.append_nil, List.mem_singleton] at hr
    subst hr
    exact ⟨by decide, rfl⟩

end Dns
