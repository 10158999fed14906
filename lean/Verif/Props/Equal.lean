import Verif.Spec.Equal
import Verif.Props.Append
import Verif.Props.Exactly
import Verif.Props.Dnssec

/-
C110: packets that are equal are interchangeable.
-/

namespace Dns
open Spec Buf

theorem mem_iff_lookup {l : List (UInt16 × Bytes)} (h : (l.map Prod.fst).Nodup) (k : UInt16) (v : Bytes) :
    (k, v) ∈ l ↔ l.lookup k = some v := by
  induction l with
  | nil => simp
  | cons x l ih =>
    obtain ⟨a, b⟩ := x
    simp only [List.map_cons, List.nodup_cons] at h
    rw [List.lookup_cons, List.mem_cons]
    by_cases e : k = a
    · subst e
      have : (k, v) ∉ l := fun hm => h.1 (List.mem_map.mpr ⟨_, hm, rfl⟩)
      simp [this, eq_comm]
    · have hb : (k == a) = false := by simpa using e
      simp [hb, e, ih h.2]

theorem perm_of_lookup {a b : List (UInt16 × Bytes)} (ha : (a.map Prod.fst).Nodup) (hb : (b.map Prod.fst).Nodup)
    (h : ∀ k, a.lookup k = b.lookup k) : a.Perm b := by
  rw [List.perm_ext_iff_of_nodup (List.Nodup.of_map _ ha) (List.Nodup.of_map _ hb)]
  rintro ⟨k, v⟩
  rw [mem_iff_lookup ha, mem_iff_lookup hb, h]

theorem lookup_of_perm {a b : List (UInt16 × Bytes)} (ha : (a.map Prod.fst).Nodup) (h : a.Perm b) (k : UInt16) :
    a.lookup k = b.lookup k := by
  have hb : (b.map Prod.fst).Nodup := (h.map Prod.fst).nodup_iff.mp ha
  apply Option.ext
  intro v
  rw [← mem_iff_lookup ha, ← mem_iff_lookup hb, h.mem_iff]

/-- Equal records are the same, or OPT records with the options in another order. -/
inductive Near : ResourceRecord → ResourceRecord → Prop
  | refl (r) : Near r r
  | opt (r : ResourceRecord) {o o' : Opt} : o.options.Perm o'.options →
      Near { r with rdata := .OPT o } { r with rdata := .OPT o' }

theorem Spec.SameRecord.near {r s : ResourceRecord} (h : SameRecord r s)
    (hr : ∀ o, r.rdata = .OPT o → (o.options.map Prod.fst).Nodup)
    (hs : ∀ o, s.rdata = .OPT o → (o.options.map Prod.fst).Nodup) : Near r s := by
  obtain ⟨n, t, f, c, l, d⟩ := r
  obtain ⟨n', t', f', c', l', d'⟩ := s
  obtain ⟨h1, h2, h3, h4, h5, h6⟩ := h
  simp only at h1 h2 h3 h4 h5 h6 hr hs
  subst h1 h2 h3 h4 h5
  unfold SameData at h6
  split at h6
  · rename_i a b
    exact Near.opt ⟨n, t, f, c, l, .OPT a⟩ (perm_of_lookup (hr a rfl) (hs b rfl) h6)
  · subst h6; exact Near.refl _

theorem optToBytes_eq (o : Opt) : o.toBytes = optionOctets o.options := by
  have : ∀ (l : List (UInt16 × Bytes)) (acc : Bytes),
      l.foldl (fun buff e => buff ++ u16be e.1 ++ u16be (lenU16 e.2.length) ++ e.2) acc = acc ++ optionOctets l := by
    intro l
    induction l with
    | nil => simp [optionOctets]
    | cons x l ih => intro acc; rw [List.foldl_cons, ih]; simp [optionOctets, u16be_eq, lenU16]
  rw [Opt.toBytes, this]; rfl

theorem optionOctets_length {a b : List (UInt16 × Bytes)} (h : a.Perm b) :
    (optionOctets a).length = (optionOctets b).length := by
  rw [optionOctets, optionOctets, List.length_flatMap, List.length_flatMap]
  exact (h.map _).sum_eq

theorem Opt.byteSize_perm {a b : Opt} (h : a.options.Perm b.options) : a.byteSize = b.byteSize := by
  have h1 := Opt.size a
  have h2 := Opt.size b
  rw [optToBytes_eq] at h1 h2
  have := optionOctets_length h
  have := h.length_eq
  omega

theorem Spec.Reordered.refl (a : Bytes) : Reordered a a := by
  have := Reordered.same a Reordered.nil
  simpa using this

theorem Spec.Reordered.append {a b x y : Bytes} (h : Reordered a b) (h' : Reordered x y) : Reordered (a ++ x) (b ++ y) := by
  induction h with
  | nil => exact h'
  | same c _ ih => rw [List.append_assoc, List.append_assoc]; exact .same c ih
  | options p _ ih => rw [List.append_assoc, List.append_assoc]; exact .options p ih

theorem Spec.Reordered.length {a b : Bytes} (h : Reordered a b) : a.length = b.length := by
  induction h with
  | nil => rfl
  | same c _ ih => simp [ih]
  | options p _ ih => simp [ih, optionOctets_length p]

theorem Near.size (cfg : Cfg) {r s : ResourceRecord} (h : Near r s) : r.byteSize cfg = s.byteSize cfg := by
  cases h with
  | refl => rfl
  | opt r p => simp only [ResourceRecord.byteSize, RecordData.byteSize, Opt.byteSize_perm p]

theorem Near.bytes (cfg : Cfg) {r s : ResourceRecord} (h : Near r s) {a : Bytes} (ha : r.toBytes cfg = .ok a) :
    ∃ b, s.toBytes cfg = .ok b ∧ Reordered a b := by
  cases h with
  | refl => exact ⟨a, ha, .refl a⟩
  | opt r p =>
    simp only [ResourceRecord.toBytes, RecordData.byteSize, RecordData.toBytes, Res.ok_bind, Res.pure_eq,
      Res.ok.injEq] at ha ⊢
    refine ⟨_, rfl, ?_⟩
    subst ha
    rw [Opt.byteSize_perm p, optToBytes_eq, optToBytes_eq]
    refine .same _ ?_
    have := Reordered.options p Reordered.nil
    simpa using this

theorem Near.bytesC (cfg : Cfg) (h : Hash) {r s : ResourceRecord} (hn : Near r s) {ns : Names} {o : Nat}
    {a : Bytes × Names} (ha : r.toBytesCompressed cfg h ns o = .ok a) :
    ∃ b, s.toBytesCompressed cfg h ns o = .ok (b, a.2) ∧ Reordered a.1 b := by
  cases hn with
  | refl => exact ⟨a.1, ha, .refl _⟩
  | opt r p =>
    simp only [ResourceRecord.toBytesCompressed, ResourceRecord.headCompressed, ResourceRecord.classBits,
      RecordData.toBytesCompressed, Res.ok_bind, Res.pure_eq, Res.ok.injEq] at ha ⊢
    subst ha
    refine ⟨_, rfl, ?_⟩
    simp only [optToBytes_eq, optionOctets_length p]
    refine .same _ ?_
    have := Reordered.options p Reordered.nil
    simpa using this

/-- The same for questions and records. -/
inductive NearPart : Part → Part → Prop
  | question (q) : NearPart (.question q) (.question q)
  | record {r s} : Near r s → NearPart (.record r) (.record s)

theorem near_bytes (cfg : Cfg) {xs ys : List Part} (h : List.Forall₂ NearPart xs ys) {a : Bytes}
    (ha : partsBytes cfg xs = .ok a) : ∃ b, partsBytes cfg ys = .ok b ∧ Reordered a b := by
  induction h generalizing a with
  | nil => exact ⟨a, ha, .refl a⟩
  | @cons x y xs ys hx _ ih =>
    simp only [partsBytes, Res.bind_eq_ok, Res.pure_eq, Res.ok.injEq] at ha
    obtain ⟨a1, h1, a2, h2, rfl⟩ := ha
    obtain ⟨b2, g2, r2⟩ := ih h2
    obtain ⟨b1, g1, r1⟩ : ∃ b, Part.toBytes cfg y = .ok b ∧ Reordered a1 b := by
      cases hx with
      | question q => exact ⟨a1, h1, .refl _⟩
      | record hr => exact hr.bytes cfg h1
    exact ⟨b1 ++ b2, by simp [partsBytes, g1, g2], r1.append r2⟩

theorem near_bytesC (cfg : Cfg) (h : Hash) {xs ys : List Part} (hn : List.Forall₂ NearPart xs ys) {ns : Names}
    {o : Nat} {a : Bytes × Names} (ha : partsCompressed cfg h xs ns o = .ok a) :
    ∃ b, partsCompressed cfg h ys ns o = .ok (b, a.2) ∧ Reordered a.1 b := by
  induction hn generalizing a ns o with
  | nil => exact ⟨a.1, ha, .refl _⟩
  | @cons x y xs ys hx _ ih =>
    simp only [partsCompressed, Res.bind_eq_ok, Res.pure_eq, Res.ok.injEq] at ha
    obtain ⟨a1, h1, a2, h2, rfl⟩ := ha
    obtain ⟨b2, g2, r2⟩ := ih h2
    obtain ⟨b1, g1, r1⟩ : ∃ b, Part.toBytesCompressed cfg h y ns o = .ok (b, a1.2) ∧ Reordered a1.1 b := by
      cases hx with
      | question q => exact ⟨a1.1, h1, .refl _⟩
      | record hr => exact hr.bytesC cfg h h1
    rw [r1.length] at g2
    exact ⟨b1 ++ b2, by simp [partsCompressed, g1, g2], r1.append r2⟩

theorem near_records {rs ss : List ResourceRecord} (h : List.Forall₂ SameRecord rs ss)
    (hr : ∀ r ∈ rs, ∀ o, r.rdata = .OPT o → (o.options.map Prod.fst).Nodup)
    (hs : ∀ r ∈ ss, ∀ o, r.rdata = .OPT o → (o.options.map Prod.fst).Nodup) : List.Forall₂ Near rs ss := by
  induction h with
  | nil => exact .nil
  | cons hx _ ih =>
    exact .cons (hx.near (hr _ (by simp)) (hs _ (by simp))) (ih (fun r m => hr r (by simp [m])) (fun r m => hs r (by simp [m])))

theorem Spec.SamePacket.near {p q : Packet} (h : SamePacket p q) (hp : MapsOk p) (hq : MapsOk q) :
    List.Forall₂ Near p.answers q.answers ∧ List.Forall₂ Near p.authorities q.authorities ∧
      List.Forall₂ Near p.additional q.additional := by
  obtain ⟨_, _, h3, h4, h5⟩ := h
  unfold MapsOk records at hp hq
  exact ⟨near_records h3 (fun r m => hp r (by simp [m])) (fun r m => hq r (by simp [m])),
    near_records h4 (fun r m => hp r (by simp [m])) (fun r m => hq r (by simp [m])),
    near_records h5 (fun r m => hp r (by simp [m])) (fun r m => hq r (by simp [m]))⟩

theorem near_map {rs ss : List ResourceRecord} (h : List.Forall₂ Near rs ss) :
    List.Forall₂ NearPart (rs.map .record) (ss.map .record) := by
  induction h with
  | nil => exact .nil
  | cons hx _ ih => exact .cons (.record hx) ih

theorem forall₂_append {α β : Type} {R : α → β → Prop} {a c : List α} {b d : List β} (h : List.Forall₂ R a b)
    (h' : List.Forall₂ R c d) : List.Forall₂ R (a ++ c) (b ++ d) := by
  induction h with
  | nil => exact h'
  | cons hx _ ih => exact .cons hx ih

theorem Spec.SamePacket.parts {p q : Packet} (h : SamePacket p q) (hp : MapsOk p) (hq : MapsOk q) :
    List.Forall₂ NearPart (parts p) (parts q) := by
  obtain ⟨h3, h4, h5⟩ := h.near hp hq
  unfold Dns.parts
  rw [h.2.1, List.map_append, List.map_append, List.map_append, List.map_append]
  refine forall₂_append ?_ (forall₂_append (forall₂_append (near_map h3) (near_map h4)) (near_map h5))
  induction q.questions with
  | nil => exact .nil
  | cons x xs ih => exact .cons (.question x) ih

theorem Spec.SamePacket.headerBytes {p q : Packet} (h : SamePacket p q) : p.headerBytes = q.headerBytes := by
  obtain ⟨h1, h2, h3, h4, h5⟩ := h
  simp only [Packet.headerBytes, h1, h2, h3.length_eq, h4.length_eq, h5.length_eq]

/-- C110: equal packets are both written, to octets that are the same apart from the order of options; in
particular to equally many. -/
theorem C110_written (cfg : Cfg) (h : Hash) (p q : Packet) (hpq : SamePacket p q) (hp : MapsOk p) (hq : MapsOk q)
    (a : Bytes) :
    (p.toBytes cfg = .ok a → ∃ b, q.toBytes cfg = .ok b ∧ Reordered a b ∧ a.length = b.length) ∧
    (p.toBytesCompressed cfg h = .ok a → ∃ b, q.toBytesCompressed cfg h = .ok b ∧ Reordered a b ∧
      a.length = b.length) := by
  constructor
  · intro ha
    rw [toBytes_parts] at ha ⊢
    simp only [Res.bind_eq_ok, Res.pure_eq, Res.ok.injEq] at ha
    obtain ⟨x, h1, rfl⟩ := ha
    obtain ⟨y, h2, r⟩ := near_bytes cfg (hpq.parts hp hq) h1
    have r' := Reordered.same p.headerBytes r
    exact ⟨p.headerBytes ++ y, by simp [h2, hpq.headerBytes], r', r'.length⟩
  · intro ha
    rw [toBytesCompressed_parts] at ha ⊢
    simp only [Res.bind_eq_ok, Res.pure_eq, Res.ok.injEq] at ha
    obtain ⟨x, h1, rfl⟩ := ha
    obtain ⟨y, h2, r⟩ := near_bytesC cfg h (hpq.parts hp hq) h1
    have r' := Reordered.same p.header.toBytes r
    exact ⟨p.header.toBytes ++ y, by simp [h2, hpq.1], r', r'.length⟩


theorem SamePacket_refl (p : Packet) : SamePacket p p := by
  have hd : ∀ d : RecordData, SameData d d := by intro d; cases d <;> simp [SameData]
  have hr : ∀ rs : List ResourceRecord, List.Forall₂ SameRecord rs rs := by
    intro rs
    induction rs with
    | nil => exact .nil
    | cons r rs ih => exact .cons ⟨rfl, rfl, rfl, rfl, rfl, hd _⟩ ih
  exact ⟨rfl, rfl, hr _, hr _, hr _⟩

theorem near_sizes (cfg : Cfg) {rs ss : List ResourceRecord} (h : List.Forall₂ Near rs ss) (n : Nat) :
    Packet.recordsSize cfg rs n = Packet.recordsSize cfg ss n := by
  induction h generalizing n with
  | nil => rfl
  | cons hx _ ih => simp only [Packet.recordsSize, hx.size cfg, ih]

/-- C110: `byte_size()` of equal packets is the same. -/
theorem C110_size (cfg : Cfg) (p q : Packet) (hpq : SamePacket p q) (hp : MapsOk p) (hq : MapsOk q) :
    p.byteSize cfg = q.byteSize cfg := by
  obtain ⟨h3, h4, h5⟩ := hpq.near hp hq
  simp only [Packet.byteSize, hpq.2.1, near_sizes cfg h3, near_sizes cfg h4, near_sizes cfg h5]

theorem Near.ok {cfg : Cfg} {max : Nat} {r s : ResourceRecord} (h : Near r s) (hr : RecordOk cfg max r) :
    RecordOk cfg max s := by
  cases h with
  | refl => exact hr
  | opt r p =>
    obtain ⟨h1, h2, h3, h4, h5, h6, h7, h8⟩ := hr
    refine ⟨h1, h2, h3, h4, h5, h6, ?_, ?_⟩
    · simp only [Writable] at h7 ⊢
      exact ⟨(p.map Prod.fst).nodup_iff.mp h7.1, fun o m => h7.2 o (p.mem_iff.mpr m)⟩
    · intro b hb
      simp only [RecordData.toBytes, Res.ok.injEq, forall_eq'] at h8 hb
      rw [← hb, optToBytes_eq, ← optionOctets_length p, ← optToBytes_eq]
      exact h8

theorem near_mem {R : ResourceRecord → ResourceRecord → Prop} {rs ss : List ResourceRecord} (h : List.Forall₂ R rs ss)
    {s : ResourceRecord} (hs : s ∈ ss) : ∃ r ∈ rs, R r s := by
  induction h with
  | nil => cases hs
  | @cons x y xs ys hx _ ih =>
    rcases List.mem_cons.mp hs with rfl | hs
    · exact ⟨x, by simp, hx⟩
    · obtain ⟨r, h1, h2⟩ := ih hs; exact ⟨r, by simp [h1], h2⟩

theorem near_names {rs ss : List ResourceRecord} (h : List.Forall₂ Near rs ss) :
    rs.flatMap (fun r => r.name :: rdataNames r.rdata) = ss.flatMap (fun r => r.name :: rdataNames r.rdata) := by
  induction h with
  | nil => rfl
  | cons hx _ ih => rw [List.flatMap_cons, List.flatMap_cons, ih]; cases hx <;> rfl

theorem Spec.SamePacket.records {p q : Packet} (h : SamePacket p q) (hp : MapsOk p) (hq : MapsOk q) :
    List.Forall₂ Near (records p) (records q) := by
  obtain ⟨h3, h4, h5⟩ := h.near hp hq
  exact forall₂_append (forall₂_append h3 h4) h5

/-- An OPT record with two options, and the packet with it. -/
def exOpt (kvs : List (UInt16 × Bytes)) : Packet :=
  ⟨⟨1, ⟨0x80, 0⟩, 0, 0, 0, 1⟩, [], [], [], [⟨[], .OPT, false, .udpPayloadSize 1232, 0, .OPT ⟨kvs⟩⟩]⟩

theorem exOpt_same : SamePacket (exOpt [(3, []), (10, [1, 2])]) (exOpt [(10, [1, 2]), (3, [])]) ∧
    MapsOk (exOpt [(3, []), (10, [1, 2])]) ∧ MapsOk (exOpt [(10, [1, 2]), (3, [])]) := by
  refine ⟨⟨rfl, rfl, .nil, .nil, .cons ⟨rfl, rfl, rfl, rfl, rfl, ?_⟩ .nil⟩, ?_, ?_⟩
  · exact lookup_of_perm (by decide) (by decide)
  · intro r hr o ho; simp [Spec.records, exOpt] at hr; subst hr; cases ho; decide
  · intro r hr o ho; simp [Spec.records, exOpt] at hr; subst hr; cases ho; decide

example : (exOpt [(3, []), (10, [1, 2])]).toBytes ⟨true, true, true⟩ = .ok
    [0, 1, 128, 0, 0, 0, 0, 0, 0, 0, 0, 1, 0, 0, 41, 4, 208, 0, 0, 0, 0, 0, 4, 0, 3, 0, 0, 0, 10, 0, 2, 1, 2] := by
  decide +kernel

example : PacketOk ⟨true, true, true⟩ 191 (exOpt [(3, []), (10, [1, 2])]) ∧
    CountsOk (exOpt [(3, []), (10, [1, 2])]) ∧ NoCollision exHash (packetNames (exOpt [(3, []), (10, [1, 2])])) := by
  refine ⟨⟨by simp [exOpt], ?_, by decide, by decide, by decide, by decide⟩, ⟨rfl, rfl, rfl, rfl⟩, ?_⟩
  · intro r hr
    simp [Spec.records, exOpt] at hr
    subst hr
    refine ⟨by decide, by decide, rfl, by simp [classOk], by decide, by simp, ⟨by decide, by decide⟩, ?_⟩
    intro b hb
    cases hb
    decide
  · rintro a b ⟨n, hn, ha⟩ ⟨m, hm, hb⟩ -
    simp [packetNames, Spec.records, exOpt, rdataNames] at hn hm
    subst hn hm
    rw [List.suffix_nil.mp ha, List.suffix_nil.mp hb]

/-- C110: what is written with compression for one of two equal packets is read as a packet that is equal to
both. -/
theorem C110_read (cfg : Cfg) (h : Hash) (p q : Packet) (hpq : SamePacket p q) (hm : MapsOk p) (hq : MapsOk q)
    (hp : PacketOk cfg 191 p) (hc : CountsOk p) (hs : ∀ r ∈ records p, r.rdata.type ≠ .SSHFP)
    (hh : NoCollision h (packetNames p)) (b rest : Bytes) (hb : q.toBytesCompressed cfg h = .ok b)
    (hl : b.length ≤ 16384) :
    ∃ r, Packet.parse cfg (b ++ rest) = .ok r ∧ SamePacket p r ∧ SamePacket q r := by
  have hn := hpq.records hm hq
  obtain ⟨n3, n4, n5⟩ := hpq.near hm hq
  have hq' : PacketOk cfg 191 q := by
    obtain ⟨p1, p2, p3, p4, p5, p6⟩ := hp
    refine ⟨hpq.2.1 ▸ p1, ?_, hpq.2.1 ▸ p3, n3.length_eq ▸ p4, n4.length_eq ▸ p5, n5.length_eq ▸ p6⟩
    intro s hs
    obtain ⟨r, hr, e⟩ := near_mem hn hs
    exact e.ok (p2 r hr)
  have hc' : CountsOk q := by
    obtain ⟨c1, c2, c3, c4⟩ := hc
    rw [hpq.1] at c1 c2 c3 c4
    exact ⟨hpq.2.1 ▸ c1, n3.length_eq ▸ c2, n4.length_eq ▸ c3, n5.length_eq ▸ c4⟩
  have hs' : ∀ r ∈ records q, r.rdata.type ≠ .SSHFP := by
    intro s hsm
    obtain ⟨r, hr, e⟩ := near_mem hn hsm
    have := hs r hr
    cases e with
    | refl => exact this
    | opt => simp [RecordData.type]
  have hh' : NoCollision h (packetNames q) := by
    have : packetNames q = packetNames p := by
      rw [packetNames, packetNames, hpq.2.1, near_names hn]
    rw [this]; exact hh
  obtain ⟨b', h1, h2⟩ := C28_compressed_round_trip_partial cfg h q hq' hc' hs' hh'
  rw [hb] at h1
  cases h1
  exact ⟨q, (h2 hl rest).1, hpq, SamePacket_refl q⟩

theorem near_eq {r s : ResourceRecord} (h : Near r s) (ho : ∀ o, r.rdata = .OPT o → o.options.length ≤ 1) : r = s := by
  cases h with
  | refl => rfl
  | @opt r o o' p =>
    have := ho o rfl
    obtain ⟨l⟩ := o
    obtain ⟨l'⟩ := o'
    match l, this, p with
    | [], _, p =>
      have e : l' = [] := List.nil_perm.mp p
      rw [e]
    | [x], _, p =>
      have e : [x] = l' := List.singleton_perm.mp p
      rw [← e]

theorem near_list_eq {rs ss : List ResourceRecord} (h : List.Forall₂ Near rs ss)
    (ho : ∀ r ∈ rs, ∀ o, r.rdata = .OPT o → o.options.length ≤ 1) : rs = ss := by
  induction h with
  | nil => rfl
  | cons hx _ ih =>
    rw [near_eq hx (ho _ (by simp)), ih (fun r m => ho r (by simp [m]))]

/-- C110 (partial): equal packets are written to the same octets if no OPT record has more than one option.
What is missing: packets with OPT records of two or more options; for them it is false, see
`C110_counterexample` and `C110_exact`. -/
theorem C110_same_octets_partial (cfg : Cfg) (h : Hash) (p q : Packet) (hpq : SamePacket p q) (hp : MapsOk p)
    (hq : MapsOk q) (ho : ∀ r ∈ records p, ∀ o, r.rdata = .OPT o → o.options.length ≤ 1) :
    p.toBytes cfg = q.toBytes cfg ∧ p.toBytesCompressed cfg h = q.toBytesCompressed cfg h := by
  obtain ⟨n3, n4, n5⟩ := hpq.near hp hq
  have e : p = q := by
    obtain ⟨a, b, c, d, e⟩ := p
    obtain ⟨a', b', c', d', e'⟩ := q
    obtain ⟨h1, h2, _⟩ := hpq
    simp only [Spec.records] at h1 h2 n3 n4 n5 ho
    rw [h1, h2, near_list_eq n3 (fun r m => ho r (by simp [m])), near_list_eq n4 (fun r m => ho r (by simp [m])),
      near_list_eq n5 (fun r m => ho r (by simp [m]))]
  subst e
  exact ⟨rfl, rfl⟩

/-- C110 is false: equal packets with two options are written to different octets, with and without
compression. -/
theorem C110_counterexample : ∃ p q : Packet, SamePacket p q ∧ MapsOk p ∧ MapsOk q ∧
    p.toBytes ⟨true, true, true⟩ ≠ q.toBytes ⟨true, true, true⟩ ∧
    ∀ h : Hash, p.toBytesCompressed ⟨true, true, true⟩ h ≠ q.toBytesCompressed ⟨true, true, true⟩ h := by
  refine ⟨_, _, exOpt_same.1, exOpt_same.2.1, exOpt_same.2.2, by decide +kernel, fun h => ?_⟩
  have e : ∀ kvs, (exOpt kvs).toBytesCompressed ⟨true, true, true⟩ h =
      (exOpt kvs).toBytesCompressed ⟨true, true, true⟩ (fun _ => 0) := fun _ => rfl
  rw [e, e]
  decide +kernel

theorem octets_swap (x y : UInt16 × Bytes) (l : List (UInt16 × Bytes)) (h : x.1 ≠ y.1) :
    optionOctets (x :: y :: l) ≠ optionOctets (y :: x :: l) := by
  intro e
  simp only [optionOctets, List.flatMap_cons, List.append_assoc] at e
  exact h (octets16_inj e).1

/-- The record with its first two options exchanged. -/
theorem swap_record (cfg : Cfg) (h : Hash) (r : ResourceRecord) {x y : UInt16 × Bytes} {l : List (UInt16 × Bytes)}
    (ho : r.rdata = .OPT ⟨x :: y :: l⟩) (hm : ((x :: y :: l).map Prod.fst).Nodup) :
    ∃ s : ResourceRecord, SameRecord r s ∧ (∀ o, s.rdata = .OPT o → (o.options.map Prod.fst).Nodup) ∧
      r.toBytes cfg ≠ s.toBytes cfg ∧ ∀ ns o, r.toBytesCompressed cfg h ns o ≠ s.toBytesCompressed cfg h ns o := by
  have hp : (x :: y :: l).Perm (y :: x :: l) := List.Perm.swap y x l
  have hx : x.1 ≠ y.1 := by
    intro e
    simp [e] at hm
  obtain ⟨n, t, f, c, ttl, d⟩ := r
  simp only at ho
  subst ho
  refine ⟨⟨n, t, f, c, ttl, .OPT ⟨y :: x :: l⟩⟩, ⟨rfl, rfl, rfl, rfl, rfl, lookup_of_perm hm hp⟩, ?_, ?_, ?_⟩
  · rintro o ⟨⟩
    exact (hp.map Prod.fst).nodup_iff.mp hm
  · intro e
    simp only [ResourceRecord.toBytes, RecordData.byteSize, RecordData.toBytes, Res.ok_bind, Res.pure_eq,
      Res.ok.injEq, ResourceRecord.classBits] at e
    rw [Opt.byteSize_perm (a := ⟨x :: y :: l⟩) (b := ⟨y :: x :: l⟩) hp, List.append_cancel_left_eq, optToBytes_eq,
      optToBytes_eq] at e
    exact octets_swap x y l hx e
  · intro ns o e
    simp only [ResourceRecord.toBytesCompressed, ResourceRecord.headCompressed, ResourceRecord.classBits,
      RecordData.toBytesCompressed, Res.ok_bind, Res.pure_eq, Res.ok.injEq, Prod.mk.injEq, and_true, optToBytes_eq,
      optionOctets_length hp, List.append_cancel_left_eq] at e
    exact octets_swap x y l hx e

/-- Exchanging a record that is written to as many octets but not the same changes what is written. -/
theorem parts_differ (cfg : Cfg) {r s : ResourceRecord} (hd : r.toBytes cfg ≠ s.toBytes cfg)
    (pre post : List Part) (a : Bytes) (ha : partsBytes cfg (pre ++ .record r :: post) = .ok a) :
    partsBytes cfg (pre ++ .record s :: post) ≠ .ok a := by
  intro hb
  simp only [partsBytes_append, partsBytes, Part.toBytes, Res.bind_eq_ok, Res.pure_eq, Res.ok.injEq] at ha hb
  obtain ⟨a1, h1, a2, ⟨a3, h3, a4, h4, rfl⟩, rfl⟩ := ha
  obtain ⟨b1, g1, b2, ⟨b3, g3, b4, g4, rfl⟩, e⟩ := hb
  rw [h1] at g1
  rw [h4] at g4
  cases g1
  cases g4
  have := (List.append_cancel_right (List.append_cancel_left e))
  rw [h3, g3, this] at hd
  exact hd rfl

theorem parts_differC (cfg : Cfg) (h : Hash) {r s : ResourceRecord} (hn : Near r s)
    (hd : ∀ ns o, r.toBytesCompressed cfg h ns o ≠ s.toBytesCompressed cfg h ns o)
    (pre post : List Part) (ns : Names) (o : Nat) (a : Bytes × Names)
    (ha : partsCompressed cfg h (pre ++ .record r :: post) ns o = .ok a) (ns' : Names) :
    partsCompressed cfg h (pre ++ .record s :: post) ns o ≠ .ok (a.1, ns') := by
  intro hb
  simp only [partsCompressed_append, partsCompressed, Part.toBytesCompressed, Res.bind_eq_ok, Res.pure_eq,
    Res.ok.injEq, Prod.mk.injEq] at ha hb
  obtain ⟨a1, h1, a2, ⟨a3, h3, a4, h4, rfl⟩, rfl⟩ := ha
  obtain ⟨b1, g1, b2, ⟨b3, g3, b4, g4, rfl⟩, e, -⟩ := hb
  rw [h1] at g1
  cases g1
  obtain ⟨c, e1, e2⟩ := hn.bytesC cfg h h3
  rw [e1] at g3
  cases g3
  have hl := e2.length
  have := (List.append_inj (List.append_cancel_left e) hl.symm).1
  simp only at this
  apply hd a1.2 (o + a1.1.length)
  rw [h3, e1, this]

theorem forall₂_replace {R : ResourceRecord → ResourceRecord → Prop} (hR : ∀ r, R r r) {r s : ResourceRecord}
    (h : R r s) (l1 l2 : List ResourceRecord) : List.Forall₂ R (l1 ++ r :: l2) (l1 ++ s :: l2) := by
  have hl : ∀ l : List ResourceRecord, List.Forall₂ R l l := by
    intro l
    induction l with
    | nil => exact .nil
    | cons x l ih => exact .cons (hR x) ih
  exact forall₂_append (hl l1) (.cons h (hl l2))

/-- C110, exactly: a packet that can be written is written to the same octets as every packet that is equal to
it if and only if none of its OPT records has two options; the same is so with compression. -/
theorem C110_exact (cfg : Cfg) (h : Hash) (p : Packet) (hp : MapsOk p) :
    (∀ a, p.toBytes cfg = .ok a →
      ((∀ q, SamePacket p q → MapsOk q → q.toBytes cfg = .ok a) ↔
        ∀ r ∈ records p, ∀ o, r.rdata = .OPT o → o.options.length ≤ 1)) ∧
    (∀ a, p.toBytesCompressed cfg h = .ok a →
      ((∀ q, SamePacket p q → MapsOk q → q.toBytesCompressed cfg h = .ok a) ↔
        ∀ r ∈ records p, ∀ o, r.rdata = .OPT o → o.options.length ≤ 1)) := by
  -- a packet with one record exchanged
  have key : ∀ r ∈ records p, ∀ o, r.rdata = .OPT o → ¬ o.options.length ≤ 1 →
      ∃ q r s pre post, SamePacket p q ∧ MapsOk q ∧ Near r s ∧ r.toBytes cfg ≠ s.toBytes cfg ∧
        (∀ ns o, r.toBytesCompressed cfg h ns o ≠ s.toBytesCompressed cfg h ns o) ∧
        parts p = pre ++ .record r :: post ∧ parts q = pre ++ .record s :: post := by
    intro r hr o ho hl
    obtain ⟨l⟩ := o
    match l, hl with
    | [], hl => simp at hl
    | [_], hl => simp at hl
    | x :: y :: l, _ =>
      have hm := hp r hr _ ho
      obtain ⟨s, s1, s2, s3, s4⟩ := swap_record cfg h r ho hm
      have hn := s1.near (fun o e => hp r hr o e) s2
      have hrefl : ∀ r, SameRecord r r := fun r => by
        have := (SamePacket_refl ⟨p.header, [], [r], [], []⟩).2.2.1
        cases this
        assumption
      have hsame := SamePacket_refl p
      have hr' := hr
      simp only [Spec.records, List.mem_append] at hr'
      rcases hr' with (hr' | hr') | hr'
      · obtain ⟨l1, l2, e⟩ := List.append_of_mem hr'
        refine ⟨{ p with answers := l1 ++ s :: l2 }, r, s, p.questions.map .question ++ l1.map .record,
          (l2 ++ p.authorities ++ p.additional).map .record,
          ⟨rfl, rfl, e ▸ forall₂_replace hrefl s1 l1 l2, hsame.2.2.2.1, hsame.2.2.2.2⟩, ?_, hn, s3, s4, ?_, ?_⟩
        · intro t ht o' ho'
          simp only [Spec.records, List.mem_append, List.mem_cons] at ht
          by_cases ets : t = s
          · exact s2 o' (ets ▸ ho')
          · exact hp t (by simp only [Spec.records, e, List.mem_append, List.mem_cons]; tauto) o' ho'
        · simp [parts, e]
        · simp [parts]
      · obtain ⟨l1, l2, e⟩ := List.append_of_mem hr'
        refine ⟨{ p with authorities := l1 ++ s :: l2 }, r, s,
          p.questions.map .question ++ (p.answers ++ l1).map .record, (l2 ++ p.additional).map .record,
          ⟨rfl, rfl, hsame.2.2.1, e ▸ forall₂_replace hrefl s1 l1 l2, hsame.2.2.2.2⟩, ?_, hn, s3, s4, ?_, ?_⟩
        · intro t ht o' ho'
          simp only [Spec.records, List.mem_append, List.mem_cons] at ht
          by_cases ets : t = s
          · exact s2 o' (ets ▸ ho')
          · exact hp t (by simp only [Spec.records, e, List.mem_append, List.mem_cons]; tauto) o' ho'
        · simp [parts, e]
        · simp [parts]
      · obtain ⟨l1, l2, e⟩ := List.append_of_mem hr'
        refine ⟨{ p with additional := l1 ++ s :: l2 }, r, s,
          p.questions.map .question ++ (p.answers ++ p.authorities ++ l1).map .record, l2.map .record,
          ⟨rfl, rfl, hsame.2.2.1, hsame.2.2.2.1, e ▸ forall₂_replace hrefl s1 l1 l2⟩, ?_, hn, s3, s4, ?_, ?_⟩
        · intro t ht o' ho'
          simp only [Spec.records, List.mem_append, List.mem_cons] at ht
          by_cases ets : t = s
          · exact s2 o' (ets ▸ ho')
          · exact hp t (by simp only [Spec.records, e, List.mem_append, List.mem_cons]; tauto) o' ho'
        · simp [parts, e]
        · simp [parts]
  constructor
  · intro a ha
    refine ⟨fun H r hr o ho => ?_, fun ho q hq hm => ?_⟩
    · by_contra hl
      obtain ⟨q, r, s, pre, post, k1, k2, k3, k4, -, k6, k7⟩ := key r hr o ho hl
      have hb := H q k1 k2
      rw [toBytes_parts, k6] at ha
      rw [toBytes_parts, k7, ← k1.headerBytes] at hb
      simp only [Res.bind_eq_ok, Res.pure_eq, Res.ok.injEq] at ha hb
      obtain ⟨x, h1, rfl⟩ := ha
      obtain ⟨y, h2, e⟩ := hb
      cases List.append_cancel_left e
      exact parts_differ cfg k4 pre post _ h1 h2
    · rw [← (C110_same_octets_partial cfg h p q hq hp hm ho).1, ha]
  · intro a ha
    refine ⟨fun H r hr o ho => ?_, fun ho q hq hm => ?_⟩
    · by_contra hl
      obtain ⟨q, r, s, pre, post, k1, k2, k3, -, k5, k6, k7⟩ := key r hr o ho hl
      have hb := H q k1 k2
      rw [toBytesCompressed_parts, k6] at ha
      rw [toBytesCompressed_parts, k7, ← k1.1] at hb
      simp only [Res.bind_eq_ok, Res.pure_eq, Res.ok.injEq] at ha hb
      obtain ⟨x, h1, rfl⟩ := ha
      obtain ⟨y, h2, e⟩ := hb
      have e' := List.append_cancel_left e
      exact parts_differC cfg h k3 k5 pre post _ _ _ h1 y.2 (by rw [h2, ← e'])
    · rw [← (C110_same_octets_partial cfg h p q hq hp hm ho).2, ha]

example : MapsOk (exOpt [(10, [1, 2])]) ∧
    (exOpt [(10, [1, 2])]).toBytes ⟨true, true, true⟩ = .ok
      [0, 1, 128, 0, 0, 0, 0, 0, 0, 0, 0, 1, 0, 0, 41, 4, 208, 0, 0, 0, 0, 0, 4, 0, 10, 0, 2, 1, 2] ∧
    ∀ r ∈ records (exOpt [(10, [1, 2])]), ∀ o, r.rdata = .OPT o → o.options.length ≤ 1 := by
  refine ⟨?_, by decide +kernel, ?_⟩ <;>
  · intro r hr o ho; simp [Spec.records, exOpt] at hr; subst hr; cases ho; decide

/-- C110: the options of every OPT record that is read are a map. -/
theorem C110_maps (cfg : Cfg) (d : Bytes) (p : Packet) (h : Packet.parse cfg d = .ok p) : MapsOk p := by
  obtain ⟨e, h1, h2, h3, h4, i1, i2, i3, i4, _, hq, ha, hu, hd⟩ := Packet.parse_ok.mp h
  intro r hm o ho
  have : ∃ a b, RecordAtWith (ParsedData cfg) Decodes cfg d a r b := by
    simp only [Spec.records, List.mem_append] at hm
    rcases hm with (hm | hm) | hm
    · exact listAt_mem ha hm
    · exact listAt_mem hu hm
    · exact listAt_mem hd hm
  obtain ⟨a, b, h5, h6, v, len, k, ⟨h7, h8⟩, h9, hj, _, e, h10⟩ := this
  rw [ho] at h10
  exact (RecordData.parsed h10 (by have := len.toNat_lt; simp only [List.length_take]; omega) (by simp [TextFits])).1
example : MapsOk ⟨⟨1, ⟨0, 0⟩, 0, 0, 0, 1⟩, [], [], [], [⟨[], .OPT, false, .udpPayloadSize 1232, 0, .OPT ⟨[(3, [5])]⟩⟩]⟩ :=
  C110_maps ⟨true, true, true⟩
    [0, 1, 0, 0, 0, 0, 0, 0, 0, 0, 0, 1, 0, 0, 41, 4, 208, 0, 0, 0, 0, 0, 5, 0, 3, 0, 1, 5] _ (by decide +kernel)

/-- C110: reading, writing with compression and reading again gives an equal packet, whatever the order is in
which the packet that was read holds the options (`q`: a packet equal to the one that was read).  The
conditions are those of `C56_stable_compressed_partial`. -/
theorem C110_stable (cfg : Cfg) (hash : Hash) (d : Bytes) (p q : Packet) (h : Packet.parse cfg d = .ok p)
    (hpq : SamePacket p q) (hq : MapsOk q) (hf : ∀ r ∈ records p, Rewritable cfg r)
    (hs : ∀ r ∈ records p, r.rdata.type ≠ .SSHFP) (hh : NoCollision hash (packetNames p)) :
    ∃ b, q.toBytesCompressed cfg hash = .ok b ∧
      (b.length ≤ 16384 → ∃ r, Packet.parse cfg b = .ok r ∧ SamePacket p r) := by
  obtain ⟨hp, hc⟩ := Packet.parsed h hf
  have hm := C110_maps cfg d p h
  obtain ⟨a, h1, _⟩ := C28_compressed_round_trip_partial cfg hash p hp hc hs hh
  obtain ⟨b, h2, -⟩ := (C110_written cfg hash p q hpq hm hq a).2 h1
  refine ⟨b, h2, fun hl => ?_⟩
  obtain ⟨r, h3, h4, -⟩ := C110_read cfg hash p q hpq hm hq hp hc hs hh b [] h2 hl
  exact ⟨r, by simpa using h3, h4⟩

example : Packet.parse ⟨true, true, true⟩
    [0, 1, 128, 0, 0, 0, 0, 0, 0, 0, 0, 1, 0, 0, 41, 4, 208, 0, 0, 0, 0, 0, 10, 0, 3, 0, 0, 0, 10, 0, 2, 1, 2] =
      .ok (exOpt [(3, []), (10, [1, 2])]) := by decide +kernel

end Dns
