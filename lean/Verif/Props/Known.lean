import Verif.Spec.Known
import Verif.Props.PacketWire

/-!
C135: known answers of multicast hosts.
-/

namespace Dns
open Spec Buf

/-- The query with the known answers. -/
def knownQuery (q : Question) (rs : List ResourceRecord) : Packet :=
  ((Packet.newQuery 0 false).setQuestions [q]).setAnswers rs

/-- What is known of the messages. -/
def knownOf (heard : List (Nat × List ResourceRecord)) : List ResourceRecord :=
  heard.flatMap fun x => (x.2.filter fun r => x.1 < r.ttl.toNat).map (knownAnswer x.1)

theorem knownAnswers_eq {cfg : Cfg} : ∀ {ds : List (Nat × Bytes)} {heard : List (Nat × List ResourceRecord)},
    List.Forall₂ (fun x y => x.1 = y.1 ∧ ∃ p, Packet.parse cfg x.2 = .ok p ∧ p.answers = y.2) ds heard →
    knownAnswers cfg ds = .ok (knownOf heard) := by
  intro ds heard h
  induction h with
  | nil => rfl
  | @cons x y xs ys h _ ih =>
    obtain ⟨e, d⟩ := x
    obtain ⟨h1, p, h2, h3⟩ := h
    simp only at h1 h2
    rw [knownAnswers, h2, ih]
    simp only [Res.ok_bind, Res.pure_eq, knownOf, List.flatMap_cons, h3, h1]

theorem knownAnswer_ttl {e : Nat} {r : ResourceRecord} : (knownAnswer e r).ttl.toNat = r.ttl.toNat - e := by
  have := r.ttl.toNat_lt
  simp only [knownAnswer, ResourceRecord.setTimeToLive, UInt32.toNat_ofNat']
  omega

theorem knownAnswer_same {e : Nat} {a r : ResourceRecord} : SameBesidesTtl (knownAnswer e a) r ↔ SameBesidesTtl a r := Iff.rfl

/-- C135: the records a responder sends are exactly those of its records that are not known from any of the messages the other
host has received; the messages (of any hosts, with any records, at any times) and the query have to be read as what they
say. -/
theorem C135_answered (cfg : Cfg) (write : Packet → Res Bytes) (q : Question) (mine : List ResourceRecord)
    (ds : List (Nat × Bytes)) (heard : List (Nat × List ResourceRecord)) (d : Bytes)
    (hd : List.Forall₂ (fun x y => x.1 = y.1 ∧ ∃ p, Packet.parse cfg x.2 = .ok p ∧ p.answers = y.2) ds heard)
    (ha : askAgain cfg write q ds = .ok d)
    (hw : ∀ p, write p = .ok d → ∃ p', Packet.parse cfg d = .ok p' ∧ p'.answers = p.answers) :
    ∃ rs, respond cfg mine d = .ok rs ∧ rs.Sublist mine ∧
      ∀ r, r ∈ rs ↔ r ∈ mine ∧ ∀ x ∈ heard, ¬ Known x.1 x.2 r := by
  unfold askAgain at ha
  rw [knownAnswers_eq hd, Res.ok_bind] at ha
  obtain ⟨p', h1, h2⟩ := hw _ ha
  unfold respond
  rw [h1]
  refine ⟨_, rfl, List.filter_sublist, ?_⟩
  intro r
  rw [List.mem_filter]
  refine and_congr_right fun _ => ?_
  rw [h2]
  simp only [Packet.setAnswers, Bool.not_eq_true', List.any_eq_false, Bool.and_eq_true, decide_eq_true_eq, not_and]
  constructor
  · rintro h x hx ⟨a, ha, hs, he, ht⟩
    have := h (knownAnswer x.1 a) (List.mem_flatMap.mpr ⟨x, hx, List.mem_map_of_mem
      (List.mem_filter.mpr ⟨ha, by simpa using he⟩)⟩) hs
    rw [knownAnswer_ttl] at this
    exact this ht
  · intro h k hk hs
    obtain ⟨x, hx, hk⟩ := List.mem_flatMap.mp hk
    obtain ⟨a, ha, rfl⟩ := List.mem_map.mp hk
    obtain ⟨ha, he⟩ := List.mem_filter.mp ha
    intro ht
    rw [knownAnswer_ttl] at ht
    exact h x hx ⟨a, ha, hs, by simpa using he, ht⟩

/-- A packet with a question (or none) and answers that arrive. -/
theorem answers_arrive_plain {cfg : Cfg} {p : Packet} (hp : PacketOk cfg 191 p)
    (hs : ∀ r ∈ records p, r.rdata.type ≠ .SSHFP ∧ sizeError r.rdata = 0) :
    ∃ b, p.toBytes cfg = .ok b ∧ ∃ p', Packet.parse cfg b = .ok p' ∧ p'.answers = p.answers := by
  obtain ⟨b, h1, h2⟩ := C27_packet_round_trip_partial cfg p hp hs
  have := (h2 []).1
  rw [List.append_nil] at this
  exact ⟨b, h1, _, this, rfl⟩

theorem announce_ok {cfg : Cfg} {rs : List ResourceRecord} (h : ∀ r ∈ rs, RecordOk cfg 191 r) (hl : rs.length < 65536) :
    PacketOk cfg 191 (announce rs) ∧ records (announce rs) = rs ∧ CountsOk (announce rs) := by
  have hr : records (announce rs) = rs := by
    simp [records, announce, Packet.setAnswers, Packet.newReply]
  refine ⟨⟨(fun q hq => by cases hq), by rw [hr]; exact h, (by decide : 0 < 65536), hl, (by decide : 0 < 65536),
    (by decide : 0 < 65536)⟩, hr, rfl, ?_, rfl, rfl⟩
  show (lenU16 rs.length).toNat = rs.length
  rw [lenU16, UInt16.toNat_ofNat']
  exact Nat.mod_eq_of_lt hl

theorem knownQuery_ok {cfg : Cfg} {q : Question} {rs : List ResourceRecord} (hq : QuestionOk cfg 191 q)
    (h : ∀ r ∈ rs, RecordOk cfg 191 r) (hl : rs.length < 65536) :
    PacketOk cfg 191 (knownQuery q rs) ∧ records (knownQuery q rs) = rs ∧ CountsOk (knownQuery q rs) := by
  have hr : records (knownQuery q rs) = rs := by
    simp [records, knownQuery, Packet.setQuestions, Packet.setAnswers, Packet.newQuery]
  refine ⟨⟨?_, by rw [hr]; exact h, (by decide : 1 < 65536), hl, (by decide : 0 < 65536),
    (by decide : 0 < 65536)⟩, hr, rfl, ?_, rfl, rfl⟩
  · intro x hx
    rcases List.mem_singleton.mp (show x ∈ [q] from hx) with rfl
    exact hq
  · show (lenU16 rs.length).toNat = rs.length
    rw [lenU16, UInt16.toNat_ofNat']
    exact Nat.mod_eq_of_lt hl

theorem knownOf_mem {heard : List (Nat × List ResourceRecord)} {k : ResourceRecord} (h : k ∈ knownOf heard) :
    ∃ x ∈ heard, ∃ a ∈ x.2, k = knownAnswer x.1 a := by
  obtain ⟨x, hx, hk⟩ := List.mem_flatMap.mp h
  obtain ⟨a, ha, rfl⟩ := List.mem_map.mp hk
  exact ⟨x, hx, a, (List.mem_filter.mp ha).1, rfl⟩

theorem knownAnswer_ok {cfg : Cfg} {e : Nat} {r : ResourceRecord} (h : RecordOk cfg 191 r) :
    RecordOk cfg 191 (knownAnswer e r) := by
  obtain ⟨h1, h2, h3, h4, h5, h6, h7, h8⟩ := h
  exact ⟨h1, h2, h3, h4, h5, (fun hf => by cases hf), h7, h8⟩

theorem forall₂_of_forall {α β γ : Type} {R : α → β → Prop} {f : γ → β} : ∀ (xs : List γ),
    (∀ x ∈ xs, ∃ a, R a (f x)) → ∃ as, List.Forall₂ R as (xs.map f) := by
  intro xs
  induction xs with
  | nil => intro _; exact ⟨[], .nil⟩
  | cons x xs ih =>
    intro h
    obtain ⟨a, ha⟩ := h x List.mem_cons_self
    obtain ⟨as, hs⟩ := ih fun y hy => h y (List.mem_cons_of_mem _ hy)
    exact ⟨a :: as, .cons ha hs⟩

theorem knownOf_length {heard : List (Nat × List ResourceRecord)} (hl : (heard.map fun x => x.2.length).sum < 65536) :
    (knownOf heard).length < 65536 := by
  refine lt_of_le_of_lt ?_ hl
  rw [knownOf, List.length_flatMap]
  refine List.sum_le_sum ?_
  intro x _
  rw [List.length_map]
  exact List.length_filter_le _ _

theorem asked_again {cfg : Cfg} {write : Packet → Res Bytes} {q : Question} {mine : List ResourceRecord}
    {ds : List (Nat × Bytes)} {heard : List (Nat × List ResourceRecord)} {d : Bytes} {p : Packet}
    (h2 : List.Forall₂ (fun x y => x.1 = y.1 ∧ ∃ p, Packet.parse cfg x.2 = .ok p ∧ p.answers = y.2) ds heard)
    (c1 : write (knownQuery q (knownOf heard)) = .ok d) (c2 : Packet.parse cfg d = .ok p)
    (c3 : p.answers = (knownQuery q (knownOf heard)).answers) :
    ∃ rs, askAgain cfg write q ds = .ok d ∧ respond cfg mine d = .ok rs ∧ rs.Sublist mine ∧
      ∀ r, r ∈ rs ↔ r ∈ mine ∧ ∀ x ∈ heard, ¬ Known x.1 x.2 r := by
  have ha : askAgain cfg write q ds = .ok d := by
    unfold askAgain
    rw [knownAnswers_eq h2, Res.ok_bind]
    exact c1
  obtain ⟨rs, k⟩ := C135_answered cfg (fun p' => if p' = knownQuery q (knownOf heard) then .ok d else .hang) q mine ds heard d
    h2 (by unfold askAgain; rw [knownAnswers_eq h2, Res.ok_bind]; exact if_pos rfl)
    (by intro p' hp'
        split at hp'
        · rename_i he; subst he; exact ⟨p, c2, c3⟩
        · cases hp')
  exact ⟨rs, ha, k⟩

/-- C135 (partial), hosts with the crate and `to_bytes`: any hosts announce their records at any times, another host hears
them and asks again, and the responder sends those of its records that this host does not know with half of the TTL left.
What is missing: SSHFP, and data that `to_bytes` does not write as they should be (C27). -/
theorem C135_plain_partial (cfg : Cfg) (q : Question) (mine : List ResourceRecord) (heard : List (Nat × List ResourceRecord))
    (hq : QuestionOk cfg 191 q)
    (hr : ∀ x ∈ heard, x.2.length < 65536 ∧ ∀ r ∈ x.2, RecordOk cfg 191 r ∧ r.rdata.type ≠ .SSHFP ∧ sizeError r.rdata = 0)
    (hl : (heard.map fun x => x.2.length).sum < 65536) :
    ∃ ds d rs, List.Forall₂ (fun x y => x.1 = y.1 ∧ (announce y.2).toBytes cfg = .ok x.2) ds heard ∧
      askAgain cfg (fun p => p.toBytes cfg) q ds = .ok d ∧ respond cfg mine d = .ok rs ∧ rs.Sublist mine ∧
      ∀ r, r ∈ rs ↔ r ∈ mine ∧ ∀ x ∈ heard, ¬ Known x.1 x.2 r := by
  obtain ⟨ds, h1⟩ := forall₂_of_forall (R := fun (x : Nat × Bytes) (y : Nat × List ResourceRecord) => x.1 = y.1 ∧
      (announce y.2).toBytes cfg = .ok x.2 ∧ ∃ p, Packet.parse cfg x.2 = .ok p ∧ p.answers = y.2) (f := id) heard (by
    intro x hx
    obtain ⟨a1, a2⟩ := hr x hx
    obtain ⟨b1, b2, _⟩ := announce_ok (fun r h => (a2 r h).1) a1
    obtain ⟨b, c1, p, c2, c3⟩ := answers_arrive_plain b1 (by rw [b2]; exact fun r h => (a2 r h).2)
    exact ⟨(x.1, b), rfl, c1, p, c2, c3⟩)
  rw [List.map_id] at h1
  have hk := knownOf_length hl
  have hm : ∀ k ∈ knownOf heard, RecordOk cfg 191 k ∧ k.rdata.type ≠ .SSHFP ∧ sizeError k.rdata = 0 := by
    intro k hk
    obtain ⟨x, hx, a, ha, rfl⟩ := knownOf_mem hk
    obtain ⟨m1, m2⟩ := (hr x hx).2 a ha
    exact ⟨knownAnswer_ok m1, m2⟩
  obtain ⟨b1, b2, _⟩ := knownQuery_ok hq (fun k h => (hm k h).1) hk
  obtain ⟨d, c1, p, c2, c3⟩ := answers_arrive_plain b1 (by rw [b2]; exact fun k h => (hm k h).2)
  obtain ⟨rs, k0, k⟩ := asked_again (mine := mine) (write := fun p => p.toBytes cfg) (h1.imp fun _ _ h => ⟨h.1, h.2.2⟩) c1 c2 c3
  exact ⟨ds, d, rs, h1.imp fun _ _ h => ⟨h.1, h.2.1⟩, k0, k⟩

/-- C135 (partial), the same with `to_bytes_compressed`, each host with its own hash function.  What is missing: SSHFP, names with
the same hash, and messages of more than 16384 octets (C28). -/
theorem C135_compressed_partial (cfg : Cfg) (h : Hash) (hs : List ResourceRecord → Hash) (q : Question)
    (mine : List ResourceRecord) (heard : List (Nat × List ResourceRecord)) (hq : QuestionOk cfg 191 q)
    (hr : ∀ x ∈ heard, x.2.length < 65536 ∧ NoCollision (hs x.2) (packetNames (announce x.2)) ∧
      (∀ r ∈ x.2, RecordOk cfg 191 r ∧ r.rdata.type ≠ .SSHFP) ∧
      ∀ b, (announce x.2).toBytesCompressed cfg (hs x.2) = .ok b → b.length ≤ 16384)
    (hl : (heard.map fun x => x.2.length).sum < 65536)
    (hh : NoCollision h (q.qName :: heard.flatMap fun x => x.2.flatMap fun r => r.name :: rdataNames r.rdata)) :
    ∃ ds d, List.Forall₂ (fun x y => x.1 = y.1 ∧ (announce y.2).toBytesCompressed cfg (hs y.2) = .ok x.2) ds heard ∧
      askAgain cfg (fun p => p.toBytesCompressed cfg h) q ds = .ok d ∧ (d.length ≤ 16384 →
      ∃ rs, respond cfg mine d = .ok rs ∧ rs.Sublist mine ∧
        ∀ r, r ∈ rs ↔ r ∈ mine ∧ ∀ x ∈ heard, ¬ Known x.1 x.2 r) := by
  obtain ⟨ds, h1⟩ := forall₂_of_forall (R := fun (x : Nat × Bytes) (y : Nat × List ResourceRecord) => x.1 = y.1 ∧
      (announce y.2).toBytesCompressed cfg (hs y.2) = .ok x.2 ∧ ∃ p, Packet.parse cfg x.2 = .ok p ∧ p.answers = y.2)
      (f := id) heard (by
    intro x hx
    obtain ⟨a1, a0, a2, a3⟩ := hr x hx
    obtain ⟨b1, b2, b3⟩ := announce_ok (fun r h => (a2 r h).1) a1
    obtain ⟨b, c1, c2⟩ := C28_compressed_round_trip_partial cfg (hs x.2) _ b1 b3
      (by rw [b2]; exact fun r h => (a2 r h).2) a0
    have := (c2 (a3 b c1) []).1
    rw [List.append_nil] at this
    exact ⟨(x.1, b), rfl, c1, _, this, rfl⟩)
  rw [List.map_id] at h1
  have hk := knownOf_length hl
  have hm : ∀ k ∈ knownOf heard, RecordOk cfg 191 k ∧ k.rdata.type ≠ .SSHFP := by
    intro k hk
    obtain ⟨x, hx, a, ha, rfl⟩ := knownOf_mem hk
    obtain ⟨m1, m2⟩ := (hr x hx).2.2.1 a ha
    exact ⟨knownAnswer_ok m1, m2⟩
  obtain ⟨b1, b2, b3⟩ := knownQuery_ok hq (fun k h => (hm k h).1) hk
  have hn : ∀ n ∈ packetNames (knownQuery q (knownOf heard)),
      n ∈ q.qName :: heard.flatMap fun x => x.2.flatMap fun r => r.name :: rdataNames r.rdata := by
    intro n hn
    rw [packetNames, b2] at hn
    rcases List.mem_append.mp hn with hn | hn
    · exact List.mem_cons.mpr (.inl (by simpa [knownQuery, Packet.setQuestions, Packet.setAnswers] using hn))
    · obtain ⟨k, hk, hn⟩ := List.mem_flatMap.mp hn
      obtain ⟨x, hx, a, ha, rfl⟩ := knownOf_mem hk
      exact List.mem_cons_of_mem _ (List.mem_flatMap.mpr ⟨x, hx, List.mem_flatMap.mpr ⟨a, ha, hn⟩⟩)
  obtain ⟨d, c1, c2⟩ := C28_compressed_round_trip_partial cfg h _ b1 b3 (by rw [b2]; exact fun k h => (hm k h).2)
    (by rintro a b ⟨n, h1, h2⟩ ⟨m, h3, h4⟩
        exact hh a b ⟨n, hn n h1, h2⟩ ⟨m, hn m h3, h4⟩)
  have h2 : List.Forall₂ (fun x y => x.1 = y.1 ∧ ∃ p, Packet.parse cfg x.2 = .ok p ∧ p.answers = y.2) ds heard :=
    h1.imp fun _ _ h => ⟨h.1, h.2.2⟩
  refine ⟨ds, d, h1.imp fun _ _ h => ⟨h.1, h.2.1⟩, ?_, fun hd => ?_⟩
  · unfold askAgain
    rw [knownAnswers_eq h2, Res.ok_bind]
    exact c1
  · have := (c2 hd []).1
    rw [List.append_nil] at this
    obtain ⟨rs, _, k⟩ := asked_again (mine := mine) (write := fun p => p.toBytesCompressed cfg h) h2 c1 this rfl
    exact ⟨rs, k⟩

/-- C135 (partial), one responder: `elapsed` seconds after its announcement it sends exactly those of its records that have
expired or of which less than half of the TTL is left.  (Records that differ only in the TTL do not occur, RFC 2181, section
5.2.) -/
theorem C135_refresh_partial (cfg : Cfg) (q : Question) (mine : List ResourceRecord) (elapsed : Nat)
    (hq : QuestionOk cfg 191 q) (hl : mine.length < 65536)
    (hr : ∀ r ∈ mine, RecordOk cfg 191 r ∧ r.rdata.type ≠ .SSHFP ∧ sizeError r.rdata = 0)
    (ht : ∀ a ∈ mine, ∀ r ∈ mine, SameBesidesTtl a r → a.ttl = r.ttl) :
    ∃ a d, (announce mine).toBytes cfg = .ok a ∧ askAgain cfg (fun p => p.toBytes cfg) q [(elapsed, a)] = .ok d ∧
      ∃ rs, respond cfg mine d = .ok rs ∧ rs.Sublist mine ∧ ∀ r, r ∈ rs ↔ r ∈ mine ∧
        (r.ttl.toNat ≤ elapsed ∨ 2 * (r.ttl.toNat - elapsed) < r.ttl.toNat) := by
  obtain ⟨ds, d, rs, h1, h2, h3, h4, h5⟩ := C135_plain_partial cfg q mine [(elapsed, mine)] hq
    (by intro x hx; rcases List.mem_singleton.mp hx with rfl; exact ⟨hl, hr⟩) (by simpa using hl)
  cases h1 with
  | @cons x _ xs _ h h' =>
    cases h'
    obtain ⟨e, a⟩ := x
    obtain ⟨rfl, ha⟩ := h
    refine ⟨a, d, ha, h2, rs, h3, h4, fun r => ?_⟩
    rw [h5]
    refine and_congr_right fun hm => ?_
    simp only [List.mem_singleton, forall_eq, Known]
    constructor
    · intro h
      by_contra hc
      push Not at hc
      exact h ⟨r, hm, ⟨rfl, rfl, rfl, rfl⟩, hc.1, hc.2⟩
    · rintro h ⟨b, hb, hs, h6, h7⟩
      rw [ht b hb r hm hs] at h6 h7
      omega

/-- C135: a responder that looks for its records with `==` sends all the records for which it sets the bit for the cache,
whatever is known: the bit is never set in known answers. -/
theorem C135_equal_useless (cfg : Cfg) (mine : List ResourceRecord) (d : Bytes) (p : Packet) (hp : Packet.parse cfg d = .ok p)
    (hk : ∀ a ∈ p.answers, a.cacheFlush = false) (hm : ∀ r ∈ mine, r.cacheFlush = true) : respondEq cfg mine d = .ok mine := by
  unfold respondEq
  rw [hp, Res.ok_bind, Res.pure_eq, List.filter_eq_self.mpr]
  intro r hr
  simp only [Bool.not_eq_true', List.any_eq_false, decide_eq_true_eq]
  rintro a ha rfl
  have := hk a ha
  rw [hm a hr] at this
  cases this

/-- A record of the host `a` with a fingerprint. -/
def fingerprintRecord (f : Bytes) : ResourceRecord := ⟨[[97]], .SSHFP, false, .IN, 120, .SSHFP ⟨.RSA, .SHA1, f⟩⟩

/-- What a responder with the records `mine` sends ten seconds after the announcement of `said`. -/
def tenSeconds (cfg : Cfg) (said mine : List ResourceRecord) : Res (List ResourceRecord) := do
  let a ← (announce said).toBytes cfg
  let d ← askAgain cfg (fun p => p.toBytes cfg) ⟨[[97]], .ANY, .IN, false⟩ [(10, a)]
  respond cfg mine d

/-- C135 is false for SSHFP records.  Ten seconds after its announcement a record with a TTL of 120 seconds is sent again
although the other host has heard it and says so; and a record that nobody has announced is not sent, because another one was
announced. -/
theorem C135_counterexample (cfg : Cfg) :
    tenSeconds cfg [fingerprintRecord [4, 2, 0, 7, 7]] [fingerprintRecord [4, 2, 0, 7, 7]] =
      .ok [fingerprintRecord [4, 2, 0, 7, 7]] ∧
    Known 10 [fingerprintRecord [4, 2, 0, 7, 7]] (fingerprintRecord [4, 2, 0, 7, 7]) ∧
    tenSeconds cfg [fingerprintRecord [4, 2, 0, 7, 7]] [fingerprintRecord [0, 7]] = .ok [] ∧
    ¬ Known 10 [fingerprintRecord [4, 2, 0, 7, 7]] (fingerprintRecord [0, 7]) := by
  have : ∀ x y z : Bool, tenSeconds ⟨x, y, z⟩ [fingerprintRecord [4, 2, 0, 7, 7]] [fingerprintRecord [4, 2, 0, 7, 7]] =
      .ok [fingerprintRecord [4, 2, 0, 7, 7]] ∧
    tenSeconds ⟨x, y, z⟩ [fingerprintRecord [4, 2, 0, 7, 7]] [fingerprintRecord [0, 7]] = .ok [] := by decide +kernel
  obtain ⟨h1, h2⟩ := this cfg.overflowChecks cfg.mdns cfg.dnssec
  refine ⟨h1, ⟨_, List.mem_singleton_self _, ⟨rfl, rfl, rfl, rfl⟩, by decide, by decide⟩, h2, ?_⟩
  rintro ⟨a, ha, ⟨_, _, _, h⟩, _⟩
  rcases List.mem_singleton.mp ha with rfl
  exact absurd h (by decide)

/-- A host with an address and an alias, with the bit for the cache. -/
def hostRecords : List ResourceRecord := [⟨[[97]], .A, true, .IN, 120, .A ⟨0x0A000001⟩⟩, ⟨[[98]], .CNAME, true, .IN, 20, .CNAME ⟨[[97]]⟩⟩]

/-- C135: the hypotheses hold for these records. -/
example : ∃ a d, (announce hostRecords).toBytes ⟨true, true, true⟩ = .ok a ∧
    askAgain ⟨true, true, true⟩ (fun p => p.toBytes ⟨true, true, true⟩) ⟨[[97]], .ANY, .IN, true⟩ [(15, a)] = .ok d ∧
    ∃ rs, respond ⟨true, true, true⟩ hostRecords d = .ok rs ∧ rs.Sublist hostRecords ∧ ∀ r, r ∈ rs ↔ r ∈ hostRecords ∧
      (r.ttl.toNat ≤ 15 ∨ 2 * (r.ttl.toNat - 15) < r.ttl.toNat) := by
  refine C135_refresh_partial _ _ hostRecords 15 ⟨show NameOk 191 [[97]] by decide, trivial, by simp⟩ (by decide) ?_ ?_
  · intro r hr
    simp only [hostRecords, List.mem_cons, List.not_mem_nil, or_false] at hr
    rcases hr with rfl | rfl
    · exact ⟨⟨show NameOk 191 [[97]] by decide, by simp [Readable, dnssecTypes], rfl, trivial, by simp [classNumber], by simp, trivial,
        by intro b hb; cases hb; decide⟩, by decide, rfl⟩
    · exact ⟨⟨show NameOk 191 [[98]] by decide, by simp [Readable, dnssecTypes], rfl, trivial, by simp [classNumber], by simp,
        show NameOk 191 [[97]] by decide, by intro b hb; cases hb; decide⟩, by decide, rfl⟩
  · decide

/-- C135: after 15 seconds the alias with the TTL 20 is sent, and the address with the TTL 120 is not; `==` finds neither. -/
example : tenSeconds ⟨true, true, true⟩ hostRecords hostRecords = .ok [] ∧
    (do let a ← (announce hostRecords).toBytes ⟨true, true, true⟩
        let d ← askAgain ⟨true, true, true⟩ (fun p => p.toBytes ⟨true, true, true⟩) ⟨[[97]], .ANY, .IN, true⟩ [(15, a)]
        let x ← respond ⟨true, true, true⟩ hostRecords d
        let y ← respondEq ⟨true, true, true⟩ hostRecords d
        return (x, y)) = .ok (hostRecords.drop 1, hostRecords) := by decide +kernel

/-- C135: with compression. -/
example : (do let a ← (announce hostRecords).toBytesCompressed ⟨true, true, true⟩ exHash
              let d ← askAgain ⟨true, true, true⟩ (fun p => p.toBytesCompressed ⟨true, true, true⟩ exHash) ⟨[[97]], .ANY, .IN, true⟩ [(15, a)]
              respond ⟨true, true, true⟩ hostRecords d) = .ok (hostRecords.drop 1) := by decide +kernel

end Dns
