import Verif.Model.TimedWrite
import Verif.Spec.Size
import Verif.Lemmas.NameRead
import Verif.Props.Size

/-
Steps of the compressing writer.  Each label that is written makes a name known; the names in a message are suffixes of
each other at the positions of the message, so this can happen at most once for each position.
-/

namespace Dns
open Spec Buf
namespace Timed

/-! ### The outcomes are the same -/

theorem nameCompressed_fst (h : Hash) : ∀ (n : Fqdn) (names : Names) (offset : Nat),
    (nameCompressed h n names offset).1 = n.toBytesCompressed h names offset := by
  intro n
  induction n with
  | nil => intro names offset; rfl
  | cons l ls ih =>
    intro names offset
    simp only [nameCompressed, Fqdn.toBytesCompressed]
    cases names (h (l :: ls)) with
    | some v => rfl
    | none => simp only [ih]

theorem rdataCompressed_fst (cfg : Cfg) (h : Hash) (d : RecordData) (names : Names) (offset : Nat) :
    (rdataCompressed cfg h d names offset).1 = d.toBytesCompressed cfg h names offset := by
  cases d
  case NSEC r =>
    simp only [rdataCompressed, RecordData.toBytesCompressed, Nsec.toBytesCompressed, nameCompressed_fst]
    cases Bitmap.toBytes cfg r.types <;> rfl
  all_goals
    first
    | rfl
    | simp only [rdataCompressed, RecordData.toBytesCompressed, nameCompressed_fst]; rfl

theorem questionCompressed_fst (cfg : Cfg) (h : Hash) (q : Question) (names : Names) (offset : Nat) :
    (questionCompressed cfg h q names offset).1 = q.toBytesCompressed cfg h names offset := by
  simp only [questionCompressed, Question.toBytesCompressed, nameCompressed_fst]

theorem recordCompressed_fst (cfg : Cfg) (h : Hash) (r : ResourceRecord) (names : Names) (offset : Nat) :
    (recordCompressed cfg h r names offset).1 = r.toBytesCompressed cfg h names offset := by
  simp only [recordCompressed, ResourceRecord.toBytesCompressed, ResourceRecord.headCompressed, nameCompressed_fst,
    ← rdataCompressed_fst]
  generalize rdataCompressed cfg h r.rdata _ _ = x
  obtain ⟨x, t⟩ := x
  cases x <;> rfl

theorem questionsCompressed_fst (cfg : Cfg) (h : Hash) : ∀ (qs : List Question) (names : Names) (bin : Bytes),
    (questionsCompressed cfg h qs names bin).1 = Packet.questionsCompressed cfg h qs names bin := by
  intro qs
  induction qs with
  | nil => intro names bin; rfl
  | cons q qs ih =>
    intro names bin
    simp only [questionsCompressed, Packet.questionsCompressed, ih, questionCompressed_fst]

theorem recordsCompressed_fst (cfg : Cfg) (h : Hash) : ∀ (rs : List ResourceRecord) (names : Names) (bin : Bytes),
    (recordsCompressed cfg h rs names bin).1 = Packet.recordsCompressed cfg h rs names bin := by
  intro rs
  induction rs with
  | nil => intro names bin; rfl
  | cons r rs ih =>
    intro names bin
    simp only [recordsCompressed, Packet.recordsCompressed, ← recordCompressed_fst, ← ih]
    generalize recordCompressed cfg h r names bin.length = x
    obtain ⟨x, t⟩ := x
    cases x <;> rfl

theorem andThen_fst (r : Res (Bytes × Names) × Nat) (f : Bytes × Names → Res (Bytes × Names) × Nat) :
    (andThen r f).1 = (do let x ← r.1; (f x).1) := by
  obtain ⟨x, t⟩ := r
  cases x <;> rfl

theorem packetCompressed_fst (cfg : Cfg) (h : Hash) (p : Packet) :
    (packetCompressed cfg h p).1 = p.toBytesCompressed cfg h := by
  simp only [packetCompressed, Packet.toBytesCompressed, andThen_fst, recordsCompressed_fst, questionsCompressed_fst]
  cases Packet.recordsCompressed cfg h p.answers (Packet.questionsCompressed cfg h p.questions Names.empty
    p.header.toBytes).2 (Packet.questionsCompressed cfg h p.questions Names.empty p.header.toBytes).1 with
  | ok x =>
    simp only [Res.ok_bind]
    cases Packet.recordsCompressed cfg h p.authorities x.2 x.1 <;> rfl
  | err e => rfl
  | panic k => rfl
  | hang => rfl

/-! ### Names that are not known yet -/

/-- How many of the names are not in the map. -/
def unknown (h : Hash) (U : List Fqdn) (names : Names) : Nat := U.countP (fun s => (names (h s)).isNone)

theorem unknown_insert {h : Hash} {names : Names} {n : Fqdn} {v : Nat} (hn : names (h n) = none) :
    ∀ {U : List Fqdn}, unknown h U (names.insert (h n) v) ≤ unknown h U names ∧
      (n ∈ U → unknown h U (names.insert (h n) v) + 1 ≤ unknown h U names) := by
  intro U
  induction U with
  | nil => simp [unknown]
  | cons u U ih =>
    obtain ⟨h1, h2⟩ := ih
    simp only [unknown, List.countP_cons] at h1 h2 ⊢
    by_cases hu : h u = h n
    · simp only [Names.insert, hu, if_pos, hn]
      simp only [Names.insert] at h1
      refine ⟨by simp; omega, fun _ => by simp; omega⟩
    · simp only [Names.insert, hu, if_false] at h1 h2 ⊢
      refine ⟨by omega, fun hm => ?_⟩
      rcases List.mem_cons.mp hm with rfl | hm
      · exact absurd rfl hu
      · have := h2 hm
        omega

/-- The names `U` with all their suffixes, none longer than `S`. -/
structure Closed (U : List Fqdn) (S : Nat) : Prop where
  suffix : ∀ l ls, l :: ls ∈ U → ls = [] ∨ ls ∈ U
  size : ∀ n ∈ U, nameSize n ≤ S

theorem hashing_eq (n : Fqdn) : hashing n = 1 + nameSize n := rfl

theorem nameCompressed_steps {h : Hash} {U : List Fqdn} {S : Nat} (hU : Closed U S) : ∀ (n : Fqdn) (names : Names)
    (offset : Nat), n = [] ∨ n ∈ U →
    (nameCompressed h n names offset).2 + (2 * S + 4) * unknown h U (nameCompressed h n names offset).1.2 ≤
      (2 * S + 4) * unknown h U names + (2 * S + 4) := by
  intro n
  induction n with
  | nil => intro names offset _; simp only [nameCompressed]; omega
  | cons l ls ih =>
    intro names offset hn
    have hn : l :: ls ∈ U := by simpa using hn
    have hs := hU.size _ hn
    have hl : l.length + 1 ≤ nameSize (l :: ls) := by simp [nameSize]
    simp only [nameCompressed, hashing_eq]
    cases hk : names (h (l :: ls)) with
    | some v => simp only; omega
    | none =>
      simp only
      have h1 := ih (names.insert (h (l :: ls)) offset) (offset + (l.length + 1)) (hU.suffix _ _ hn)
      have h2 := Nat.mul_le_mul_left (2 * S + 4) ((unknown_insert (v := offset) hk).2 hn)
      rw [Nat.mul_add] at h2
      omega

theorem others_ok {r : Res (Bytes × Names)} {k t : Nat} {x : Bytes × Names} (h : others r k = (.ok x, t)) :
    r = .ok x ∧ t = k + (1 + x.1.length) := by
  simp only [others, Prod.mk.injEq] at h
  obtain ⟨h1, h2⟩ := h
  subst h1
  exact ⟨rfl, h2.symm⟩

theorem rdataCompressed_steps {h : Hash} {U : List Fqdn} {S : Nat} (hU : Closed U S) {cfg : Cfg} {d : RecordData}
    {names : Names} {offset t : Nat} {x : Bytes × Names} (hn : ∀ n ∈ rdataNames d, n = [] ∨ n ∈ U)
    (hx : rdataCompressed cfg h d names offset = (.ok x, t)) :
    t + (2 * S + 4) * unknown h U x.2 ≤ (2 * S + 4) * unknown h U names +
      (2 * S + 4) * (rdataNames d).length + x.1.length + rdataElements d + 1 := by
  have H := nameCompressed_steps (h := h) hU
  generalize 2 * S + 4 = K at H ⊢
  cases d
  case NSEC r =>
    simp only [rdataCompressed] at hx
    have h1 := H r.nextDomainName names offset (hn _ (by simp [rdataNames]))
    cases hb : Bitmap.toBytes cfg r.types with
    | ok b =>
      rw [hb] at hx
      simp only [Prod.mk.injEq, Res.ok.injEq] at hx
      obtain ⟨rfl, rfl⟩ := hx
      simp only [rdataNames, List.length_cons, List.length_nil, List.length_append, rdataElements]
      omega
    | err e => rw [hb] at hx; simp at hx
    | panic e => rw [hb] at hx; simp at hx
    | hang => rw [hb] at hx; simp at hx
  case NS r | CNAME r | PTR r =>
    simp only [rdataCompressed, Prod.mk.injEq, Res.ok.injEq] at hx
    obtain ⟨rfl, rfl⟩ := hx
    have h1 := H _ names offset (hn _ (by simp only [rdataNames, List.mem_singleton]; rfl))
    simp only [rdataNames, List.length_cons, List.length_nil]
    omega
  case MX r =>
    simp only [rdataCompressed, Prod.mk.injEq, Res.ok.injEq] at hx
    obtain ⟨rfl, rfl⟩ := hx
    have h1 := H _ names (offset + 2) (hn _ (by simp only [rdataNames, List.mem_singleton]; rfl))
    simp only [rdataNames, List.length_cons, List.length_nil, List.length_append, u16be, toBE_length]
    omega
  case SRV r =>
    simp only [rdataCompressed, Prod.mk.injEq, Res.ok.injEq] at hx
    obtain ⟨rfl, rfl⟩ := hx
    have h1 := H _ names (offset + 6) (hn _ (by simp only [rdataNames, List.mem_singleton]; rfl))
    simp only [rdataNames, List.length_cons, List.length_nil, List.length_append, u16be, toBE_length]
    omega
  case NAPTR r =>
    simp only [rdataCompressed, Prod.mk.injEq, Res.ok.injEq] at hx
    obtain ⟨rfl, rfl⟩ := hx
    have h1 := H _ names (offset + r.headBytes.length) (hn _ (by simp only [rdataNames, List.mem_singleton]; rfl))
    simp only [rdataNames, List.length_cons, List.length_nil, List.length_append]
    omega
  case SOA r | MINFO r =>
    simp only [rdataCompressed, Prod.mk.injEq, Res.ok.injEq] at hx
    obtain ⟨rfl, rfl⟩ := hx
    have h1 := H _ names offset (hn _ (by simp only [rdataNames]; exact List.mem_cons_self))
    generalize nameCompressed h _ names offset = m at h1 ⊢
    have h2 := H _ m.1.2 (offset + m.1.1.length)
      (hn _ (by simp only [rdataNames]; exact List.mem_cons_of_mem _ List.mem_cons_self))
    simp only [rdataNames, List.length_cons, List.length_nil, List.length_append, u32be, toBE_length]
    omega
  case CSYNC r =>
    simp only [rdataCompressed] at hx
    obtain ⟨h1, rfl⟩ := others_ok hx
    simp only [RecordData.toBytesCompressed] at h1
    obtain ⟨b, _, h2⟩ := Res.bind_eq_ok.mp h1
    cases h2
    simp only [rdataElements, rdataNames, List.length_nil]
    omega
  case SVCB r =>
    simp only [rdataCompressed] at hx
    obtain ⟨h1, rfl⟩ := others_ok hx
    simp only [RecordData.toBytesCompressed] at h1
    obtain ⟨b, _, h2⟩ := Res.bind_eq_ok.mp h1
    cases h2
    simp only
    omega
  all_goals
    simp only [rdataCompressed] at hx
    obtain ⟨h1, rfl⟩ := others_ok hx
    cases h1
    simp only
    omega


/-! ### Records and packets -/

theorem recordCompressed_steps {h : Hash} {U : List Fqdn} {S : Nat} (hU : Closed U S) {cfg : Cfg} {r : ResourceRecord}
    {names : Names} {offset t : Nat} {x : Bytes × Names} (hn : ∀ n ∈ r.name :: rdataNames r.rdata, n = [] ∨ n ∈ U)
    (hx : recordCompressed cfg h r names offset = (.ok x, t)) :
    t + (2 * S + 4) * unknown h U x.2 ≤ (2 * S + 4) * unknown h U names +
      (2 * S + 4) * (r.name :: rdataNames r.rdata).length + 2 * x.1.length + rdataElements r.rdata + 1 := by
  simp only [recordCompressed] at hx
  have h1 := nameCompressed_steps (h := h) hU r.name names offset (hn _ (by simp))
  generalize nameCompressed h r.name names offset = n at h1 hx
  split at hx
  · rename_i y t' hy
    simp only [Prod.mk.injEq, Res.ok.injEq] at hx
    obtain ⟨rfl, rfl⟩ := hx
    have h2 := rdataCompressed_steps hU (fun m hm => hn m (by simp [hm])) hy
    simp only [List.length_cons, List.length_append, u16be, u32be, toBE_length, Nat.mul_add] at h1 h2 ⊢
    omega
  all_goals simp at hx

theorem questionsCompressed_steps {h : Hash} {U : List Fqdn} {S : Nat} (hU : Closed U S) {cfg : Cfg} :
    ∀ (qs : List Question) (names : Names) (bin : Bytes), (∀ q ∈ qs, q.qName = [] ∨ q.qName ∈ U) →
    (questionsCompressed cfg h qs names bin).2 +
        (2 * S + 4) * unknown h U (questionsCompressed cfg h qs names bin).1.2 + 3 * bin.length ≤
      (2 * S + 4) * unknown h U names + (2 * S + 6) * qs.length +
        3 * (questionsCompressed cfg h qs names bin).1.1.length := by
  intro qs
  induction qs with
  | nil => intro names bin _; simp [questionsCompressed]
  | cons q qs ih =>
    intro names bin hn
    simp only [questionsCompressed, questionCompressed]
    have h1 := nameCompressed_steps (h := h) hU q.qName names bin.length (hn _ (by simp))
    generalize nameCompressed h q.qName names bin.length = n at h1 ⊢
    have h2 := ih n.1.2 (bin ++ (n.1.1 ++ u16be q.qType.toU16 ++ u16be (q.classBits cfg)))
      (fun q hq => hn q (by simp [hq]))
    generalize questionsCompressed cfg h qs n.1.2 _ = z at h2 ⊢
    simp only [List.length_cons, List.length_append, u16be, toBE_length, Nat.mul_add] at h1 h2 ⊢
    omega

theorem recordsCompressed_steps {h : Hash} {U : List Fqdn} {S : Nat} (hU : Closed U S) {cfg : Cfg} :
    ∀ (rs : List ResourceRecord) (names : Names) (bin : Bytes) (t : Nat) (x : Bytes × Names),
    (∀ r ∈ rs, ∀ n ∈ r.name :: rdataNames r.rdata, n = [] ∨ n ∈ U) →
    recordsCompressed cfg h rs names bin = (.ok x, t) →
    t + (2 * S + 4) * unknown h U x.2 + 3 * bin.length ≤
      (2 * S + 4) * unknown h U names + (2 * S + 6) * (rs.flatMap (fun r => r.name :: rdataNames r.rdata)).length +
        3 * x.1.length + (rs.map (fun r => rdataElements r.rdata)).sum := by
  intro rs
  induction rs with
  | nil =>
    intro names bin t x _ hx
    simp only [recordsCompressed, Prod.mk.injEq, Res.ok.injEq] at hx
    obtain ⟨rfl, rfl⟩ := hx
    simp
  | cons r rs ih =>
    intro names bin t x hn hx
    simp only [recordsCompressed] at hx
    split at hx
    · rename_i y t' hy
      have h1 := recordCompressed_steps hU (hn r (by simp)) hy
      generalize hz : recordsCompressed cfg h rs y.2 (bin ++ y.1) = z at hx
      obtain ⟨z1, z2⟩ := z
      simp only [Prod.mk.injEq] at hx
      obtain ⟨rfl, rfl⟩ := hx
      have h2 := ih y.2 (bin ++ y.1) _ x (fun r hr => hn r (by simp [hr])) hz
      simp only [List.flatMap_cons, List.length_cons, List.length_append, List.map_cons, List.sum_cons, Nat.mul_add]
        at h1 h2 ⊢
      have h3 : (2 * S + 4) * (rdataNames r.rdata).length ≤ (2 * S + 6) * (rdataNames r.rdata).length :=
        Nat.mul_le_mul_right _ (by omega)
      omega
    all_goals simp at hx

theorem andThen_ok {r : Res (Bytes × Names) × Nat} {f : Bytes × Names → Res (Bytes × Names) × Nat}
    {x : Bytes × Names} {t : Nat} (h : andThen r f = (.ok x, t)) :
    ∃ y a b, r = (.ok y, a) ∧ f y = (.ok x, b) ∧ t = a + b := by
  obtain ⟨y, a⟩ := r
  cases y with
  | ok y =>
    simp only [andThen, Prod.mk.injEq] at h
    exact ⟨y, a, _, rfl, Prod.ext h.1 rfl, h.2.symm⟩
  | err e => simp [andThen] at h
  | panic k => simp [andThen] at h
  | hang => simp [andThen] at h

theorem packetCompressed_steps {h : Hash} {U : List Fqdn} {S : Nat} (hU : Closed U S) {cfg : Cfg} {p : Packet}
    {out : Bytes} (hn : ∀ n ∈ packetNames p, n = [] ∨ n ∈ U) (hp : p.toBytesCompressed cfg h = .ok out) :
    (packetCompressed cfg h p).2 ≤ (2 * S + 4) * U.length + (2 * S + 6) * (packetNames p).length + 3 * out.length +
      ((records p).map (fun r => rdataElements r.rdata)).sum := by
  rw [← packetCompressed_fst] at hp
  simp only [packetCompressed] at hp ⊢
  obtain ⟨x, hx, hb⟩ := Res.bind_eq_ok.mp hp
  cases hb
  generalize hz : andThen _ _ = z at hx ⊢
  obtain ⟨z1, t⟩ := z
  simp only at hx
  subst hx
  obtain ⟨y2, t2, t3, hy, h3, rfl⟩ := andThen_ok hz
  obtain ⟨y1, t1, t2, h1, h2, rfl⟩ := andThen_ok hy
  have hr : ∀ r ∈ records p, ∀ n ∈ r.name :: rdataNames r.rdata, n = [] ∨ n ∈ U := by
    intro r hr n hm
    exact hn n (by simp only [packetNames, List.mem_append, List.mem_flatMap]; exact .inr ⟨r, hr, hm⟩)
  have q0 := questionsCompressed_steps (h := h) (cfg := cfg) hU p.questions Names.empty p.header.toBytes
    (fun q hq => hn _ (by simp only [packetNames, List.mem_append, List.mem_map]; exact .inl ⟨q, hq, rfl⟩))
  have q1 := recordsCompressed_steps hU _ _ _ _ _ (fun r hm => hr r (by simp [records, hm])) h1
  have q2 := recordsCompressed_steps hU _ _ _ _ _ (fun r hm => hr r (by simp [records, hm])) h2
  have q3 := recordsCompressed_steps hU _ _ _ _ _ (fun r hm => hr r (by simp [records, hm])) h3
  have hb : p.header.toBytes.length = 12 := by simp [Header.toBytes, u16be]
  have hc : unknown h U Names.empty ≤ U.length := List.countP_le_length
  have hc := Nat.mul_le_mul_left (2 * S + 4) hc
  simp only [packetNames, records, List.flatMap_append, List.map_append, List.sum_append, List.length_append,
    List.length_map, Nat.mul_add]
  omega

/-! ### The names of a message -/

/-- A name that can be read at the position, and is not longer than `S`. -/
def Reads (d : Bytes) (S i : Nat) (n : Fqdn) : Prop :=
  nameSize n ≤ S ∧ ∃ j, NameWith 191 (fun _ _ => True) d i n j

open Classical in
/-- The name at a position, if there is one. -/
noncomputable def nameAt (d : Bytes) (S i : Nat) : Fqdn := if h : ∃ n, Reads d S i n then h.choose else []

theorem nameAt_eq {d : Bytes} {S i : Nat} {n : Fqdn} (h : Reads d S i n) : nameAt d S i = n := by
  have hx : ∃ n, Reads d S i n := ⟨n, h⟩
  unfold nameAt
  rw [dif_pos hx]
  obtain ⟨_, j, h1⟩ := hx.choose_spec
  obtain ⟨_, k, h2⟩ := h
  exact (nameWith_unique (by decide) (by decide) h1 h2).1

theorem nameAt_reads {d : Bytes} {S i : Nat} : nameAt d S i = [] ∨ Reads d S i (nameAt d S i) := by
  by_cases hx : ∃ n, Reads d S i n
  · obtain ⟨n, hn⟩ := hx
    rw [nameAt_eq hn]
    exact .inr hn
  · exact .inl (by unfold nameAt; rw [dif_neg hx])

/-- The names at all positions. -/
noncomputable def allNames (d : Bytes) : List Fqdn := (List.range d.length).map (nameAt d (192 * d.length))

theorem allNames_length (d : Bytes) : (allNames d).length = d.length := by simp [allNames]

theorem mem_allNames {d : Bytes} {i : Nat} {n : Fqdn} (h : Reads d (192 * d.length) i n) : n ∈ allNames d := by
  obtain ⟨_, j, h1⟩ := id h
  have := nameWith_end_le h1
  simp only [allNames, List.mem_map, List.mem_range]
  exact ⟨i, by omega, nameAt_eq h⟩

theorem nameWith_suffix {d : Bytes} {i j : Nat} {n : Fqdn} (h : NameWith 191 (fun _ _ => True) d i n j) :
    ∀ l ls, n = l :: ls → ∃ i' j', NameWith 191 (fun _ _ => True) d i' ls j' := by
  induction h with
  | root _ => intro l ls he; simp at he
  | label _ _ _ _ h5 _ =>
    intro l ls he
    cases he
    exact ⟨_, _, h5⟩
  | pointer _ _ _ _ ih => exact ih

theorem allNames_closed (d : Bytes) : Closed (allNames d) (192 * d.length) := by
  constructor
  · intro l ls h
    simp only [allNames, List.mem_map, List.mem_range] at h
    obtain ⟨i, _, h⟩ := h
    rcases nameAt_reads (d := d) (S := 192 * d.length) (i := i) with h1 | h1
    · rw [h] at h1
      simp at h1
    · rw [h] at h1
      obtain ⟨h2, j, h3⟩ := h1
      obtain ⟨i', j', h4⟩ := nameWith_suffix h3 l ls rfl
      refine .inr (mem_allNames (i := i') ⟨?_, j', h4⟩)
      simp only [nameSize, List.map_cons, List.sum_cons] at h2 ⊢
      omega
  · intro n h
    simp only [allNames, List.mem_map, List.mem_range] at h
    obtain ⟨i, _, h⟩ := h
    rcases nameAt_reads (d := d) (S := 192 * d.length) (i := i) with h1 | h1
    · rw [h] at h1
      subst h1
      simp [nameSize]
    · rw [h] at h1
      exact h1.1

theorem decoded_mem {d : Bytes} {i j : Nat} {n : Fqdn} (h : extractFqdn d i = (.ok n, j)) : n ∈ allNames d :=
  mem_allNames ⟨name_size h, j, codeName_nameWith (extractFqdn_ok.mp h)⟩

theorem decoded_take_mem {d : Bytes} {i j k : Nat} {n : Fqdn} (h : extractFqdn (d.take k) i = (.ok n, j)) :
    n ∈ allNames d := by
  have := decodes_extends (d.take k) (d.drop k) i n j h
  rw [List.take_append_drop] at this
  exact decoded_mem this

theorem packetNames_mem {cfg : Cfg} {d : Bytes} {p : Packet} (h : Packet.parse cfg d = .ok p) :
    ∀ n ∈ packetNames p, n ∈ allNames d := by
  obtain ⟨e, _, _, _, _, i1, i2, i3, i4, hh, hq, ha, hu, hd⟩ := Packet.parse_ok.mp h
  intro n hn
  have hr : ∀ {xs : List ResourceRecord} {i j : Nat}, ListAt (RecordAtWith (ParsedData cfg) Decodes cfg d) i xs j →
      ∀ r ∈ xs, n ∈ r.name :: rdataNames r.rdata → n ∈ allNames d := by
    intro xs i j hl r hr hn
    obtain ⟨a, b, _, _, v, len, k, _, ⟨k1, h1, _⟩, rfl, _, e, h7⟩ := listAt_mem hl hr
    rcases List.mem_cons.mp hn with rfl | hn
    · exact decoded_mem h1
    · obtain ⟨x, y, h8⟩ := (RecordData.size_le h7).2.2 n hn
      exact decoded_take_mem h8
  simp only [packetNames, records, List.mem_append, List.mem_map, List.mem_flatMap] at hn
  rcases hn with ⟨q, hq2, rfl⟩ | ⟨r, (hr1 | hr1) | hr1, hn⟩
  · obtain ⟨a, b, _, v, _, k1, h1, _⟩ := listAt_mem hq hq2
    exact decoded_mem h1
  · exact hr ha r hr1 hn
  · exact hr hu r hr1 hn
  · exact hr hd r hr1 hn

end Timed
end Dns
