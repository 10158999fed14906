import Verif.Spec.Update
import Verif.Props.Codes
import Verif.Lemmas.Fails
import Verif.Props.Dnssec

/-! C127: dynamic updates of RFC 2136. -/

namespace Dns
open Spec Buf

/-- The types of which the crate reads data of no octets: NULL, TXT, OPT, OPENPGPKEY. -/
def emptyTypes : List Nat := [10, 16, 41, 61]

/-- The types whose data begin with a name: NS, CNAME, SOA, PTR, MINFO, NSEC, TKEY, TSIG. -/
def nameTypes : List Nat := [2, 5, 6, 12, 14, 47, 249, 250]

theorem bind_right {α β : Type} {p : Parser α} {f : α → Parser β} {d : Bytes} {i j : Nat} {a : α}
    (h1 : p d i = (.ok a, j)) : (p >>= f) d i = f a d j := by
  rw [Parser.bind_apply, h1]

theorem bind_panic {α β : Type} {p : Parser α} {f : α → Parser β} {d : Bytes} {i : Nat} {e : PanicKind}
    (h : (p d i).1 = .panic e) : ((p >>= f) d i).1 = .panic e := by
  rw [Parser.bind_apply]
  rcases hp : p d i with ⟨r, j⟩
  rw [hp] at h
  cases h
  rfl

theorem times_panic {α : Type} {p : Parser α} {d : Bytes} {e : PanicKind} : ∀ (n : Nat) (xs : List α) (i k : Nat),
    Seq p d i xs k → xs.length < n → (p d k).1 = .panic e → (Parser.times n p d i).1 = .panic e := by
  intro n
  induction n with
  | zero => intro xs i k _ h; omega
  | succ n ih =>
    intro xs i k h1 h2 h3
    rw [Parser.times]
    cases xs with
    | nil =>
      cases h1
      exact bind_panic h3
    | cons x xs =>
      obtain ⟨m, h4, h5⟩ := h1
      rw [bind_right h4]
      exact bind_panic (ih xs m k h5 (by simpa using h2) h3)

theorem sections_panic {p : Parser ResourceRecord} {d : Bytes} {e : PanicKind} {h : Header} {qs : List Question}
    (an au ad : Nat) (xs : List ResourceRecord) (i k : Nat) (hs : Seq p d i xs k)
    (hl : xs.length < an + au + ad) (he : (p d k).1 = .panic e) :
    ((do
      let x ← Parser.times an p
      let y ← Parser.times au p
      let z ← Parser.times ad p
      return (⟨h, qs, x, y, z⟩ : Packet)) d i).1 = .panic e := by
  by_cases h1 : xs.length < an
  · exact bind_panic (times_panic an xs i k hs h1 he)
  · have e1 : xs = xs.take an ++ xs.drop an := (List.take_append_drop _ _).symm
    rw [e1, seq_append] at hs
    obtain ⟨m, s1, s2⟩ := hs
    rw [bind_right (seq_times.mpr ⟨by simp; omega, s1⟩)]
    by_cases h2 : xs.length < an + au
    · exact bind_panic (times_panic au _ m k s2 (by simp; omega) he)
    · have e2 : xs.drop an = (xs.drop an).take au ++ (xs.drop an).drop au := (List.take_append_drop _ _).symm
      rw [e2, seq_append] at s2
      obtain ⟨m2, s3, s4⟩ := s2
      rw [bind_right (seq_times.mpr ⟨by simp; omega, s3⟩)]
      exact bind_panic (times_panic ad _ m2 k s4 (by simp; omega) he)

/-! ## Reading at the end of the data -/

theorem atEnd_bytes (n : Nat) (d : Bytes) (h : 0 < n) : extractBytes n d d.length = (.err .lengthViolation, d.length) := by
  unfold extractBytes
  rw [if_pos (by omega)]

theorem atEnd_fqdn (d : Bytes) : extractFqdn d d.length = (.panic .index, d.length) := by
  unfold extractFqdn fqdnFuel
  rw [show 2 * d.length + 3 = (2 * d.length + 2) + 1 from rfl, fqdnLoop]
  have : fqdnStep d ⟨d.length, [], none⟩ = .inr (.panic .index, d.length) := by
    unfold fqdnStep
    simp
  rw [this]

theorem atEnd_u8 (d : Bytes) : (extractU8 d d.length).1 = .err .lengthViolation :=
  bind_err (by rw [atEnd_bytes _ _ (by decide)])

theorem atEnd_u16 (d : Bytes) : (extractU16 d d.length).1 = .err .lengthViolation :=
  bind_err (by rw [atEnd_bytes _ _ (by decide)])

theorem atEnd_u32 (d : Bytes) : (extractU32 d d.length).1 = .err .lengthViolation :=
  bind_err (by rw [atEnd_bytes _ _ (by decide)])

theorem atEnd_u128 (d : Bytes) : (extractU128 d d.length).1 = .err .lengthViolation :=
  bind_err (by rw [atEnd_bytes _ _ (by decide)])

theorem atEnd_bytes' (n : Nat) (d : Bytes) (h : 0 < n) : (extractBytes n d d.length).1 = .err .lengthViolation := by
  rw [atEnd_bytes _ _ h]

theorem atEnd_string (d : Bytes) : (extractCharacterString d d.length).1 = .err .lengthViolation :=
  bind_err (atEnd_u8 d)

theorem atEnd_fqdn' (d : Bytes) : (extractFqdn d d.length).1 = .panic .index := by rw [atEnd_fqdn]

theorem atEnd_while {σ : Type} (s : σ) (body : σ → Parser σ) (d : Bytes) :
    whileRemaining s body d d.length = (.ok s, d.length) := by
  unfold whileRemaining
  rw [whileRemainingFuel_succ, if_pos (Nat.le_refl _), if_neg (Nat.lt_irrefl _)]

theorem atEnd_rest (d : Bytes) : extractRest d d.length = (.ok [], d.length) := by
  unfold extractRest
  rw [bind_right (show remaining d d.length = (.ok (d.length - d.length), d.length) by simp [remaining])]
  simp [extractBytes]

/-- What the data of a record without data are read as. -/
theorem nothing_ok (cfg : Cfg) (t : RecordType) (d : Bytes) (h : typeNumber t ∈ emptyTypes) :
    ∃ r, RecordData.parse cfg t d d.length = (.ok r, d.length) := by
  cases t <;> first
    | exact absurd h (by decide)
    | exact ⟨_, by
        rw [RecordData.parse, bind_right (bind_right (atEnd_while _ _ d))]; rfl⟩
    | exact ⟨_, by
        rw [RecordData.parse, bind_right (bind_right (atEnd_rest d))]; rfl⟩

theorem nothing_panics (cfg : Cfg) (t : RecordType) (d : Bytes) (h : typeNumber t ∈ nameTypes) :
    (RecordData.parse cfg t d d.length).1 = .panic .index := by
  cases t <;> first
    | exact absurd h (by decide)
    | exact bind_panic (bind_panic (atEnd_fqdn' d))

theorem nothing_refused (cfg : Cfg) (t : RecordType) (d : Bytes) (h1 : typeNumber t ∉ nameTypes)
    (h2 : typeNumber t ∉ emptyTypes) : (RecordData.parse cfg t d d.length).1 = .err .lengthViolation := by
  cases t <;> first
    | exact absurd (by decide) h1
    | exact absurd (by decide) h2
    | exact bind_err (bind_err (atEnd_u8 d))
    | exact bind_err (bind_err (atEnd_u16 d))
    | exact bind_err (bind_err (atEnd_u32 d))
    | exact bind_err (bind_err (atEnd_u128 d))
    | exact bind_err (bind_err (atEnd_string d))
    | exact bind_err (bind_err (atEnd_bytes' _ d (by decide)))

/-! ## Records -/

/-- The fields before the data. -/
def rawHead (x : RawRecord) : List Item :=
  [.name x.name, .u16 x.type, .u16 x.class_, .u32 x.ttl, .u16 (UInt16.ofNat x.data.length)]

theorem raw_octets (x : RawRecord) : x.octets = Items.octets (rawHead x) ++ x.data := by
  simp [rawHead, RawRecord.octets, Items.octets, Item.octets]

theorem raw_head {x : RawRecord} (hx : x.Fits) (pre post : Bytes) :
    Items.At Decodes (pre ++ x.octets ++ post) pre.length (rawHead x) (pre ++ Items.octets (rawHead x)).length := by
  have h1 : Items.At Decodes (pre ++ Items.octets (rawHead x)) pre.length (rawHead x)
      (pre ++ Items.octets (rawHead x)).length :=
    items_decode (Nat.le_refl 191) (rawHead x) pre (by
      simp only [rawHead, List.mem_cons, List.not_mem_nil, or_false]
      rintro it (rfl | rfl | rfl | rfl | rfl) <;> first | trivial | skip
      exact fun l hl => ⟨(hx.1 l hl).1, by have := (hx.1 l hl).2; omega⟩) (by simp [rawHead, Item.Open])
  have h2 := items_extend decodes_extends (by simp [rawHead, Item.Open]) h1 (x.data ++ post)
  rw [raw_octets]
  simpa using h2

/-- What is read behind the head of a record. -/
theorem parse_behind {cfg : Cfg} {x : RawRecord} (hx : x.Fits) (pre post : Bytes) {t : RecordType}
    (ht : RecordType.ofU16 cfg x.type = .ok t) : ∃ (c : RecordClass) (f : Bool),
    classNumber c = x.class_.toNat % 32768 ∧ f = (cfg.mdns && decide (32768 ≤ x.class_.toNat)) ∧
    ResourceRecord.parse cfg (pre ++ x.octets ++ post) pre.length =
      (do
        let d ← withSubBuffer x.data.length (RecordData.parse cfg t)
        advance x.data.length
        return (⟨x.name, t, f, c, x.ttl, d.1⟩ : ResourceRecord))
        (pre ++ x.octets ++ post) (pre ++ Items.octets (rawHead x)).length := by
  obtain ⟨k1, h1, k2, h2, k3, h3, k4, h4, k5, h5, e5⟩ := raw_head hx pre post
  have e5 : k5 = _ := e5
  subst e5
  obtain ⟨hc1, hc2⟩ := (RecordClass.ofU16_eq (v := x.class_) (c := RecordClass.ofU16 x.class_)).mp rfl
  refine ⟨_, _, hc2.symm, rfl, ?_⟩
  have hlen : (UInt16.ofNat x.data.length).toNat = x.data.length :=
    UInt16.toNat_ofNat_of_lt' (by simpa [UInt16.size] using hx.2)
  unfold ResourceRecord.parse
  rw [bind_right (show extractFqdn _ _ = _ from h1), bind_right (extractU16_ok.mpr h2),
    bind_right (Parser.lift_ok.mpr ⟨ht, rfl⟩),
    bind_right (ResourceRecord.parseClass_ok.mpr ⟨hc1, _, ⟨hc2, rfl⟩, h3⟩), bind_right (extractU32_ok.mpr h4),
    bind_right (extractU16_ok.mpr h5), hlen]

/-- The outcome for a record without data. -/
theorem parse_nothing {cfg : Cfg} {x : RawRecord} (hx : x.Fits) (he : x.data = []) (pre post : Bytes) {t : RecordType}
    (ht : RecordType.ofU16 cfg x.type = .ok t) : ∃ (c : RecordClass) (f : Bool) (d : Bytes),
    classNumber c = x.class_.toNat % 32768 ∧ f = (cfg.mdns && decide (32768 ≤ x.class_.toNat)) ∧
    ResourceRecord.parse cfg (pre ++ x.octets ++ post) pre.length =
      match RecordData.parse cfg t d d.length with
      | (.ok r, _) => (.ok ⟨x.name, t, f, c, x.ttl, r⟩, (pre ++ x.octets).length)
      | (.err e, _) => (.err e, (pre ++ x.octets).length)
      | (.panic e, _) => (.panic e, (pre ++ x.octets).length)
      | (.hang, _) => (.hang, (pre ++ x.octets).length) := by
  obtain ⟨c, f, h1, h2, h3⟩ := parse_behind hx pre post ht
  refine ⟨c, f, pre ++ x.octets, h1, h2, ?_⟩
  rw [h3, raw_octets, he]
  simp only [List.length_nil, List.append_nil]
  rw [Parser.bind_apply]
  unfold withSubBuffer
  rw [if_neg (by simp), Nat.zero_add, List.take_left]
  rcases RecordData.parse cfg t (pre ++ Items.octets (rawHead x)) (pre ++ Items.octets (rawHead x)).length with ⟨_ | _ | _ | _, j⟩ <;>
    dsimp only
  rw [bind_right (advance_ok.mpr ⟨by simp, rfl⟩), Nat.zero_add]
  rfl

theorem type_of_number {n : UInt16} {t : RecordType} (h : n.toNat = typeNumber t) : n = UInt16.ofNat (typeNumber t) := by
  rw [← h]; simp

theorem number_of_type {cfg : Cfg} {n : UInt16} {t : RecordType} (h : RecordType.ofU16 cfg n = .ok t) :
    Readable cfg t ∧ n.toNat = typeNumber t := by
  obtain ⟨h1, rfl⟩ := RecordType.ofU16_ok.mp h
  exact ⟨h1, by cases t <;> rfl⟩

theorem raw_unknown {cfg : Cfg} {x : RawRecord} (hx : x.Fits) (pre post : Bytes)
    (h : ¬ ∃ t, RecordType.ofU16 cfg x.type = .ok t) :
    (ResourceRecord.parse cfg (pre ++ x.octets ++ post) pre.length).1 = .err (.invalidType x.type) := by
  obtain ⟨k1, h1, k2, h2, -⟩ := raw_head hx pre post
  have h2 : Octets _ k1 (octets16 x.type) k2 := h2
  refine C42_unknown_type cfg _ _ k1 x.name x.type h1 ?_ ?_
  · have := h2.end_eq
    have e : k2 = k1 + 2 := by simpa [octets16] using this
    rwa [← e]
  · intro u hu he
    exact h ⟨u, RecordType.ofU16_ok.mpr ⟨hu, type_of_number he.symm⟩⟩

/-- C127, exactly: a prerequisite or update without data, that is, a record with RDLENGTH 0 (whatever its name, type and
class are and wherever it stands) is read if and only if its type is NULL, TXT, OPT or OPENPGPKEY.  If the data of
its type begin with a name (NS, CNAME, SOA, PTR, ...) the crate panics; otherwise it is refused, because of the length or, if
the type is not known (like ANY), because of the type. -/
theorem C127_nothing_exact (cfg : Cfg) (x : RawRecord) (hx : x.Fits) (he : x.data = []) (pre post : Bytes) :
    ((∃ r j, ResourceRecord.parse cfg (pre ++ x.octets ++ post) pre.length = (.ok r, j)) ↔ x.type.toNat ∈ emptyTypes) ∧
    ((ResourceRecord.parse cfg (pre ++ x.octets ++ post) pre.length).1 = .panic .index ↔
      x.type.toNat ∈ nameTypes ∧ (x.type = 47 → cfg.dnssec = true)) ∧
    (x.type.toNat ∉ emptyTypes → ¬ (x.type.toNat ∈ nameTypes ∧ (x.type = 47 → cfg.dnssec = true)) →
      ((∃ t, Readable cfg t ∧ typeNumber t = x.type.toNat) ∧
        (ResourceRecord.parse cfg (pre ++ x.octets ++ post) pre.length).1 = .err .lengthViolation) ∨
      ((¬ ∃ t, Readable cfg t ∧ typeNumber t = x.type.toNat) ∧
        (ResourceRecord.parse cfg (pre ++ x.octets ++ post) pre.length).1 = .err (.invalidType x.type))) := by
  by_cases h : ∃ t, RecordType.ofU16 cfg x.type = .ok t
  · obtain ⟨t, ht⟩ := h
    obtain ⟨h1, h2⟩ := number_of_type ht
    have h47 : x.type = 47 → cfg.dnssec = true := by
      intro h3
      rw [h3] at h2
      exact h1.2.2 (by cases t <;> first | exact absurd h2 (by decide) | decide)
    have hex : ∃ t, Readable cfg t ∧ typeNumber t = x.type.toNat := ⟨t, h1, h2.symm⟩
    obtain ⟨c, f, d, -, -, h3⟩ := parse_nothing hx he pre post ht
    rw [h3]
    by_cases h4 : typeNumber t ∈ emptyTypes
    · obtain ⟨r, h5⟩ := nothing_ok cfg t d h4
      rw [h5, h2]
      refine ⟨iff_of_true ⟨_, _, rfl⟩ h4, iff_of_false (by simp) ?_, fun h6 => absurd h4 h6⟩
      rintro ⟨h6, -⟩
      simp only [emptyTypes, nameTypes, List.mem_cons, List.not_mem_nil, or_false] at h4 h6
      omega
    · by_cases h5 : typeNumber t ∈ nameTypes
      · have h6 := nothing_panics cfg t d h5
        rcases h7 : RecordData.parse cfg t d d.length with ⟨r, j⟩
        rw [h7] at h6
        have h6 : r = .panic .index := h6
        subst h6
        rw [h2]
        exact ⟨iff_of_false (by simp) h4, iff_of_true rfl ⟨h5, h47⟩, fun _ h8 => absurd ⟨h5, h47⟩ h8⟩
      · have h6 := nothing_refused cfg t d h5 h4
        rcases h7 : RecordData.parse cfg t d d.length with ⟨r, j⟩
        rw [h7] at h6
        have h6 : r = .err .lengthViolation := h6
        subst h6
        rw [h2]
        exact ⟨iff_of_false (by simp) h4, iff_of_false (by simp) (fun h8 => h5 h8.1), fun _ _ => .inl ⟨h2 ▸ hex, rfl⟩⟩
  · have h1 := raw_unknown hx pre post h
    have hex : ¬ ∃ t, Readable cfg t ∧ typeNumber t = x.type.toNat := by
      rintro ⟨t, h2, h3⟩
      exact h ⟨t, RecordType.ofU16_ok.mpr ⟨h2, type_of_number h3.symm⟩⟩
    rw [h1]
    refine ⟨iff_of_false ?_ ?_, iff_of_false (by simp) ?_, fun _ _ => .inr ⟨hex, rfl⟩⟩
    · rintro ⟨r, j, h2⟩; rw [h2] at h1; cases h1
    · intro h2
      simp only [emptyTypes, List.mem_cons, List.not_mem_nil, or_false] at h2
      rcases h2 with h2 | h2 | h2 | h2
      · exact hex ⟨.NULL, by simp [Readable, dnssecTypes], h2.symm⟩
      · exact hex ⟨.TXT, by simp [Readable, dnssecTypes], h2.symm⟩
      · exact hex ⟨.OPT, by simp [Readable, dnssecTypes], h2.symm⟩
      · exact hex ⟨.OPENPGPKEY, by simp [Readable, dnssecTypes], h2.symm⟩
    · rintro ⟨h2, h3⟩
      simp only [nameTypes, List.mem_cons, List.not_mem_nil, or_false] at h2
      rcases h2 with h2 | h2 | h2 | h2 | h2 | h2 | h2 | h2
      · exact hex ⟨.NS, by simp [Readable, dnssecTypes], h2.symm⟩
      · exact hex ⟨.CNAME, by simp [Readable, dnssecTypes], h2.symm⟩
      · exact hex ⟨.SOA, by simp [Readable, dnssecTypes], h2.symm⟩
      · exact hex ⟨.PTR, by simp [Readable, dnssecTypes], h2.symm⟩
      · exact hex ⟨.MINFO, by simp [Readable, dnssecTypes], h2.symm⟩
      · exact hex ⟨.NSEC, by
          refine ⟨by simp, by simp, fun _ => h3 ?_⟩
          rw [← UInt16.toNat_inj]; exact h2, h2.symm⟩
      · exact hex ⟨.TKEY, by simp [Readable, dnssecTypes], h2.symm⟩
      · exact hex ⟨.TSIG, by simp [Readable, dnssecTypes], h2.symm⟩

/-- What is read of a record, apart from its data. -/
def Tells (x : RawRecord) (r : ResourceRecord) : Prop :=
  r.name = x.name ∧ typeNumber r.type = x.type.toNat ∧ classNumber r.class_ = x.class_.toNat % 32768 ∧ r.ttl = x.ttl

theorem raw_read {cfg : Cfg} {x : RawRecord} (hx : x.Fits) {pre post : Bytes} {r : ResourceRecord} {j : Nat}
    (h : ResourceRecord.parse cfg (pre ++ x.octets ++ post) pre.length = (.ok r, j)) :
    j = (pre ++ x.octets).length ∧ Tells x r ∧ (x.data = [] → x.type.toNat ∈ emptyTypes) := by
  by_cases ht : ∃ t, RecordType.ofU16 cfg x.type = .ok t
  · obtain ⟨t, ht⟩ := ht
    obtain ⟨c, f, h1, -, h3⟩ := parse_behind hx pre post ht
    refine ⟨?_, ?_, fun he => (C127_nothing_exact cfg x hx he pre post).1.mp ⟨r, j, h⟩⟩
    all_goals
      rw [h3] at h
      simp only [Parser.bind_ok, Parser.pure_ok, withSubBuffer_ok] at h
      obtain ⟨a, k, ⟨h4, rfl, h5⟩, ⟨⟩, k', h6, h7, rfl⟩ := h
      obtain ⟨h8, rfl⟩ := advance_ok.mp h6
    · rw [raw_octets]; simp; omega
    · subst h7
      exact ⟨rfl, (number_of_type ht).2.symm, h1, rfl⟩
  · have := raw_unknown hx pre post ht
    rw [h] at this
    cases this

/-- What is read of records that stand one behind the other. -/
theorem raw_list {cfg : Cfg} : ∀ (xs : List RawRecord) (pre post : Bytes) (rs : List ResourceRecord) (j : Nat),
    (∀ x ∈ xs, x.Fits) → rs.length = xs.length →
    ListAt (RecordAtWith (ParsedData cfg) Decodes cfg (pre ++ xs.flatMap RawRecord.octets ++ post)) pre.length rs j →
    j = (pre ++ xs.flatMap RawRecord.octets).length ∧ List.Forall₂ Tells xs rs ∧
      ∀ x ∈ xs, x.data = [] → x.type.toNat ∈ emptyTypes := by
  intro xs
  induction xs with
  | nil =>
    intro pre post rs j _ hl h
    obtain rfl : rs = [] := List.length_eq_zero_iff.mp hl
    exact ⟨by have h : pre.length = j := h; simp [h], .nil, by simp⟩
  | cons x xs ih =>
    intro pre post rs j hf hl h
    cases rs with
    | nil => simp at hl
    | cons r rs =>
      obtain ⟨k, h1, h2⟩ := h
      have e : pre ++ (x :: xs).flatMap RawRecord.octets ++ post =
          pre ++ x.octets ++ (xs.flatMap RawRecord.octets ++ post) := by simp
      rw [e] at h1
      obtain ⟨rfl, h4, h5⟩ := raw_read (hf x (by simp)) (ResourceRecord.parse_ok.mpr h1)
      have e' : pre ++ (x :: xs).flatMap RawRecord.octets ++ post =
          pre ++ x.octets ++ xs.flatMap RawRecord.octets ++ post := by simp
      rw [e'] at h2
      obtain ⟨h6, h7, h8⟩ := ih (pre ++ x.octets) post rs j (fun y hy => hf y (by simp [hy])) (by simpa using hl) h2
      refine ⟨by rw [h6]; simp, .cons h4 h7, ?_⟩
      intro y hy hd
      rcases List.mem_cons.mp hy with rfl | hy
      · exact h5 hd
      · exact h8 y hy hd

/-- The record is read wherever it stands. -/
def ReadAnywhere (cfg : Cfg) (x : RawRecord) : Prop :=
  ∀ pre post : Bytes, ∃ r, ResourceRecord.parse cfg (pre ++ x.octets ++ post) pre.length = (.ok r, (pre ++ x.octets).length)

theorem raw_list_read {cfg : Cfg} : ∀ (xs : List RawRecord) (pre post : Bytes), (∀ x ∈ xs, ReadAnywhere cfg x) →
    ∃ rs, rs.length = xs.length ∧
      ListAt (RecordAtWith (ParsedData cfg) Decodes cfg (pre ++ xs.flatMap RawRecord.octets ++ post)) pre.length rs
        (pre ++ xs.flatMap RawRecord.octets).length := by
  intro xs
  induction xs with
  | nil => intro pre post _; exact ⟨[], rfl, by simp [ListAt]⟩
  | cons x xs ih =>
    intro pre post h
    obtain ⟨r, h1⟩ := h x (by simp) pre (xs.flatMap RawRecord.octets ++ post)
    obtain ⟨rs, h2, h3⟩ := ih (pre ++ x.octets) post (fun y hy => h y (by simp [hy]))
    refine ⟨r :: rs, by simp [h2], (pre ++ x.octets).length, ?_, ?_⟩
    · have := ResourceRecord.parse_ok.mp h1
      simpa using this
    · simpa using h3

theorem nothing_anywhere {cfg : Cfg} {x : RawRecord} (hx : x.Fits) (he : x.data = []) (ht : x.type.toNat ∈ emptyTypes) :
    ReadAnywhere cfg x := by
  intro pre post
  obtain ⟨r, j, h⟩ := (C127_nothing_exact cfg x hx he pre post).1.mpr ht
  obtain ⟨rfl, -⟩ := raw_read hx h
  exact ⟨r, h⟩

/-! ## Messages -/

/-- The header of an update. -/
def updateHeader (u : Update) : Header :=
  ⟨u.id, ⟨0x28, 0⟩, 1, UInt16.ofNat u.prerequisites.length, UInt16.ofNat u.updates.length,
    UInt16.ofNat u.additional.length⟩

/-- The zone section. -/
def zoneItems (u : Update) : List Item := [.name u.zone, .u16 6, .u16 u.zoneClass]

theorem update_octets (u : Update) : u.octets =
    Items.octets (headerItems (updateHeader u)) ++ Items.octets (zoneItems u) ++ u.records.flatMap RawRecord.octets := by
  simp [Update.octets, headerItems, updateHeader, zoneItems, Items.octets, Item.octets]

/-- The classes a question can have. -/
def zoneClasses : List Nat := [1, 2, 3, 4, 254, 255]

theorem update_header_at (u : Update) (rest : Bytes) : Items.At Decodes (u.octets ++ rest) 0 (headerItems (updateHeader u))
    (Items.octets (headerItems (updateHeader u))).length := by
  have h1 : Items.At Decodes ([] ++ Items.octets (headerItems (updateHeader u))) ([] : Bytes).length
      (headerItems (updateHeader u)) ([] ++ Items.octets (headerItems (updateHeader u))).length :=
    items_decode (Nat.le_refl 191) _ [] (by simp [headerItems, Item.Fits]) (by simp [headerItems, Item.Open])
  have h2 := items_extend decodes_extends (by simp [headerItems, Item.Open]) h1
    (Items.octets (zoneItems u) ++ u.records.flatMap RawRecord.octets ++ rest)
  rw [update_octets]
  simpa using h2

theorem update_zone_at {u : Update} (hu : u.Fits) (rest : Bytes) : Items.At Decodes (u.octets ++ rest)
    (Items.octets (headerItems (updateHeader u))).length (zoneItems u)
    (Items.octets (headerItems (updateHeader u)) ++ Items.octets (zoneItems u)).length := by
  have h1 := items_decode (Nat.le_refl 191) (zoneItems u) (Items.octets (headerItems (updateHeader u))) (by
      simp only [zoneItems, List.mem_cons, List.not_mem_nil, or_false]
      rintro it (rfl | rfl | rfl) <;> first | trivial | skip
      exact fun l hl => ⟨(hu.1 l hl).1, by have := (hu.1 l hl).2; omega⟩) (by simp [zoneItems, Item.Open])
  have h2 := items_extend decodes_extends (by simp [zoneItems, Item.Open]) h1 (u.records.flatMap RawRecord.octets ++ rest)
  rw [update_octets]
  simpa using h2

theorem update_counts {u : Update} (hu : u.Fits) : (updateHeader u).quesCount.toNat = 1 ∧
    (updateHeader u).ansCount.toNat = u.prerequisites.length ∧ (updateHeader u).authCount.toNat = u.updates.length ∧
    (updateHeader u).addCount.toNat = u.additional.length :=
  ⟨rfl, UInt16.toNat_ofNat_of_lt' (by simpa [UInt16.size] using hu.2.2.1),
    UInt16.toNat_ofNat_of_lt' (by simpa [UInt16.size] using hu.2.2.2.1),
    UInt16.toNat_ofNat_of_lt' (by simpa [UInt16.size] using hu.2.2.2.2)⟩

theorem update_opcode (u : Update) : (updateHeader u).opcode = .reserved := by
  show OpCode.ofU8 (Flags.opcode ⟨0x28, 0⟩) = .reserved
  decide

/-- What the zone section is read as. -/
theorem update_zone {cfg : Cfg} {u : Update} (hu : u.Fits) {rest : Bytes} {q : Question} {k : Nat}
    (h : QuestionAt Decodes cfg (u.octets ++ rest) (Items.octets (headerItems (updateHeader u))).length q k) :
    k = (Items.octets (headerItems (updateHeader u)) ++ Items.octets (zoneItems u)).length ∧
    q.qName = u.zone ∧ q.qType = .rr .SOA ∧ qclassNumber q.qClass = u.zoneClass.toNat % 32768 := by
  obtain ⟨hr, v, hv, m1, a1, m2, a2, m3, a3, a4⟩ := h
  have a4 : m3 = k := a4
  subst a4
  obtain ⟨m1', b1, m2', b2, m3', b3, b4⟩ := update_zone_at hu rest
  obtain ⟨e1, rfl⟩ := decodes_fun a1 b1
  have a2' := extractU16_ok.mpr (show Octets _ m1 (octets16 (UInt16.ofNat (qtypeNumber q.qType))) m2 from a2)
  rw [extractU16_ok.mpr (show Octets _ m1 (octets16 6) m2' from b2)] at a2'
  obtain ⟨e2, rfl⟩ : (6 : UInt16) = UInt16.ofNat (qtypeNumber q.qType) ∧ m2' = m2 := by
    have := Prod.mk.inj a2'
    exact ⟨Res.ok.inj this.1, this.2⟩
  have a3' := extractU16_ok.mpr (show Octets _ m2' (octets16 v) m3 from a3)
  rw [extractU16_ok.mpr (show Octets _ m2' (octets16 u.zoneClass) m3' from b3)] at a3'
  obtain ⟨e3, rfl⟩ : u.zoneClass = v ∧ m3' = m3 := by
    have := Prod.mk.inj a3'
    exact ⟨Res.ok.inj this.1, this.2⟩
  refine ⟨b4, e1, ?_, by rw [e3]; exact hv.1.symm⟩
  revert e2
  cases q.qType with
  | rr t => cases t <;> first | (intro _; rfl) | (intro e2; exact absurd e2 (by decide))
  | _ => intro e2; exact absurd e2 (by decide)

/-- C127 (partial): an update message of RFC 2136 that is read is read as what it says, apart from the data of its records: the
identification, the zone, and the names, types, classes and times to live of prerequisites and updates, by which they are told
apart (the classes NONE and ANY have no name for records, but their numbers).  The opcode is reported as reserved.  What is
missing: most updates and prerequisites without data are not read, see `C127_nothing_exact` and `C127_message_exact`. -/
theorem C127_message_read_partial (cfg : Cfg) (u : Update) (hu : u.Fits) (rest : Bytes) (p : Packet)
    (h : Packet.parse cfg (u.octets ++ rest) = .ok p) :
    p.header.id = u.id ∧ p.header.opcode = .reserved ∧
    (∃ q, p.questions = [q] ∧ q.qName = u.zone ∧ q.qType = .rr .SOA ∧ qclassNumber q.qClass = u.zoneClass.toNat % 32768) ∧
    List.Forall₂ (fun (e : Prerequisite) r => Tells (e.record u.zoneClass) r) u.prerequisites p.answers ∧
    List.Forall₂ (fun (e : UpdateStep) r => Tells (e.record u.zoneClass) r) u.updates p.authorities ∧
    List.Forall₂ Tells u.additional p.additional ∧
    ∀ x ∈ u.records, x.data = [] → x.type.toNat ∈ emptyTypes := by
  obtain ⟨e, c1, c2, c3, c4, i1, i2, i3, i4, hh, hq, ha, hb, hd⟩ := Packet.parse_ok.mp h
  have hh' := (Header.parse_ok (N := Decodes)).mpr hh
  rw [(Header.parse_ok (N := Decodes)).mpr (update_header_at u rest)] at hh'
  obtain ⟨hh'', rfl⟩ : updateHeader u = p.header ∧ (Items.octets (headerItems (updateHeader u))).length = i1 := by
    have := Prod.mk.inj hh'
    exact ⟨Res.ok.inj this.1, this.2⟩
  obtain ⟨n1, n2, n3, n4⟩ := update_counts hu
  rw [← hh''] at c1 c2 c3 c4
  obtain ⟨q, hqs⟩ := List.length_eq_one_iff.mp (c1.trans n1)
  rw [hqs] at hq
  obtain ⟨k, hq, hk⟩ := hq
  have hk : k = i2 := hk
  subst hk
  obtain ⟨rfl, e1, e2, e3⟩ := update_zone hu hq
  have hoct := congrArg (· ++ rest) (update_octets u)
  generalize Items.octets (headerItems (updateHeader u)) ++ Items.octets (zoneItems u) = front at ha hoct
  have hf : ∀ x ∈ u.records, x.Fits := hu.2.1
  unfold Update.records at hf hoct ⊢
  generalize hA : u.prerequisites.map (·.record u.zoneClass) = A at hf hoct ⊢
  generalize hB : u.updates.map (·.record u.zoneClass) = B at hf hoct ⊢
  have lA : A.length = u.prerequisites.length := by rw [← hA, List.length_map]
  have lB : B.length = u.updates.length := by rw [← hB, List.length_map]
  have o1 : u.octets ++ rest = front ++ A.flatMap RawRecord.octets ++
      (B.flatMap RawRecord.octets ++ (u.additional.flatMap RawRecord.octets ++ rest)) := by
    rw [hoct]; simp only [List.flatMap_append, List.append_assoc]
  have o2 : u.octets ++ rest = front ++ A.flatMap RawRecord.octets ++ B.flatMap RawRecord.octets ++
      (u.additional.flatMap RawRecord.octets ++ rest) := by rw [o1, ← List.append_assoc]
  have o3 : u.octets ++ rest = front ++ A.flatMap RawRecord.octets ++ B.flatMap RawRecord.octets ++
      u.additional.flatMap RawRecord.octets ++ rest := by rw [o2, ← List.append_assoc]
  rw [o1] at ha
  obtain ⟨rfl, f1, g1⟩ := raw_list A front _ _ _ (fun x hx => hf x (by simp [hx])) (by rw [c2, n2, lA]) ha
  rw [o2] at hb
  obtain ⟨rfl, f2, g2⟩ := raw_list B _ _ _ _ (fun x hx => hf x (by simp [hx])) (by rw [c3, n3, lB]) hb
  rw [o3] at hd
  obtain ⟨rfl, f3, g3⟩ := raw_list u.additional _ _ _ _ (fun x hx => hf x (by simp [hx])) (by rw [c4, n4]) hd
  rw [← hA] at f1
  rw [← hB] at f2
  refine ⟨by rw [← hh'']; rfl, by rw [← hh'']; exact update_opcode u, ⟨q, hqs, e1, e2, e3⟩, ?_, ?_, f3, ?_⟩
  · exact (List.forall₂_map_left_iff).mp f1
  · exact (List.forall₂_map_left_iff).mp f2
  · intro x hx
    simp only [List.append_assoc, List.mem_append] at hx
    rcases hx with hx | hx | hx
    · exact g1 x hx
    · exact g2 x hx
    · exact g3 x hx

/-- What is read before the records. -/
theorem update_front {cfg : Cfg} {u : Update} (hu : u.Fits) (hz : u.zoneClass.toNat % 32768 ∈ zoneClasses) (rest : Bytes) :
    ∃ q, QuestionAt Decodes cfg (u.octets ++ rest) (Items.octets (headerItems (updateHeader u))).length q
      (Items.octets (headerItems (updateHeader u)) ++ Items.octets (zoneItems u)).length := by
  have hc : ∃ c : QClass, qclassNumber c = u.zoneClass.toNat % 32768 := by
    simp only [zoneClasses, List.mem_cons, List.not_mem_nil, or_false] at hz
    rcases hz with h | h | h | h | h | h
    · exact ⟨.IN, h.symm⟩
    · exact ⟨.CS, h.symm⟩
    · exact ⟨.CH, h.symm⟩
    · exact ⟨.HS, h.symm⟩
    · exact ⟨.NONE, h.symm⟩
    · exact ⟨.ANY, h.symm⟩
  obtain ⟨c, hc⟩ := hc
  exact ⟨⟨u.zone, .rr .SOA, c, cfg.mdns && decide (32768 ≤ u.zoneClass.toNat)⟩, by simp [QReadable, Readable, dnssecTypes],
    u.zoneClass, ⟨hc.symm, rfl⟩, update_zone_at hu rest⟩

/-- C127, exactly: an update message of RFC 2136 whose records with data are such that are read wherever they stand (see
`C127_with_data`) is read if and only if its zone has a class known to the crate, and its prerequisites and updates without
data (the set exists, does not exist, is to be deleted; the name is in use, is not in use, is to be deleted) are about
sets of the types NULL, TXT, OPT and OPENPGPKEY. -/
theorem C127_message_exact (cfg : Cfg) (u : Update) (hu : u.Fits)
    (hd : ∀ x ∈ u.records, x.data ≠ [] → ReadAnywhere cfg x) (rest : Bytes) :
    (∃ p, Packet.parse cfg (u.octets ++ rest) = .ok p) ↔
      u.zoneClass.toNat % 32768 ∈ zoneClasses ∧ ∀ x ∈ u.records, x.data = [] → x.type.toNat ∈ emptyTypes := by
  constructor
  · rintro ⟨p, h⟩
    obtain ⟨-, -, ⟨q, -, -, -, h1⟩, -, -, -, h2⟩ := C127_message_read_partial cfg u hu rest p h
    exact ⟨by rw [← h1]; cases q.qClass <;> decide, h2⟩
  · rintro ⟨hz, he⟩
    obtain ⟨q, hq⟩ := update_front (cfg := cfg) hu hz rest
    have hr : ∀ x ∈ u.records, ReadAnywhere cfg x := fun x hx => by
      by_cases h : x.data = []
      · exact nothing_anywhere (hu.2.1 x hx) h (he x hx h)
      · exact hd x hx h
    obtain ⟨n1, n2, n3, n4⟩ := update_counts hu
    have hh := update_header_at u rest
    have hoct := congrArg (· ++ rest) (update_octets u)
    unfold Update.records at hr hoct
    generalize hF : Items.octets (headerItems (updateHeader u)) ++ Items.octets (zoneItems u) = front at hq hoct
    generalize hA : u.prerequisites.map (·.record u.zoneClass) = A at hr hoct
    generalize hB : u.updates.map (·.record u.zoneClass) = B at hr hoct
    have lA : A.length = u.prerequisites.length := by rw [← hA, List.length_map]
    have lB : B.length = u.updates.length := by rw [← hB, List.length_map]
    have o1 : u.octets ++ rest = front ++ A.flatMap RawRecord.octets ++
        (B.flatMap RawRecord.octets ++ (u.additional.flatMap RawRecord.octets ++ rest)) := by
      rw [hoct]; simp only [List.flatMap_append, List.append_assoc]
    have o2 : u.octets ++ rest = front ++ A.flatMap RawRecord.octets ++ B.flatMap RawRecord.octets ++
        (u.additional.flatMap RawRecord.octets ++ rest) := by rw [o1, ← List.append_assoc]
    have o3 : u.octets ++ rest = front ++ A.flatMap RawRecord.octets ++ B.flatMap RawRecord.octets ++
        u.additional.flatMap RawRecord.octets ++ rest := by rw [o2, ← List.append_assoc]
    obtain ⟨ra, la, ha⟩ := raw_list_read (cfg := cfg) A front
      (B.flatMap RawRecord.octets ++ (u.additional.flatMap RawRecord.octets ++ rest)) (fun x hx => hr x (by simp [hx]))
    obtain ⟨rb, lb, hb⟩ := raw_list_read (cfg := cfg) B (front ++ A.flatMap RawRecord.octets)
      (u.additional.flatMap RawRecord.octets ++ rest) (fun x hx => hr x (by simp [hx]))
    obtain ⟨rc, lc, hc⟩ := raw_list_read (cfg := cfg) u.additional
      (front ++ A.flatMap RawRecord.octets ++ B.flatMap RawRecord.octets) rest (fun x hx => hr x (by simp [hx]))
    rw [← o1] at ha
    rw [← o2] at hb
    rw [← o3] at hc
    exact ⟨⟨updateHeader u, [q], ra, rb, rc⟩, Packet.parse_ok.mpr ⟨_, n1.symm, by rw [la, lA]; exact n2.symm,
      by rw [lb, lB]; exact n3.symm, by rw [lc]; exact n4.symm, _, _, _, _, hh, ⟨_, hq, rfl⟩, ha, hb, hc⟩⟩

/-- C127: a prerequisite or update without data about a set of a type whose data begin with a name makes the crate
panic: any update message in which the records before it are read. -/
theorem C127_message_panics (cfg : Cfg) (u : Update) (hu : u.Fits) (hz : u.zoneClass.toNat % 32768 ∈ zoneClasses)
    (xs ys : List RawRecord) (x : RawRecord) (hr : u.records = xs ++ x :: ys) (hd : ∀ y ∈ xs, ReadAnywhere cfg y)
    (he : x.data = []) (ht : x.type.toNat ∈ nameTypes) (h47 : x.type = 47 → cfg.dnssec = true) (rest : Bytes) :
    Packet.parse cfg (u.octets ++ rest) = .panic .index := by
  obtain ⟨q, hq⟩ := update_front (cfg := cfg) hu hz rest
  obtain ⟨n1, n2, n3, n4⟩ := update_counts hu
  have hh := (Header.parse_ok (N := Decodes)).mpr (update_header_at u rest)
  have hoct := congrArg (· ++ rest) (update_octets u)
  have hx : x.Fits := hu.2.1 x (by rw [hr]; simp)
  have hl : xs.length < u.prerequisites.length + u.updates.length + u.additional.length := by
    have := congrArg List.length hr
    simp only [Update.records, List.length_append, List.length_map, List.length_cons] at this
    omega
  rw [hr] at hoct
  generalize hF : Items.octets (headerItems (updateHeader u)) ++ Items.octets (zoneItems u) = front at hq hoct
  have o1 : u.octets ++ rest = front ++ xs.flatMap RawRecord.octets ++
      (x.octets ++ (ys.flatMap RawRecord.octets ++ rest)) := by
    rw [hoct]; simp only [List.flatMap_append, List.flatMap_cons, List.append_assoc]
  have o2 : u.octets ++ rest = front ++ xs.flatMap RawRecord.octets ++ x.octets ++
      (ys.flatMap RawRecord.octets ++ rest) := by rw [o1, ← List.append_assoc]
  obtain ⟨ra, la, ha⟩ := raw_list_read (cfg := cfg) xs front (x.octets ++ (ys.flatMap RawRecord.octets ++ rest)) hd
  rw [← o1] at ha
  have hp := (C127_nothing_exact cfg x hx he (front ++ xs.flatMap RawRecord.octets)
    (ys.flatMap RawRecord.octets ++ rest)).2.1.mpr ⟨ht, h47⟩
  rw [← o2] at hp
  unfold Packet.parse Packet.parseBuf
  rw [bind_right hh]
  have hq' : Parser.times (updateHeader u).quesCount.toNat (Question.parse cfg) (u.octets ++ rest)
      (Items.octets (headerItems (updateHeader u))).length = (.ok [q], front.length) :=
    seq_times.mpr ⟨n1.symm, _, Question.parse_ok.mpr hq, rfl⟩
  rw [bind_right hq']
  exact sections_panic _ _ _ ra _ _ ((seq_listAt (fun _ _ _ => ResourceRecord.parse_ok)).mpr ha)
    (by rw [n2, n3, n4, la]; exact hl) hp

/-- C127: records with data, of any class: if the data are those that the crate writes for a value of the type of the
record, other than SSHFP, then the record is read, wherever it stands, with this value. -/
theorem C127_with_data (cfg : Cfg) (x : RawRecord) (hx : x.Fits) (v : RecordData) (hv : Writable cfg 191 v)
    (hr : Readable cfg v.type) (ht : x.type.toNat = typeNumber v.type) (hs : v.type ≠ .SSHFP)
    (hd : v.toBytes cfg = .ok x.data) (pre post : Bytes) :
    ∃ r, ResourceRecord.parse cfg (pre ++ x.octets ++ post) pre.length = (.ok r, (pre ++ x.octets).length) ∧
      Tells x r ∧ r.rdata = v := by
  obtain ⟨c, f, h1, -, h3⟩ := parse_behind (cfg := cfg) hx pre post (RecordType.ofU16_ok.mpr ⟨hr, type_of_number ht⟩)
  obtain ⟨b, h4, h5⟩ := RecordData.read_back (Nat.le_refl 191) hv (fun y hy => hs (by rw [hy]; rfl))
    (pre ++ Items.octets (rawHead x))
  obtain rfl : b = x.data := by rw [hd] at h4; exact (Res.ok.inj h4).symm
  refine ⟨⟨x.name, v.type, f, c, x.ttl, v⟩, ?_, ⟨rfl, ht.symm, h1, rfl⟩, rfl⟩
  have ho : pre ++ x.octets ++ post = pre ++ Items.octets (rawHead x) ++ x.data ++ post := by
    rw [raw_octets]; simp
  have hl : (pre ++ x.octets).length = x.data.length + (pre ++ Items.octets (rawHead x)).length := by
    rw [raw_octets]; simp; omega
  rw [h3, hl, ho, bind_right (withSubBuffer_ok (x := (v, (pre ++ Items.octets (rawHead x) ++ x.data).length)).mpr
    ⟨by simp; omega, rfl, by
      rw [show x.data.length + (pre ++ Items.octets (rawHead x)).length =
        (pre ++ Items.octets (rawHead x) ++ x.data).length by simp; omega, List.take_left]
      exact h5⟩), bind_right (advance_ok.mpr ⟨by simp; omega, rfl⟩)]
  rfl

/-- C127: prerequisites and updates without data can be written, as records with the data of NULL records (see C65): the
set exists, does not exist, is to be deleted. -/
theorem C127_written (cfg : Cfg) (n : List Bytes) (hn : ∀ l ∈ n, 1 ≤ l.length ∧ l.length ≤ 63) (t : RecordType) (zc : UInt16) :
    ((ResourceRecord.new n t (.udpPayloadSize 255) 0 (.NULL ⟨[]⟩)).toBytes cfg =
      .ok (((Prerequisite.setExists n (UInt16.ofNat (typeNumber t))).record zc).octets)) ∧
    ((ResourceRecord.new n t (.udpPayloadSize 254) 0 (.NULL ⟨[]⟩)).toBytes cfg =
      .ok (((Prerequisite.noSet n (UInt16.ofNat (typeNumber t))).record zc).octets)) ∧
    ((ResourceRecord.new n t (.udpPayloadSize 255) 0 (.NULL ⟨[]⟩)).toBytes cfg =
      .ok (((UpdateStep.deleteSet n (UInt16.ofNat (typeNumber t))).record zc).octets)) := by
  have key : ∀ c : UInt16, ResourceRecord.toBytes cfg ⟨n, t, false, .udpPayloadSize c, 0, .NULL ⟨[]⟩⟩ =
      .ok (RawRecord.octets ⟨n, UInt16.ofNat (typeNumber t), c, 0, []⟩) := by
    intro c
    have hc : ResourceRecord.classBits cfg ⟨n, t, false, .udpPayloadSize c, 0, .NULL ⟨[]⟩⟩ = c := by
      simp [ResourceRecord.classBits, RecordClass.toU16]
    have h0 : (ResourceRecord.toBytes cfg ⟨n, t, false, .udpPayloadSize c, 0, .NULL ⟨[]⟩⟩) =
      .ok (Fqdn.toBytes n ++ u16be t.toU16 ++ u16be (ResourceRecord.classBits cfg ⟨n, t, false, .udpPayloadSize c, 0, .NULL ⟨[]⟩⟩)
        ++ u32be 0 ++ u16be (lenU16 0) ++ []) := rfl
    rw [h0, hc, NameOk.toBytes (max := 63) hn]
    simp [RawRecord.octets, RecordType.toU16_eq, u16be_eq, u32be_eq, lenU16]
  exact ⟨key 255, key 254, key 255⟩

/-- C127: those about all records of a name (the name is in use, is not in use, all is to be deleted) cannot be written: no
record has the type ANY. -/
theorem C127_any_not_written (cfg : Cfg) (r : ResourceRecord) (b : Bytes) (n : List Bytes)
    (hn : ∀ l ∈ n, 1 ≤ l.length ∧ l.length ≤ 63) (hr : r.name = n) (hb : r.toBytes cfg = .ok b) (zc : UInt16) :
    b ≠ ((Prerequisite.nameInUse n).record zc).octets ∧ b ≠ ((Prerequisite.nameNotInUse n).record zc).octets ∧
    b ≠ ((UpdateStep.deleteAll n).record zc).octets := by
  have key : ∀ (c : UInt16), b ≠ (RawRecord.octets ⟨n, 255, c, 0, []⟩) := by
    rintro c rfl
    unfold ResourceRecord.toBytes at hb
    simp only [Res.bind_ok] at hb
    obtain ⟨m, -, data, -, h3⟩ := hb
    have h3 := Res.ok.inj h3
    rw [hr, NameOk.toBytes (max := 63) hn] at h3
    simp only [RawRecord.octets, List.append_assoc, List.append_cancel_left_eq] at h3
    have h4 := (List.append_inj h3 (by simp [u16be_eq, octets16])).1
    rw [u16be_eq] at h4
    have h5 := octets16_inj h4
    cases ht : r.type <;> rw [ht] at h5 <;> exact absurd h5 (by decide)
  exact ⟨key 255, key 254, key 255⟩

/-- An update of the zone `a.`: if there is a TXT set of `b.a.`, add an address of it, and do what is to be done. -/
def exUpdate (step : UpdateStep) : Update :=
  ⟨7, [[97]], 1, [.setExists [[98], [97]] 16], [.add [[98], [97]] 1 300 [192, 0, 2, 1], step], []⟩

theorem exUpdate_fits (step : UpdateStep) (h : (step.record 1).Fits) : (exUpdate step).Fits := by
  refine ⟨by simp [exUpdate], ?_, by simp [exUpdate], by simp [exUpdate], by simp [exUpdate]⟩
  intro x hx
  simp only [exUpdate, Update.records, List.map_cons, List.map_nil, List.cons_append, List.nil_append, List.append_nil,
    List.mem_cons, List.not_mem_nil, or_false] at hx
  rcases hx with rfl | rfl | rfl
  · exact ⟨by simp [Prerequisite.record], by simp [Prerequisite.record]⟩
  · exact ⟨by simp [UpdateStep.record], by simp [UpdateStep.record]⟩
  · exact h

theorem exUpdate_add (cfg : Cfg) : ReadAnywhere cfg ((UpdateStep.add [[98], [97]] 1 300 [192, 0, 2, 1]).record 1) := by
  intro pre post
  obtain ⟨r, h, -⟩ := C127_with_data cfg ⟨[[98], [97]], 1, 1, 300, [192, 0, 2, 1]⟩ ⟨by simp, by simp⟩
    (.A ⟨0xC0000201⟩) (by trivial) (by simp [Readable, dnssecTypes, RecordData.type]) (by rfl) (by decide) (by rfl) pre post
  exact ⟨r, h⟩

/-- C127 is false: of the updates that RFC 2136 defines, the deletion of the addresses of a name is refused, that of
its name servers makes every build panic, and that of all its records is refused. -/
theorem C127_counterexample (cfg : Cfg) :
    (¬ ∃ p, Packet.parse cfg (exUpdate (.deleteSet [[98], [97]] 1)).octets = .ok p) ∧
    Packet.parse cfg (exUpdate (.deleteSet [[98], [97]] 2)).octets = .panic .index ∧
    (¬ ∃ p, Packet.parse cfg (exUpdate (.deleteAll [[98], [97]])).octets = .ok p) := by
  have f1 : (exUpdate (.deleteSet [[98], [97]] 1)).Fits := exUpdate_fits _ ⟨by simp [UpdateStep.record], by simp [UpdateStep.record]⟩
  have f2 : (exUpdate (.deleteSet [[98], [97]] 2)).Fits := exUpdate_fits _ ⟨by simp [UpdateStep.record], by simp [UpdateStep.record]⟩
  have f3 : (exUpdate (.deleteAll [[98], [97]])).Fits := exUpdate_fits _ ⟨by simp [UpdateStep.record], by simp [UpdateStep.record]⟩
  refine ⟨?_, ?_, ?_⟩
  · rintro ⟨p, h⟩
    rw [← List.append_nil (Update.octets _)] at h
    have := (C127_message_read_partial cfg _ f1 [] p h).2.2.2.2.2.2 ⟨[[98], [97]], 1, 255, 0, []⟩
      (by simp [exUpdate, Update.records, UpdateStep.record]) rfl
    exact absurd this (by decide)
  · rw [← List.append_nil (Update.octets _)]
    refine C127_message_panics cfg _ f2 (by decide)
      [⟨[[98], [97]], 16, 255, 0, []⟩, (UpdateStep.add [[98], [97]] 1 300 [192, 0, 2, 1]).record 1] []
      ⟨[[98], [97]], 2, 255, 0, []⟩ rfl ?_ rfl (by decide) (fun h => absurd h (by decide)) []
    intro y hy
    simp only [List.mem_cons, List.not_mem_nil, or_false] at hy
    rcases hy with rfl | rfl
    · exact nothing_anywhere ⟨by simp, by simp⟩ rfl (by decide)
    · exact exUpdate_add cfg
  · rintro ⟨p, h⟩
    rw [← List.append_nil (Update.octets _)] at h
    have := (C127_message_read_partial cfg _ f3 [] p h).2.2.2.2.2.2 ⟨[[98], [97]], 255, 255, 0, []⟩
      (by simp [exUpdate, Update.records, UpdateStep.record]) rfl
    exact absurd this (by decide)

/-- C127: an update that is read: the deletion of a set of the type TXT. -/
example (cfg : Cfg) (rest : Bytes) : ∃ p, Packet.parse cfg ((exUpdate (.deleteSet [[98], [97]] 16)).octets ++ rest) = .ok p := by
  refine (C127_message_exact cfg _ (exUpdate_fits _ ⟨by simp [UpdateStep.record], by simp [UpdateStep.record]⟩) ?_ rest).mpr
    ⟨by decide, by decide⟩
  intro x hx hd
  simp only [exUpdate, Update.records, List.map_cons, List.map_nil, List.cons_append, List.nil_append, List.append_nil,
    List.mem_cons, List.not_mem_nil, or_false] at hx
  rcases hx with rfl | rfl | rfl
  · exact absurd rfl hd
  · exact exUpdate_add cfg
  · exact absurd rfl hd

/-- C127: a prerequisite that is written. -/
example (cfg : Cfg) : (ResourceRecord.new [[98]] .NS (.udpPayloadSize 255) 0 (.NULL ⟨[]⟩)).toBytes cfg =
    .ok [1, 98, 0, 0, 2, 0, 255, 0, 0, 0, 0, 0, 0] := (C127_written cfg [[98]] (by decide) .NS 1).1

/-- C127: a record without data that is refused, and one that makes the crate panic. -/
example : (ResourceRecord.parse ⟨true, true, true⟩ [1, 98, 0, 0, 1, 0, 255, 0, 0, 0, 0, 0, 0] 0).1 = .err .lengthViolation ∧
    (ResourceRecord.parse ⟨true, true, true⟩ [1, 98, 0, 0, 2, 0, 255, 0, 0, 0, 0, 0, 0] 0).1 = .panic .index := by
  decide +kernel

end Dns
