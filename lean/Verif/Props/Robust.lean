import Verif.Lemmas.Overflow
import Verif.Props.NameDecode

/-!
C31 and C32: whether `Packet::try_from` returns.  Both are false of the code; the theorems say exactly
on which messages it does not return.
-/

namespace Dns
open Spec Buf

/-- `Packet::try_from` on `d` gets to a name at position `i` of `d'` (`Spec.NameExpected`): it has read
everything before this name without an error.  `d'` is `d`, or `d` cut at the end of some RDATA. -/
def Spec.Reads (cfg : Cfg) (d d' : Bytes) (i : Nat) : Prop :=
  NameExpected (QuestionAt Decodes cfg d) (RecordAtWith (ParsedData cfg) Decodes cfg d) Decodes cfg d d' i

/-- `Packet::try_from` on `d` gets to RDATA of type `t` at position `k`; the RDATA end where `d'` ends. -/
def Spec.ReadsData (cfg : Cfg) (d : Bytes) (t : RecordType) (d' : Bytes) (k : Nat) : Prop :=
  AtRData (QuestionAt Decodes cfg d) (RecordAtWith (ParsedData cfg) Decodes cfg d) Decodes cfg d t d' k

theorem Packet.fails_iff {cfg : Cfg} {d : Bytes} {x : Option PanicKind} :
    Packet.parse cfg d = bad x ↔ Fails (Packet.parseBuf cfg) d 0 x := Iff.rfl

theorem Packet.fails_of_name {cfg : Cfg} {d d' : Bytes} {i : Nat} {x : Option PanicKind}
    (h1 : Reads cfg d d' i) (h2 : Fails extractFqdn d' i x) : Packet.parse cfg d = bad x := by
  rw [Packet.fails_iff, Packet.fails]
  rcases h1 with ⟨rfl, h | h⟩ | ⟨t, k, ⟨i0, name, cls, ttl, len, h3, h4, h5, h6, rfl⟩, h7⟩
  · exact Or.inl ⟨i, h, h2⟩
  · exact Or.inr ⟨i, h, ResourceRecord.fails.mpr (Or.inl h2)⟩
  · exact Or.inr ⟨i0, h3, ResourceRecord.fails.mpr (Or.inr ⟨name, t, cls, ttl, len, k, h4, h5, h6,
      RecordData.fails_of_name h7 h2⟩)⟩

theorem Packet.fails_of_data {cfg : Cfg} {d d' : Bytes} {t : RecordType} {k : Nat} {x : Option PanicKind}
    (h1 : ReadsData cfg d t d' k) (h2 : Fails (RecordData.parse cfg t) d' k x) :
    Packet.parse cfg d = bad x := by
  rw [Packet.fails_iff, Packet.fails]
  obtain ⟨i0, name, cls, ttl, len, h3, h4, h5, h6, rfl⟩ := h1
  exact Or.inr ⟨i0, h3, ResourceRecord.fails.mpr (Or.inr ⟨name, t, cls, ttl, len, k, h4, h5, h6, h2⟩)⟩

theorem Packet.fails_name {cfg : Cfg} {d : Bytes} {x : Option PanicKind} (h : Packet.parse cfg d = bad x) :
    (∃ d' i, Reads cfg d d' i ∧ Fails extractFqdn d' i x) ∨
      (x = some .overflow ∧ cfg.overflowChecks = true ∧
        ∃ t d' k, ReadsData cfg d t d' k ∧ TooLong Decodes cfg t d' k) := by
  rw [Packet.fails_iff, Packet.fails] at h
  rcases h with ⟨i, h1, h2⟩ | ⟨i, h1, h2⟩
  · exact Or.inl ⟨d, i, Or.inl ⟨rfl, Or.inl h1⟩, h2⟩
  · rcases ResourceRecord.fails.mp h2 with h2 | ⟨name, t, cls, ttl, len, k, h3, h4, h5, h6⟩
    · exact Or.inl ⟨d, i, Or.inl ⟨rfl, Or.inr h1⟩, h2⟩
    · have hd : ReadsData cfg d t (d.take (k + len.toNat)) k :=
        ⟨i, name, cls, ttl, len, h1, h3, h4, h5, rfl⟩
      rcases RecordData.fails (by simp; omega) h6 with ⟨j, h7, h8⟩ | ⟨h7, h8, h9⟩
      · exact Or.inl ⟨_, j, Or.inr ⟨t, k, hd, h7⟩, h8⟩
      · exact Or.inr ⟨h7, h8, t, _, k, hd, h9⟩

theorem isPanic_bad {α : Type} {r : Res α} : r.isPanic = true ↔ ∃ k, r = bad (some k) := by
  cases r <;> simp [Res.isPanic, bad]

theorem loop_index {d : Bytes} : ∀ (n : Nat) (s : FqdnState) (k : PanicKind) (j : Nat),
    fqdnLoop d n s = some (.panic k, j) → k = .index := by
  intro n
  induction n with
  | zero => intro s k j h; cases h
  | succ n ih =>
    intro s k j h
    rw [fqdnLoop_succ] at h
    have hs := stepCase d s
    rcases hy : fqdnStep d s with s' | r
    · rw [hy] at h; exact ih s' k j h
    · rw [hy] at h hs
      cases h
      cases hs <;> rfl

theorem fqdn_panic_kind {d : Bytes} {i : Nat} {k : PanicKind} (h : Fails extractFqdn d i (some k)) :
    k = .index ∧ ∃ p o, Visits d i (p, o) ∧ Stuck d p := by
  refine ⟨?_, extractFqdn_panic.mp (isPanic_bad.mpr ⟨k, h⟩)⟩
  unfold Fails extractFqdn at h
  split at h
  · rename_i r hr
    obtain ⟨r, j⟩ := r
    cases h
    exact loop_index _ _ _ _ hr
  · cases h

/-! ## C31 -/

/-- C31: in every build, `Packet::try_from` panics exactly on two kinds of messages.  Either it gets to a
name, and reading this name leads behind the end of the data (or to a label that is one octet too long
for the data): an index out of bounds.  Or the build checks for overflow, and it gets to RDATA with a
type beyond 65535 in a type bitmap, or with a SVCB parameter whose length ends within its last element.
Missing in C31: these messages. -/
theorem C31_no_panic_partial (cfg : Cfg) (d : Bytes) (kind : PanicKind) :
    Packet.parse cfg d = .panic kind ↔
    (kind = .index ∧ ∃ d' i p o, Reads cfg d d' i ∧ Visits d' i (p, o) ∧ Stuck d' p) ∨
      (kind = .overflow ∧ cfg.overflowChecks = true ∧
        ∃ t d' k, ReadsData cfg d t d' k ∧ TooLong Decodes cfg t d' k) := by
  constructor
  · intro h
    rcases Packet.fails_name (x := some kind) h with ⟨d', i, h1, h2⟩ | ⟨h0, h1, h2⟩
    · obtain ⟨h0, p, o, h3, h4⟩ := fqdn_panic_kind h2
      exact Or.inl ⟨h0, d', i, p, o, h1, h3, h4⟩
    · cases h0; exact Or.inr ⟨rfl, h1, h2⟩
  · rintro (⟨rfl, d', i, p, o, h1, h2, h3⟩ | ⟨rfl, hc, t, d', k, h1, h2⟩)
    · obtain ⟨k, hk⟩ := isPanic_bad.mp (extractFqdn_panic.mpr ⟨p, o, h2, h3⟩)
      obtain ⟨rfl, -⟩ := fqdn_panic_kind hk
      exact Packet.fails_of_name h1 hk
    · exact Packet.fails_of_data h1 (RecordData.fails_of_tooLong hc h2)

/-- C31: the names are really read: if `Packet::try_from` gets to such a name, it panics. -/
theorem C31_panics (cfg : Cfg) (d d' : Bytes) (i p : Nat) (o : Option Nat) (h1 : Reads cfg d d' i)
    (h2 : Visits d' i (p, o)) (h3 : Stuck d' p) : (Packet.parse cfg d).isPanic = true := by
  obtain ⟨k, hk⟩ := isPanic_bad.mp (extractFqdn_panic.mpr ⟨p, o, h2, h3⟩)
  exact isPanic_bad.mpr ⟨k, Packet.fails_of_name h1 hk⟩

/-- C31: so in a release build the messages on which `Packet::try_from` panics are exactly the ones with
such a name. -/
theorem C31_release_partial (cfg : Cfg) (hc : cfg.overflowChecks = false) (d : Bytes) :
    (Packet.parse cfg d).isPanic = false ↔
      ¬ ∃ d' i p o, Reads cfg d d' i ∧ Visits d' i (p, o) ∧ Stuck d' p := by
  constructor
  · rintro h ⟨d', i, p, o, h1, h2, h3⟩
    rw [C31_panics cfg d d' i p o h1 h2 h3] at h
    cases h
  · intro h
    cases hp : (Packet.parse cfg d).isPanic with
    | false => rfl
    | true =>
      obtain ⟨kind, hk⟩ := isPanic_bad.mp hp
      rcases (C31_no_panic_partial cfg d kind).mp hk with ⟨_, h1⟩ | ⟨_, h1, _⟩
      · exact absurd h1 h
      · rw [hc] at h1; cases h1
example (d : Bytes) := C31_release_partial ⟨false, true, true⟩ rfl d

/-- A header that announces one question, and nothing else. -/
def exCut : Bytes := [0, 1, 0, 0, 0, 1, 0, 0, 0, 0, 0, 0]

/-- A response with one record (name `.`, TTL 0) of the given type, and its RDATA. -/
def exOne (t : UInt8) (rdata : Bytes) : Bytes :=
  [0, 1, 0x80, 0, 0, 0, 0, 1, 0, 0, 0, 0, 0, 0, t, 0, 1, 0, 0, 0, 0, 0, UInt8.ofNat rdata.length] ++ rdata

/-- C31 is false: a message that is cut where the first name is expected makes every build panic.  So
does a record of type NS whose name is cut.  A record of type SVCB with the parameter `mandatory` of
length 1 makes the builds with overflow checks panic, and so does a bitmap of 33 octets for window
255. -/
theorem C31_counterexample (cfg : Cfg) :
    Packet.parse cfg exCut = .panic .index ∧
    Packet.parse cfg (exOne 2 [1, 97]) = .panic .index ∧
    (cfg.overflowChecks = true →
      Packet.parse cfg (exOne 64 [0, 1, 0, 0, 0, 0, 1, 0, 0]) = .panic .overflow) ∧
    (cfg.overflowChecks = true → cfg.dnssec = true →
      Packet.parse cfg (exOne 47 ([0, 255, 33] ++ List.replicate 32 0 ++ [128])) = .panic .overflow) := by
  obtain ⟨a, b, c⟩ := cfg
  cases a <;> cases b <;> cases c <;> decide +kernel

/-- The hypotheses of the theorems hold for these messages: `exCut` is a message of the first kind, the
SVCB record one of the second kind; a message with a question that is not cut is read. -/
example (cfg : Cfg) : ∃ d' i p o, Reads cfg exCut d' i ∧ Visits d' i (p, o) ∧ Stuck d' p := by
  rcases (C31_no_panic_partial cfg exCut _).mp (C31_counterexample cfg).1 with ⟨_, h⟩ | ⟨h, _⟩
  · exact h
  · cases h

example : ∃ t d' k, ReadsData ⟨true, false, true⟩ (exOne 64 [0, 1, 0, 0, 0, 0, 1, 0, 0]) t d' k ∧
    TooLong Decodes ⟨true, false, true⟩ t d' k := by
  rcases (C31_no_panic_partial _ _ _).mp ((C31_counterexample ⟨true, false, true⟩).2.2.1 rfl) with
    ⟨h, _⟩ | ⟨_, _, h⟩
  · cases h
  · exact h

example (cfg : Cfg) : (Packet.parse cfg (exCut ++ [1, 97, 0, 0, 1, 0, 1])).isOk = true := by
  obtain ⟨a, b, c⟩ := cfg
  cases a <;> cases b <;> cases c <;> decide +kernel

/-! ## C32 -/

/-- C32: `Packet::try_from` returns exactly when no name it gets to leads into a cycle of pointers.
Missing in C32: these cycles. -/
theorem C32_terminates_partial (cfg : Cfg) (d : Bytes) :
    Packet.parse cfg d ≠ .hang ↔ ¬ ∃ d' i, Reads cfg d d' i ∧ Cycle d' i := by
  apply not_congr
  constructor
  · intro h
    rcases Packet.fails_name (x := none) h with ⟨d', i, h1, h2⟩ | ⟨h, -⟩
    · exact ⟨d', i, h1, extractFqdn_hang.mp h2⟩
    · cases h
  · rintro ⟨d', i, h1, h2⟩
    exact Packet.fails_of_name (x := none) h1 (extractFqdn_hang.mpr h2)

/-- C32: in particular it returns on every message in which no octet has the two top bits set. -/
theorem C32_terminates_without_pointers_partial (cfg : Cfg) (d : Bytes) (h : ∀ b ∈ d, b.toNat < 192) :
    Packet.parse cfg d ≠ .hang := by
  rw [C32_terminates_partial]
  rintro ⟨d', i, h1, h2⟩
  have hd : ∀ b ∈ d', b.toNat < 192 := by
    rcases h1 with ⟨rfl, -⟩ | ⟨t, k, ⟨_, _, _, _, _, _, _, _, _, rfl⟩, _⟩
    · exact h
    · intro b hb; exact h b (List.mem_of_mem_take hb)
  exact C09_terminates_without_pointers_partial d' i hd (extractFqdn_hang.mpr h2)
example (cfg : Cfg) : Packet.parse cfg [0, 1, 1, 0, 0, 1, 0, 0, 0, 0, 0, 0, 1, 97, 0, 0, 1, 0, 1] ≠ .hang :=
  C32_terminates_without_pointers_partial cfg _ (by decide)

/-- C32 is false: a message with one question whose name is a label followed by a pointer to the label,
and a record whose RDATA contain such a name, are never read to the end, by any build. -/
theorem C32_counterexample (cfg : Cfg) :
    Packet.parse cfg (exCut ++ [1, 97, 0xC0, 12, 0, 1, 0, 1]) = .hang ∧
    Packet.parse cfg (exOne 5 [1, 97, 0xC0, 23]) = .hang := by
  obtain ⟨a, b, c⟩ := cfg
  cases a <;> cases b <;> cases c <;> decide +kernel

example (cfg : Cfg) : ∃ d' i, Reads cfg (exOne 5 [1, 97, 0xC0, 23]) d' i ∧ Cycle d' i := by
  by_contra h
  exact (C32_terminates_partial cfg _).mpr h (C32_counterexample cfg).2

example : ∀ b ∈ exCut, b.toNat < 192 := by decide

end Dns
