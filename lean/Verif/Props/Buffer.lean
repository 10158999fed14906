import Verif.Lemmas.Bounded
import Verif.Lemmas.Utf8
import Verif.Model.Parts

/-! C01–C06: the reading primitives of `DnsBuffer`. -/

namespace Dns
open Spec Buf

/-! ## C01 -/

/-- A call of the public API of `DnsBuffer`, or of one of the readers of the crate that take a
`&mut DnsBuffer` (`TryFrom` of headers, questions, records, record data and packets). -/
inductive BufCall where
  | remaining | position
  | setPosition (p : Nat)
  | advance (n : Nat)
  | peekBytes (n : Nat)
  | extractBytes (n : Nat)
  | extractU8 | extractU16 | extractU32
  | extractCharacterString | extractString | extractFqdn
  | subBuffer (n : Nat)
  | readHeader | readQuestion | readRecord | readRecordData (t : RecordType) | readPacket

/-- Data and position of the buffer the caller holds after the call: for `sub_buffer` the new one
(the old one is unchanged), for every other call the same buffer, whatever the call returned. -/
def BufCall.after (cfg : Cfg) (c : BufCall) (d : Bytes) (i : Nat) : Bytes × Nat :=
  match c with
  | .remaining => (d, (Buf.remaining d i).2)
  | .position => (d, (Buf.position d i).2)
  | .setPosition p => (d, (Buf.setPosition p d i).2)
  | .advance n => (d, (advanceUsize cfg n d i).2)
  | .peekBytes n => (d, (peekBytesUsize cfg n d i).2)
  | .extractBytes n => (d, (extractBytesUsize cfg n d i).2)
  | .extractU8 => (d, (Buf.extractU8 d i).2)
  | .extractU16 => (d, (Buf.extractU16 d i).2)
  | .extractU32 => (d, (Buf.extractU32 d i).2)
  | .extractCharacterString => (d, (Buf.extractCharacterString d i).2)
  | .extractString => (d, (Buf.extractString d i).2)
  | .extractFqdn => (d, (Buf.extractFqdn d i).2)
  | .subBuffer n =>
    match subBufferUsize cfg n d i with
    | .ok b => b
    | _ => (d, i)
  | .readHeader => (d, (Header.parse d i).2)
  | .readQuestion => (d, (Question.parse cfg d i).2)
  | .readRecord => (d, (ResourceRecord.parse cfg d i).2)
  | .readRecordData t => (d, (RecordData.parse cfg t d i).2)
  | .readPacket => (d, (Packet.parseBuf cfg d i).2)

/-- The only call that can break the invariant: `sub_buffer(n)` in a build without overflow checks
when `position + n` exceeds the largest `usize`. -/
def BufCall.NoWrap (cfg : Cfg) (c : BufCall) (i : Nat) : Prop :=
  match c with
  | .subBuffer n => cfg.overflowChecks = true ∨ n + i < 2 ^ 64
  | _ => True

/-- The buffers reached from `DnsBuffer::new(d0)` by a history of calls. -/
inductive BufReach (cfg : Cfg) (d0 : Bytes) : Bytes → Nat → Prop
  | new : BufReach cfg d0 d0 0
  | call {d i} (c : BufCall) : BufReach cfg d0 d i → c.NoWrap cfg i →
      BufReach cfg d0 (c.after cfg d i).1 (c.after cfg d i).2

theorem addUsize_ok {cfg : Cfg} {a b n : Nat} (h : addUsize cfg a b = .ok n) :
    n = a + b ∨ (cfg.overflowChecks = false ∧ 2 ^ 64 ≤ a + b ∧ n = (a + b) % 2 ^ 64) := by
  unfold addUsize at h
  split at h
  · cases h; exact .inl rfl
  · split at h
    · cases h
    · rename_i h1 h2
      cases h
      exact .inr ⟨by simpa using h2, by omega, rfl⟩

/-- C01: after every history of calls on a `DnsBuffer` the position is at most the length of the
data and `remaining()` does not underflow. -/
theorem C01_position_invariant_partial (cfg : Cfg) (d0 d : Bytes) (i : Nat)
    (h : BufReach cfg d0 d i) :
    i ≤ d.length ∧ ∃ r, remaining d i = (.ok r, i) ∧ r + i = d.length := by
  have key : i ≤ d.length := by
    induction h with
    | new => simp
    | @call d i c _ hw ih =>
      cases c with
      | remaining => exact Bounded.remaining d i ih
      | position => exact ih
      | setPosition p => exact Bounded.setPosition p d i ih
      | advance n =>
        simp only [BufCall.after, advanceUsize]
        split <;> try exact ih
        split
        · exact ih
        · dsimp only; omega
      | peekBytes n =>
        simp only [BufCall.after, peekBytesUsize]
        split <;> try exact ih
        split
        · exact ih
        · split <;> exact ih
      | extractBytes n =>
        simp only [BufCall.after, extractBytesUsize]
        split <;> try exact ih
        split
        · exact ih
        · split <;> (dsimp only; omega)
      | extractU8 => exact Bounded.extractU8 d i ih
      | extractU16 => exact Bounded.extractU16 d i ih
      | extractU32 => exact Bounded.extractU32 d i ih
      | extractCharacterString => exact Bounded.extractCharacterString d i ih
      | extractString => exact Bounded.extractString d i ih
      | extractFqdn => exact Bounded.extractFqdn d i ih
      | readHeader => exact Header.bounded d i ih
      | readQuestion => exact Question.bounded cfg d i ih
      | readRecord => exact ResourceRecord.bounded cfg d i ih
      | readRecordData t => exact RecordData.bounded cfg t d i ih
      | readPacket => exact Packet.bounded cfg d i ih
      | subBuffer n =>
        simp only [BufCall.after]
        split
        · rename_i b hb
          unfold subBufferUsize at hb
          split at hb <;> try cases hb
          rename_i m hm
          split at hb <;> cases hb
          simp only [BufCall.NoWrap] at hw
          rcases addUsize_ok hm with rfl | ⟨h1, h2, -⟩
          · simp only [List.length_take]; omega
          · rcases hw with hw | hw
            · rw [h1] at hw; cases hw
            · omega
        · exact ih
  refine ⟨key, d.length - i, ?_, by omega⟩
  simp [remaining, key]

/-- C01: a history with a sub-buffer and a failing call. -/
example (cfg : Cfg) : BufReach cfg [1, 97, 0, 5, 6] [1, 97, 0, 5] 0 :=
  .call (.extractBytes 9) (.call (.subBuffer 4) .new (by simp [BufCall.NoWrap])) trivial

/-- C01: the reads the parsers of the crate make (modelled without the overflow of `usize`, see
`C02_usize_agrees`) stay inside the data too. -/
theorem C01_reads (d : Bytes) (i n : Nat) (hi : i ≤ d.length) :
    (advance n d i).2 ≤ d.length ∧ (peekBytes n d i).2 ≤ d.length ∧ (extractBytes n d i).2 ≤ d.length ∧
    (setPosition n d i).2 ≤ d.length :=
  ⟨Bounded.advance n d i hi, Bounded.peekBytes n d i hi, Bounded.extractBytes n d i hi,
    Bounded.setPosition n d i hi⟩

example : (extractBytes 2 [1, 2, 3] 1).2 ≤ 3 ∧ (extractBytes 3 [1, 2, 3] 1).2 ≤ 3 :=
  ⟨(C01_reads [1, 2, 3] 1 2 (by decide)).2.2.1, (C01_reads [1, 2, 3] 1 3 (by decide)).2.2.1⟩

/-- C01, `remaining()` in 64-bit arithmetic: it is the number of octets behind the position as long as the position is
inside the data. -/
theorem C01_remaining (cfg : Cfg) (d : Bytes) (i : Nat) (h : i ≤ d.length) :
    ∃ r, remainingUsize cfg d i = (.ok r, i) ∧ r + i = d.length :=
  ⟨d.length - i, by simp [remainingUsize, h], by omega⟩
example (cfg : Cfg) : ∃ r, remainingUsize cfg [1, 2, 3] 1 = (.ok r, 1) ∧ r + 1 = 3 :=
  C01_remaining cfg [1, 2, 3] 1 (by decide)

/-- Missing in C01, exactly: in a build without overflow checks `sub_buffer(n)` returns a buffer whose position is behind
its data if and only if the position and `n` together exceed the largest `usize`; then it does so always, and
`remaining()` of that buffer is not the number of octets that remain, but more than any slice has. -/
theorem C01_sub_buffer_exact (cfg : Cfg) (hc : cfg.overflowChecks = false) (d : Bytes) (i n : Nat) (hn : n < 2 ^ 64)
    (hi : i ≤ d.length) (hd : d.length < 2 ^ 63) :
    ((∃ b, subBufferUsize cfg n d i = .ok b ∧ b.1.length < b.2) ↔ 2 ^ 64 ≤ n + i) ∧
    (2 ^ 64 ≤ n + i → ∃ b r, subBufferUsize cfg n d i = .ok b ∧ b.1.length < b.2 ∧
      remainingUsize cfg b.1 b.2 = (.ok r, b.2) ∧ 2 ^ 63 ≤ r) := by
  have key : 2 ^ 64 ≤ n + i → ∃ b r, subBufferUsize cfg n d i = .ok b ∧ b.1.length < b.2 ∧
      remainingUsize cfg b.1 b.2 = (.ok r, b.2) ∧ 2 ^ 63 ≤ r := by
    intro h
    have e : (n + i) % 2 ^ 64 = n + i - 2 ^ 64 := by omega
    refine ⟨(d.take (n + i - 2 ^ 64), i), 2 ^ 64 + (n + i - 2 ^ 64) - i, ?_, ?_, ?_, ?_⟩
    · simp only [subBufferUsize, addUsize, hc, Bool.false_eq_true, if_false, e]
      rw [if_neg (by omega)]
      simp only
      rw [if_neg (by omega)]
    · simp only [List.length_take]; omega
    · simp only [remainingUsize, hc, Bool.false_eq_true, if_false, List.length_take]
      rw [Nat.min_eq_left (by omega), if_neg (by omega)]
    · omega
  refine ⟨⟨?_, fun h => ?_⟩, key⟩
  · rintro ⟨b, h1, h2⟩
    by_contra h
    simp only [subBufferUsize, addUsize, if_pos (show n + i < 2 ^ 64 by omega)] at h1
    split at h1
    · cases h1
    · cases h1
      simp only [List.length_take] at h2
      omega
  · obtain ⟨b, r, h1, h2, -⟩ := key h
    exact ⟨b, h1, h2⟩
example : ∃ b, subBufferUsize ⟨false, true, true⟩ (2 ^ 64 - 1) [1, 2, 3] 2 = .ok b ∧ b.1.length < b.2 :=
  (C01_sub_buffer_exact ⟨false, true, true⟩ rfl [1, 2, 3] 2 (2 ^ 64 - 1) (by decide) (by decide) (by decide)).1.mpr
    (by decide)

/-- Missing in C01: a call in a release build that gives such a buffer. -/
theorem C01_sub_buffer_counterexample :
    ∃ (d : Bytes) (n : Nat) (b : Bytes × Nat) (r : Nat), n < 2 ^ 64 ∧
      subBufferUsize { overflowChecks := false, mdns := true, dnssec := true } n d 2 = .ok b ∧
      b.1.length < b.2 ∧
      remainingUsize { overflowChecks := false, mdns := true, dnssec := true } b.1 b.2 = (.ok r, b.2) ∧ b.1.length < r :=
  ⟨[1, 2, 3], 2 ^ 64 - 1, ([1], 2), 2 ^ 64 - 1, by decide⟩

/-- A history of C01 with failing and successful calls, a sub-buffer and a name. -/
example : BufReach { overflowChecks := false, mdns := true, dnssec := true } [1, 97, 0, 5, 6]
    [1, 97, 0, 5] 3 :=
  .call .extractFqdn (.call (.extractBytes 9) (.call (.subBuffer 4) .new (by simp [BufCall.NoWrap]))
    trivial) trivial

/-! ## C02 -/

/-- C02: below the largest `usize` the calls of the API are the reads of the model of the parsers. -/
theorem C02_usize_agrees (cfg : Cfg) {n i : Nat} (h : i + n < 2 ^ 64) (d : Bytes) :
    extractBytesUsize cfg n d i = extractBytes n d i ∧ peekBytesUsize cfg n d i = peekBytes n d i ∧
    advanceUsize cfg n d i = advance n d i := by
  have h1 : addUsize cfg i n = .ok (i + n) := by simp only [addUsize]; rw [if_pos (by omega)]
  have h2 : addUsize cfg n i = .ok (n + i) := by simp only [addUsize]; rw [if_pos (by omega)]
  refine ⟨?_, ?_, ?_⟩
  · simp only [extractBytesUsize, h1, extractBytes]
    split
    · rfl
    · rw [if_neg (by omega), Nat.add_sub_cancel_left]
  · simp only [peekBytesUsize, h1, peekBytes]
    split
    · rfl
    · rw [if_neg (by omega), Nat.add_sub_cancel_left]
  · simp only [advanceUsize, h2, advance]

example (cfg : Cfg) : extractBytesUsize cfg 2 [1, 2, 3] 1 = extractBytes 2 [1, 2, 3] 1 :=
  (C02_usize_agrees cfg (by decide) [1, 2, 3]).1

theorem extractBytes_cases (d : Bytes) (i n : Nat) (hi : i ≤ d.length) :
    (n ≤ d.length - i ∧ ∃ b, b.length = n ∧ Octets d i b (i + n) ∧
      extractBytes n d i = (.ok b, i + n)) ∨
    (d.length - i < n ∧ extractBytes n d i = (.err .lengthViolation, i)) := by
  by_cases h : n ≤ d.length - i
  · left
    refine ⟨h, (d.drop i).take n, by simp; omega, ?_, ?_⟩
    · refine octets_iff.mpr ⟨?_, by omega, ?_⟩
      · simp; omega
      · congr 1; simp; omega
    · unfold extractBytes
      rw [if_neg (by omega)]
  · right
    refine ⟨by omega, ?_⟩
    unfold extractBytes
    rw [if_pos (by omega)]

/-- C02: `extract_bytes(n)` returns exactly the next `n` octets and moves by `n`, or fails with
`LengthViolation` and does not move; it fails exactly when fewer than `n` octets remain.
Missing: requests for which `position + n` exceeds the largest `usize`. -/
theorem C02_extract_bytes_partial (cfg : Cfg) (d : Bytes) (i n : Nat) (hi : i ≤ d.length)
    (hn : i + n < 2 ^ 64) :
    (n ≤ d.length - i → ∃ b, b.length = n ∧ Octets d i b (i + n) ∧
      extractBytesUsize cfg n d i = (.ok b, i + n)) ∧
    (d.length - i < n → extractBytesUsize cfg n d i = (.err .lengthViolation, i)) := by
  rw [(C02_usize_agrees cfg hn d).1]
  rcases extractBytes_cases d i n hi with ⟨h1, h2⟩ | ⟨h1, h2⟩
  · exact ⟨fun _ => h2, fun h => by omega⟩
  · exact ⟨fun h => by omega, fun _ => h2⟩

/-- C02: a call that succeeds, and one that fails. -/
example (cfg : Cfg) : (∃ b, b.length = 2 ∧ Octets [1, 2, 3] 1 b 3 ∧
      extractBytesUsize cfg 2 [1, 2, 3] 1 = (.ok b, 3)) ∧
    extractBytesUsize cfg 3 [1, 2, 3] 1 = (.err .lengthViolation, 1) :=
  ⟨(C02_extract_bytes_partial cfg [1, 2, 3] 1 2 (by decide) (by decide)).1 (by decide),
    (C02_extract_bytes_partial cfg [1, 2, 3] 1 3 (by decide) (by decide)).2 (by decide)⟩

/-- C02 for `advance(n)`. -/
theorem C02_advance_partial (cfg : Cfg) (d : Bytes) (i n : Nat) (hi : i ≤ d.length)
    (hn : i + n < 2 ^ 64) :
    (n ≤ d.length - i → advanceUsize cfg n d i = (.ok (), i + n)) ∧
    (d.length - i < n → advanceUsize cfg n d i = (.err .lengthViolation, i)) := by
  rw [(C02_usize_agrees cfg hn d).2.2]
  unfold advance
  constructor
  · intro h
    rw [if_neg (by omega), Nat.add_comm]
  · intro h
    rw [if_pos (by omega)]

example (cfg : Cfg) : advanceUsize cfg 2 [1, 2, 3] 1 = (.ok (), 3) ∧
    advanceUsize cfg 3 [1, 2, 3] 1 = (.err .lengthViolation, 1) :=
  ⟨(C02_advance_partial cfg [1, 2, 3] 1 2 (by decide) (by decide)).1 (by decide),
    (C02_advance_partial cfg [1, 2, 3] 1 3 (by decide) (by decide)).2 (by decide)⟩

/-- C02 for the integer reads, all inputs. -/
theorem C02_extract_ints (d : Bytes) (i : Nat) (hi : i ≤ d.length) :
    ((1 ≤ d.length - i → ∃ v, Octets d i [v] (i + 1) ∧ extractU8 d i = (.ok v, i + 1)) ∧
      (d.length - i < 1 → extractU8 d i = (.err .lengthViolation, i))) ∧
    ((2 ≤ d.length - i → ∃ v, Octets d i (octets16 v) (i + 2) ∧ extractU16 d i = (.ok v, i + 2)) ∧
      (d.length - i < 2 → extractU16 d i = (.err .lengthViolation, i))) ∧
    ((4 ≤ d.length - i → ∃ v, Octets d i (octets32 v) (i + 4) ∧ extractU32 d i = (.ok v, i + 4)) ∧
      (d.length - i < 4 → extractU32 d i = (.err .lengthViolation, i))) := by
  have hok : ∀ {α : Type} (n : Nat) (f : Bytes → α) (p : Parser α),
      (p = do let b ← extractBytes n; return f b) → n ≤ d.length - i → ∃ v, p d i = (.ok v, i + n) := by
    intro α n f p hp hn
    rcases extractBytes_cases d i n hi with ⟨_, b, _, _, h⟩ | ⟨h, _⟩
    · exact ⟨f b, by rw [hp, Parser.bind_apply, h]; rfl⟩
    · omega
  have herr : ∀ {α : Type} (n : Nat) (f : Bytes → α) (p : Parser α),
      (p = do let b ← extractBytes n; return f b) → d.length - i < n →
      p d i = (.err .lengthViolation, i) := by
    intro α n f p hp hn
    rcases extractBytes_cases d i n hi with ⟨h, _⟩ | ⟨_, h⟩
    · omega
    · rw [hp, Parser.bind_apply, h]
  refine ⟨⟨fun h => ?_, herr 1 _ _ rfl⟩, ⟨fun h => ?_, herr 2 _ _ rfl⟩, ⟨fun h => ?_, herr 4 _ _ rfl⟩⟩
  · obtain ⟨v, hv⟩ := hok 1 _ extractU8 rfl h
    exact ⟨v, extractU8_ok.mp hv, hv⟩
  · obtain ⟨v, hv⟩ := hok 2 _ extractU16 rfl h
    exact ⟨v, extractU16_ok.mp hv, hv⟩
  · obtain ⟨v, hv⟩ := hok 4 _ extractU32 rfl h
    exact ⟨v, extractU32_ok.mp hv, hv⟩

example : extractU32 [1, 2, 3] 0 = (.err .lengthViolation, 0) :=
  (C02_extract_ints [1, 2, 3] 0 (by decide)).2.2.2 (by decide)

/-- Missing in C02, exactly: what happens for lengths with which the position exceeds the largest `usize`.  A build with
overflow checks panics; in one without, `advance` always returns `Ok` and moves backwards, and the other two panic. -/
theorem C02_huge_exact (cfg : Cfg) (d : Bytes) (i n : Nat) (hi : i ≤ d.length) (hd : d.length < 2 ^ 63) (hn : n < 2 ^ 64)
    (h : 2 ^ 64 ≤ i + n) :
    (cfg.overflowChecks = true → advanceUsize cfg n d i = (.panic .overflow, i) ∧
      extractBytesUsize cfg n d i = (.panic .overflow, i) ∧ peekBytesUsize cfg n d i = (.panic .overflow, i)) ∧
    (cfg.overflowChecks = false → (∃ j, advanceUsize cfg n d i = (.ok (), j) ∧ j < i ∧ j + 2 ^ 64 = i + n) ∧
      (extractBytesUsize cfg n d i).1 = .panic .index ∧ (peekBytesUsize cfg n d i).1 = .panic .index) := by
  have h1 : ¬ (i + n < 2 ^ 64) := by omega
  have h2 : ¬ (n + i < 2 ^ 64) := by omega
  have h3 : (i + n) % 2 ^ 64 = i + n - 2 ^ 64 := by omega
  have h4 : (n + i) % 2 ^ 64 = i + n - 2 ^ 64 := by omega
  refine ⟨fun hc => ?_, fun hc => ?_⟩
  · simp only [advanceUsize, extractBytesUsize, peekBytesUsize, addUsize, h1, h2, hc, if_false, if_true, and_self]
  · simp only [advanceUsize, extractBytesUsize, peekBytesUsize, addUsize, h1, h2, h3, h4, hc, if_false, Bool.false_eq_true]
    have h5 : ¬ (i + n - 2 ^ 64 > d.length) := by omega
    have h6 : i + n - 2 ^ 64 < i := by omega
    rw [if_neg h5, if_neg h5, if_pos h6, if_neg h5, if_pos h6]
    exact ⟨⟨_, rfl, by omega, by omega⟩, rfl, rfl⟩

/-- The hypotheses are met. -/
example : (2 : Nat) ≤ ([1, 2, 3] : Bytes).length ∧ (2 ^ 64 - 1 : Nat) < 2 ^ 64 ∧ 2 ^ 64 ≤ 2 + (2 ^ 64 - 1) := by decide

/-- Missing in C02: in a release build `advance` with a huge length returns `Ok` and moves
backwards. -/
theorem C02_advance_counterexample :
    ∃ n, n < 2 ^ 64 ∧
      advanceUsize { overflowChecks := false, mdns := true, dnssec := true } n [1, 2, 3] 2
        = (.ok (), 1) :=
  ⟨2 ^ 64 - 1, by decide⟩

example : (2 : Nat) + 1 < 2 ^ 64 ∧ (1 : Nat) ≤ [1, 2, 3].length - 2 ∧
    [1, 2, 3].length - 2 < (4 : Nat) := by decide

/-! ## C03 -/

/-- C03: `peek_bytes(n)` leaves the position and returns what `extract_bytes(n)` returns. -/
theorem C03_peek_is_pure (cfg : Cfg) (d : Bytes) (i n : Nat) :
    (peekBytesUsize cfg n d i).2 = i ∧
    (peekBytesUsize cfg n d i).1 = (extractBytesUsize cfg n d i).1 ∧
    (peekBytes n d i).2 = i ∧ (peekBytes n d i).1 = (extractBytes n d i).1 := by
  refine and_assoc.mp ⟨?_, ?_⟩
  · unfold peekBytesUsize extractBytesUsize
    repeat' split
    all_goals exact ⟨rfl, rfl⟩
  · unfold peekBytes extractBytes
    split <;> exact ⟨rfl, rfl⟩

example : peekBytesUsize { overflowChecks := true, mdns := true, dnssec := true } 2 [1, 2, 3] 1
    = (.ok [2, 3], 1) := by decide

/-! ## C04 -/

/-- C04: an integer read is the value of the octets read, most significant first. -/
theorem C04_read_value (d : Bytes) (i j : Nat) :
    (∀ v, extractU8 d i = (.ok v, j) → ∃ b, b.length = 1 ∧ Octets d i b j ∧ v.toNat = valueOf b) ∧
    (∀ v, extractU16 d i = (.ok v, j) → ∃ b, b.length = 2 ∧ Octets d i b j ∧ v.toNat = valueOf b) ∧
    (∀ v, extractU32 d i = (.ok v, j) → ∃ b, b.length = 4 ∧ Octets d i b j ∧ v.toNat = valueOf b) ∧
    (∀ v, extractU128 d i = (.ok v, j) →
      ∃ b, b.length = 16 ∧ Octets d i b j ∧ v.toNat = valueOf b) := by
  refine ⟨fun v h => ?_, fun v h => ?_, fun v h => ?_, fun v h => ?_⟩
  · exact ⟨[v], rfl, extractU8_ok.mp h, by simp [valueOf]⟩
  · refine ⟨octets16 v, rfl, extractU16_ok.mp h, ?_⟩
    rw [valueOf_eq, ← u16be_eq, u16be, ofBE_toBE, Nat.mod_eq_of_lt (by have := v.toNat_lt; omega)]
  · refine ⟨octets32 v, rfl, extractU32_ok.mp h, ?_⟩
    rw [valueOf_eq, ← u32be_eq, u32be, ofBE_toBE, Nat.mod_eq_of_lt (by have := v.toNat_lt; omega)]
  · obtain ⟨b, h1, h2, h3⟩ := (extractU128_ok (N := fun _ _ _ _ => False)).mp h
    exact ⟨b, h2, h1, h3.symm⟩

example : extractU32 [9, 1, 2, 3, 4] 1 = (.ok 0x01020304, 5) ∧ valueOf [1, 2, 3, 4] = 0x01020304 := by decide

/-- C04: what the writers emit for an integer (`u16be`, `u32be`, `u64be`, `toBE 16` model
`to_be_bytes`) is read back as the same integer, anywhere in a message. -/
theorem C04_write_read (pre post : Bytes) :
    (∀ v, extractU16 (pre ++ u16be v ++ post) pre.length = (.ok v, pre.length + 2)) ∧
    (∀ v, extractU32 (pre ++ u32be v ++ post) pre.length = (.ok v, pre.length + 4)) ∧
    (∀ v : BitVec 128, extractU128 (pre ++ toBE 16 v.toNat ++ post) pre.length
      = (.ok v, pre.length + 16)) ∧
    (∀ v : UInt64, valueOf (u64be v) = v.toNat) := by
  refine ⟨fun v => ?_, fun v => ?_, fun v => ?_, fun v => ?_⟩
  · rw [extractU16_ok, u16be_eq]
    exact octets_mid _ _ _
  · rw [extractU32_ok, u32be_eq]
    exact octets_mid _ _ _
  · rw [extractU128_ok (N := fun _ _ _ _ => False)]
    refine ⟨_, ?_, toBE_length 16 v.toNat, ?_⟩
    · have := octets_mid pre (toBE 16 v.toNat) post
      rwa [toBE_length] at this
    · rw [valueOf_eq, ofBE_toBE, Nat.mod_eq_of_lt (by have := v.isLt; omega)]
  · rw [valueOf_eq, u64be, ofBE_toBE, Nat.mod_eq_of_lt (by have := v.toNat_lt; omega)]

example : extractU16 [9, 1, 2, 7] 1 = (.ok 258, 3) ∧ valueOf [1, 2] = 258 := by decide

/-! ## C05 -/

/-- C05: `sub_buffer(len)` succeeds exactly when `len` octets remain; the parser run on it gives the
same result for all parents that agree on the first `position + len` octets. -/
theorem C05_sub_buffer (len : Nat) (d : Bytes) (i : Nat) (hi : i ≤ d.length) :
    ((∃ r, (withSubBuffer len (pure ()) d i).1 = .ok r) ↔ len ≤ d.length - i) ∧
    (∀ (cfg : Cfg), i + len < 2 ^ 64 →
      ((∃ b, subBufferUsize cfg len d i = .ok b) ↔ len ≤ d.length - i)) ∧
    (∀ {α : Type} (p : Parser α) (d' : Bytes), len ≤ d.length - i → len ≤ d'.length - i →
      d.take (i + len) = d'.take (i + len) → i ≤ d'.length →
      withSubBuffer len p d i = withSubBuffer len p d' i) := by
  refine ⟨?_, ?_, ?_⟩
  · unfold withSubBuffer
    constructor
    · rintro ⟨r, h⟩
      split at h
      · simp at h
      · omega
    · intro h
      rw [if_neg (by omega)]
      exact ⟨_, rfl⟩
  · intro cfg hw
    have h2 : addUsize cfg len i = .ok (len + i) := by simp only [addUsize]; rw [if_pos (by omega)]
    simp only [subBufferUsize, h2]
    constructor
    · rintro ⟨r, h⟩
      split at h
      · simp at h
      · omega
    · intro h
      rw [if_neg (by omega)]
      exact ⟨_, rfl⟩
  · intro α p d' h1 h2 h3 h4
    unfold withSubBuffer
    rw [if_neg (by omega), if_neg (by omega), Nat.add_comm, h3]

example : withSubBuffer 2 extractU16 [7, 1, 2, 3] 1 = withSubBuffer 2 extractU16 [7, 1, 2, 8, 8] 1 :=
  (C05_sub_buffer 2 [7, 1, 2, 3] 1 (by decide)).2.2 extractU16 [7, 1, 2, 8, 8] (by decide) (by decide)
    (by decide) (by decide)

/-- C05: the buffer that `sub_buffer(len)` returns holds the octets of the parent up to `len` behind the position and no
others, and has the position of the parent. -/
theorem C05_contents (cfg : Cfg) (len : Nat) (d : Bytes) (i : Nat) (b : Bytes) (k : Nat) (hw : i + len < 2 ^ 64) :
    subBufferUsize cfg len d i = .ok (b, k) ↔ (∃ rest, d = b ++ rest) ∧ b.length = i + len ∧ k = i := by
  have h2 : addUsize cfg len i = .ok (len + i) := by simp only [addUsize]; rw [if_pos (by omega)]
  simp only [subBufferUsize, h2]
  constructor
  · intro h
    split at h
    · cases h
    · cases h
      exact ⟨⟨_, (List.take_append_drop _ _).symm⟩, by rw [List.length_take]; omega, rfl⟩
  · rintro ⟨⟨rest, rfl⟩, h1, rfl⟩
    rw [if_neg (by rw [List.length_append]; omega), List.take_left' (by omega)]

example (cfg : Cfg) : subBufferUsize cfg 2 [7, 1, 2, 3] 1 = .ok ([7, 1, 2], 1) :=
  (C05_contents cfg 2 _ 1 _ 1 (by decide)).mpr ⟨⟨[3], rfl⟩, rfl, rfl⟩

/-- C05: reading `n` octets from a sub-buffer of `len` octets gives the octets of the parent from the
position on, exactly when there are `n` octets among the `len`; the parent does not move. -/
theorem C05_reads (len n : Nat) (d : Bytes) (i j k : Nat) (b : Bytes) :
    withSubBuffer len (extractBytes n) d i = (.ok (b, j), k) ↔
      i + len ≤ d.length ∧ n ≤ len ∧ Octets d i b j ∧ b.length = n ∧ k = i := by
  unfold withSubBuffer
  by_cases h : len + i > d.length
  · rw [if_pos h]
    constructor
    · intro h'; cases h'
    · rintro ⟨h1, -⟩; omega
  rw [if_neg h]
  have hd : d = d.take (len + i) ++ d.drop (len + i) := (List.take_append_drop _ _).symm
  have hl : (d.take (len + i)).length = len + i := by rw [List.length_take]; omega
  constructor
  · intro h'
    split at h' <;> cases h'
    rename_i h1
    obtain ⟨e4, pre, post, e1, e2, e3⟩ := extractBytes_ok.mp h1
    have := congrArg List.length e1
    simp only [hl, List.length_append] at this
    refine ⟨by omega, by omega, ⟨pre, post ++ d.drop (len + i), ?_, e2, e3⟩, e4, rfl⟩
    rw [← List.append_assoc, ← e1]
    exact hd
  · rintro ⟨h1, h2, ⟨pre, post, e1, e2, e3⟩, e4, rfl⟩
    have h3 : extractBytes n (d.take (len + k)) k = (.ok b, j) := by
      refine extractBytes_ok.mpr ⟨e4, pre, post.take (len - n), ?_, e2, e3⟩
      rw [e1, List.take_append, List.take_of_length_le (by simp; omega)]
      congr 2
      simp; omega
    rw [h3]

/-- C05: the data of a record is parsed in a sub-buffer of RDLENGTH octets: the result does not
depend on what follows, and the reader ends inside the sub-buffer, for every record type and whether
it succeeds or fails. -/
theorem C05_record_data_confined (cfg : Cfg) (t : RecordType) (len : Nat) (d d' : Bytes) (i : Nat)
    (hi : i + len ≤ d.length) (hd : d.take (i + len) = d'.take (i + len)) (hi' : i + len ≤ d'.length) :
    withSubBuffer len (RecordData.parse cfg t) d i = withSubBuffer len (RecordData.parse cfg t) d' i ∧
    (RecordData.parse cfg t (d.take (i + len)) i).2 ≤ i + len := by
  refine ⟨(C05_sub_buffer len d i (by omega)).2.2 _ d' (by omega) (by omega) hd (by omega), ?_⟩
  have := RecordData.bounded cfg t (d.take (i + len)) i (by simp; omega)
  simp at this
  omega

example : withSubBuffer 4 (RecordData.parse { overflowChecks := true, mdns := true, dnssec := true } .A)
    [7, 1, 2, 3, 4, 9] 1 = (.ok (.A ⟨0x01020304⟩, 5), 1) := by decide

example : withSubBuffer 2 (extractBytes 2) [7, 1, 2, 3] 1 = (.ok ([1, 2], 3), 1) ∧
    (withSubBuffer 2 (extractBytes 3) [7, 1, 2, 3] 1).1 = .err .lengthViolation := by decide

/-! ## C06 -/

/-- C06: `extract_character_string` returns `b` and stops at `j` exactly when the octets from the
position up to `j` are the length of `b` in one octet, followed by `b`. -/
theorem C06_character_string (d : Bytes) (i j : Nat) (b : Bytes) :
    extractCharacterString d i = (.ok b, j) ↔
      b.length < 256 ∧ Octets d i (UInt8.ofNat b.length :: b) j ∧ j = i + 1 + b.length := by
  rw [extractCharacterString_ok]
  constructor
  · rintro ⟨h1, h2⟩
    have := h2.end_eq
    exact ⟨h1, h2, by simp at this; omega⟩
  · rintro ⟨h1, h2, -⟩
    exact ⟨h1, h2⟩

/-- C06: written and read back. -/
theorem C06_character_string_round_trip (pre b post : Bytes) (h : b.length ≤ 255) :
    extractCharacterString (pre ++ (lenU8 b.length :: b) ++ post) pre.length
      = (.ok b, pre.length + 1 + b.length) := by
  rw [C06_character_string]
  refine ⟨by omega, ?_, rfl⟩
  have := octets_mid pre (UInt8.ofNat b.length :: b) post
  rwa [List.length_cons, show pre.length + (b.length + 1) = pre.length + 1 + b.length by omega] at this

example : extractCharacterString [9, 2, 5, 6, 7] 1 = (.ok [5, 6], 4) :=
  C06_character_string_round_trip [9] [5, 6] [7] (by decide)

/-- C06: when the octets are missing it fails with `LengthViolation`. -/
theorem C06_character_string_fails (d : Bytes) (i : Nat) (hi : i ≤ d.length)
    (h : d[i]? = none ∨ ∃ len, d[i]? = some len ∧ d.length - (i + 1) < len.toNat) :
    (extractCharacterString d i).1 = .err .lengthViolation := by
  unfold extractCharacterString
  rw [Parser.bind_apply]
  rcases h with h | ⟨len, h1, h2⟩
  · have hl : d.length ≤ i := by simpa using h
    rw [(C02_extract_ints d i hi).1.2 (by omega)]
  · have := extractU8_ok.mpr (octets_of_getElem? h1)
    rw [this]
    dsimp only
    have hlt := (octets_of_getElem? h1).le
    rcases extractBytes_cases d (i + 1) len.toNat hlt with ⟨h3, -⟩ | ⟨-, h3⟩
    · omega
    · rw [h3]

example : (extractCharacterString [3, 1, 2] 0).1 = .err .lengthViolation :=
  C06_character_string_fails [3, 1, 2] 0 (by decide) (.inr ⟨3, by decide, by decide⟩)

/-- C06: `extract_string` returns exactly the character strings that are well-formed UTF-8. -/
theorem C06_string (d : Bytes) (i j : Nat) (b : Bytes) :
    extractString d i = (.ok b, j) ↔ extractCharacterString d i = (.ok b, j) ∧ IsUtf8 b := by
  rw [extractString_ok, extractCharacterString_ok, utf8Valid_iff]

/-- C06: and refuses the others. -/
theorem C06_string_refused (d : Bytes) (i j : Nat) (b : Bytes)
    (h : extractCharacterString d i = (.ok b, j)) (hb : ¬ IsUtf8 b) :
    (extractString d i).1 = .err .lengthViolation := by
  unfold extractString
  rw [Parser.bind_apply, h]
  dsimp only
  rw [← utf8Valid_iff] at hb
  simp [hb, Parser.fail]

example : extractString [9, 3, 0x61, 0xC3, 0xA4, 1] 1 = (.ok [0x61, 0xC3, 0xA4], 5) := by decide +kernel
example : extractCharacterString [1, 0xFF] 0 = (.ok [0xFF], 2) ∧ ¬ IsUtf8 [0xFF] :=
  ⟨by decide, by rw [← utf8Valid_iff]; decide +kernel⟩
example : ([3, 1, 2] : Bytes)[0]? = some 3 ∧ ([3, 1, 2] : Bytes).length - (0 + 1) < (3 : UInt8).toNat := by decide

end Dns
