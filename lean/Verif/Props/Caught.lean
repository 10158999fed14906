import Verif.Model.Caught
import Verif.Props.Exchange

/-!
C125: the packet after a call that panics.
-/

namespace Dns
open Spec

/-- What a call does and leaves behind, whether it returns or panics; calls other than `add_...` do not panic. -/
def PacketCall.leave (cfg : Cfg) (p : Packet) : PacketCall → Res Unit × Packet
  | .setId id => (.ok (), p.setId id)
  | .header c => (.ok (), { p with header := c.run p.header })
  | .setHeader h => (.ok (), p.setHeader h)
  | .questionsMut qs => (.ok (), p.questionsMut qs)
  | .takeQuestions => (.ok (), p.takeQuestions.1)
  | .addQuestion q => Caught.addQuestion cfg p q
  | .setQuestions qs => (.ok (), p.setQuestions qs)
  | .takeAnswers => (.ok (), p.takeAnswers.1)
  | .addAnswer r => Caught.addAnswer cfg p r
  | .setAnswers rs => (.ok (), p.setAnswers rs)
  | .takeAuthorities => (.ok (), p.takeAuthorities.1)
  | .addAuthority r => Caught.addAuthority cfg p r
  | .setAuthorities rs => (.ok (), p.setAuthorities rs)
  | .takeAdditionals => (.ok (), p.takeAdditionals.1)
  | .addAdditional r => Caught.addAdditional cfg p r
  | .setAdditionals rs => (.ok (), p.setAdditionals rs)

/-- The packet with the element of an `add_...` call at the end of its section and nothing else changed. -/
def PacketCall.pushed (p : Packet) : PacketCall → Packet
  | .addQuestion q => { p with questions := p.questions ++ [q] }
  | .addAnswer r => { p with answers := p.answers ++ [r] }
  | .addAuthority r => { p with authorities := p.authorities ++ [r] }
  | .addAdditional r => { p with additional := p.additional ++ [r] }
  | _ => p

/-- The call adds to a section of which the header counts 65535 elements. -/
def PacketCall.AddsToFull (p : Packet) : PacketCall → Prop
  | .addQuestion _ => p.header.quesCount = 65535
  | .addAnswer _ => p.header.ansCount = 65535
  | .addAuthority _ => p.header.authCount = 65535
  | .addAdditional _ => p.header.addCount = 65535
  | _ => False

theorem caught_count (cfg : Cfg) (n : UInt16) (store : UInt16 → Packet) (before : Packet) :
    Caught.count cfg n store before =
      if n = 65535 ∧ cfg.overflowChecks = true then (.panic .overflow, before) else (.ok (), store (n + 1)) := by
  have hn := n.toNat_lt
  have h1 : n = 65535 ↔ n.toNat = 65535 := by rw [← UInt16.toNat_inj]; rfl
  unfold Caught.count Packet.incr addU16
  by_cases c1 : n.toNat + 1 < 65536
  · have : ¬ (n = 65535 ∧ cfg.overflowChecks = true) := by rw [h1]; omega
    rw [if_pos c1, if_neg this]
    have e : UInt16.ofNat (n.toNat + 1) = n + 1 := by
      apply UInt16.toNat_inj.mp
      simp
    show (Res.ok (), store (UInt16.ofNat (n.toNat + 1))) = _
    rw [e]
  · have hf : n = 65535 := h1.mpr (by omega)
    rw [if_neg c1]
    by_cases c2 : cfg.overflowChecks = true
    · rw [if_pos c2, if_pos ⟨hf, c2⟩]; rfl
    · rw [if_neg c2, if_neg (fun h => c2 h.2)]
      subst hf
      rfl

/-- C125: what returns here is what returns in the model of the calls (Model/Packet.lean), with the same packet. -/
theorem C125_same (cfg : Cfg) (p : Packet) (c : PacketCall) :
    c.run cfg p = match c.leave cfg p with
      | (.ok (), q) => .ok q
      | (.err e, _) => .err e
      | (.panic k, _) => .panic k
      | (.hang, _) => .hang := by
  cases c with
  | addQuestion q =>
    simp only [PacketCall.run, PacketCall.leave, Packet.addQuestion, Caught.addQuestion, Caught.count]
    cases Packet.incr cfg p.header.quesCount <;> rfl
  | addAnswer r =>
    simp only [PacketCall.run, PacketCall.leave, Packet.addAnswer, Caught.addAnswer, Caught.count]
    cases Packet.incr cfg p.header.ansCount <;> rfl
  | addAuthority r =>
    simp only [PacketCall.run, PacketCall.leave, Packet.addAuthority, Caught.addAuthority, Caught.count]
    cases Packet.incr cfg p.header.authCount <;> rfl
  | addAdditional r =>
    simp only [PacketCall.run, PacketCall.leave, Packet.addAdditional, Caught.addAdditional, Caught.count]
    cases Packet.incr cfg p.header.addCount <;> rfl
  | _ => rfl

/-- C125, exactly: a call panics if and only if it adds to a section of which 65535 elements are counted, in a build with
overflow checks; and then it leaves the packet with the element added and the count unchanged. -/
theorem C125_exact (cfg : Cfg) (p : Packet) (c : PacketCall) :
    ((∃ k, (c.leave cfg p).1 = .panic k) ↔ (c.AddsToFull p ∧ cfg.overflowChecks = true)) ∧
    ∀ k, (c.leave cfg p).1 = .panic k → k = .overflow ∧ (c.leave cfg p).2 = c.pushed p := by
  cases c with
  | addQuestion q =>
    simp only [PacketCall.leave, Caught.addQuestion, caught_count, PacketCall.AddsToFull, PacketCall.pushed]
    split <;> simp_all
  | addAnswer r =>
    simp only [PacketCall.leave, Caught.addAnswer, caught_count, PacketCall.AddsToFull, PacketCall.pushed]
    split <;> simp_all
  | addAuthority r =>
    simp only [PacketCall.leave, Caught.addAuthority, caught_count, PacketCall.AddsToFull, PacketCall.pushed]
    split <;> simp_all
  | addAdditional r =>
    simp only [PacketCall.leave, Caught.addAdditional, caught_count, PacketCall.AddsToFull, PacketCall.pushed]
    split <;> simp_all
  | _ => simp [PacketCall.leave, PacketCall.AddsToFull]

/-- C125, false whenever there is anything to show: a call that panics never leaves the packet as it was. -/
theorem C125_counterexample (cfg : Cfg) (p : Packet) (c : PacketCall) (k : PanicKind)
    (h : (c.leave cfg p).1 = .panic k) : (c.leave cfg p).2 ≠ p := by
  rw [((C125_exact cfg p c).2 k h).2]
  have hx := ((C125_exact cfg p c).1.mp ⟨k, h⟩).1
  intro e
  cases c with
  | addQuestion q => simpa [PacketCall.pushed] using congrArg (fun p => p.questions.length) e
  | addAnswer q => simpa [PacketCall.pushed] using congrArg (fun p => p.answers.length) e
  | addAuthority q => simpa [PacketCall.pushed] using congrArg (fun p => p.authorities.length) e
  | addAdditional q => simpa [PacketCall.pushed] using congrArg (fun p => p.additional.length) e
  | _ => exact hx
example (qs : List Question) (hl : qs.length = 65535) (q : Question) :
    ((PacketCall.addQuestion q).leave ⟨true, true, true⟩ (Packet.default.setQuestions qs)).2 ≠
      Packet.default.setQuestions qs := by
  obtain ⟨k, hk⟩ := (C125_exact ⟨true, true, true⟩ (Packet.default.setQuestions qs) (.addQuestion q)).1.mpr
    ⟨by show lenU16 qs.length = _; rw [hl]; decide, rfl⟩
  exact C125_counterexample _ _ _ k hk

/-- Calls one after the other, whether they return or panic. -/
def leaves (cfg : Cfg) : Packet → List PacketCall → Packet
  | p, [] => p
  | p, c :: cs => leaves cfg (c.leave cfg p).2 cs

/-- Each count is the number of elements, but not more than 65535. -/
def CountsCapped (p : Packet) : Prop :=
  p.header.quesCount.toNat = min p.questions.length 65535 ∧ p.header.ansCount.toNat = min p.answers.length 65535 ∧
  p.header.authCount.toNat = min p.authorities.length 65535 ∧ p.header.addCount.toNat = min p.additional.length 65535

/-- The calls that do not spoil the counts: as for C25, and sections set have less than 65536 elements. -/
def PacketCall.CarefulCapped (p : Packet) : PacketCall → Prop
  | .takeAuthorities => p.answers.length = 0 ∧ p.authorities.length = 0
  | .questionsMut qs => qs.length = p.questions.length
  | .setHeader h => CountsCapped (p.setHeader h)
  | .setQuestions qs => qs.length < 65536
  | .setAnswers rs | .setAuthorities rs | .setAdditionals rs => rs.length < 65536
  | _ => True

/-- All calls are careful in the packet they are applied to. -/
def CarefulThrough (cfg : Cfg) : Packet → List PacketCall → Prop
  | _, [] => True
  | p, c :: cs => c.CarefulCapped p ∧ CarefulThrough cfg (c.leave cfg p).2 cs

theorem full_toNat : (65535 : UInt16).toNat = 65535 := by decide

theorem cap_up {a l : Nat} (h : a = min l 65535) (h2 : a ≠ 65535) : (a + 1) % 2 ^ 16 = min (l + 1) 65535 := by
  rw [Nat.min_def] at h ⊢
  split at h <;> split <;> omega

theorem cap_full {a l : Nat} (h : a = min l 65535) (h2 : a = 65535) : a = min (l + 1) 65535 := by
  rw [Nat.min_def] at h ⊢
  split at h <;> split <;> omega

theorem lenU16_capped {n : Nat} (h : n < 65536) : (lenU16 n).toNat = min n 65535 := by
  simp only [lenU16, UInt16.toNat_ofNat']
  omega

theorem capped_step {cfg : Cfg} {p : Packet} {c : PacketCall} (ho : cfg.overflowChecks = true) (hp : CountsCapped p)
    (hc : c.CarefulCapped p) : CountsCapped (c.leave cfg p).2 := by
  obtain ⟨h1, h2, h3, h4⟩ := hp
  have up : ∀ {n : UInt16} {l : Nat}, n.toNat = min l 65535 → ¬ n = 65535 → (n + 1).toNat = min (l + 1) 65535 := by
    intro n l h1 h2
    have : n.toNat ≠ 65535 := fun h => h2 (UInt16.toNat_inj.mp (h.trans full_toNat.symm))
    rw [UInt16.toNat_add, UInt16.toNat_one]
    exact cap_up h1 this
  have full : ∀ {n : UInt16} {l : Nat}, n.toNat = min l 65535 → n = 65535 → n.toNat = min (l + 1) 65535 := by
    intro n l h1 h2
    have : n.toNat = 65535 := by rw [h2]; exact full_toNat
    exact cap_full h1 this
  cases c with
  | header c =>
    obtain ⟨e1, e2, e3, e4⟩ := HeaderCall.counts p.header c
    refine ⟨?_, ?_, ?_, ?_⟩ <;> simp only [PacketCall.leave, e1, e2, e3, e4] <;> assumption
  | setId id => exact ⟨h1, h2, h3, h4⟩
  | setHeader h => exact hc
  | questionsMut qs =>
    refine ⟨?_, h2, h3, h4⟩
    rw [show ((PacketCall.questionsMut qs).leave cfg p).2.questions.length = p.questions.length from hc]
    exact h1
  | takeQuestions => exact ⟨rfl, h2, h3, h4⟩
  | takeAnswers => exact ⟨h1, rfl, h3, h4⟩
  | takeAuthorities =>
    obtain ⟨e1, e2⟩ := hc
    refine ⟨h1, ?_, ?_, h4⟩
    · show 0 = min p.answers.length 65535
      omega
    · show p.header.authCount.toNat = 0
      omega
  | takeAdditionals => exact ⟨h1, h2, h3, rfl⟩
  | setQuestions qs => exact ⟨lenU16_capped hc, h2, h3, h4⟩
  | setAnswers rs => exact ⟨h1, lenU16_capped hc, h3, h4⟩
  | setAuthorities rs => exact ⟨h1, h2, lenU16_capped hc, h4⟩
  | setAdditionals rs => exact ⟨h1, h2, h3, lenU16_capped hc⟩
  | addQuestion q =>
    simp only [PacketCall.leave, Caught.addQuestion, caught_count, ho, and_true]
    split
    · refine ⟨?_, h2, h3, h4⟩
      simp only [List.length_append, List.length_singleton]
      exact full h1 ‹_›
    · refine ⟨?_, h2, h3, h4⟩
      simp only [List.length_append, List.length_singleton]
      exact up h1 ‹_›
  | addAnswer q =>
    simp only [PacketCall.leave, Caught.addAnswer, caught_count, ho, and_true]
    split
    · refine ⟨h1, ?_, h3, h4⟩
      simp only [List.length_append, List.length_singleton]
      exact full h2 ‹_›
    · refine ⟨h1, ?_, h3, h4⟩
      simp only [List.length_append, List.length_singleton]
      exact up h2 ‹_›
  | addAuthority q =>
    simp only [PacketCall.leave, Caught.addAuthority, caught_count, ho, and_true]
    split
    · refine ⟨h1, h2, ?_, h4⟩
      simp only [List.length_append, List.length_singleton]
      exact full h3 ‹_›
    · refine ⟨h1, h2, ?_, h4⟩
      simp only [List.length_append, List.length_singleton]
      exact up h3 ‹_›
  | addAdditional q =>
    simp only [PacketCall.leave, Caught.addAdditional, caught_count, ho, and_true]
    split
    · refine ⟨h1, h2, h3, ?_⟩
      simp only [List.length_append, List.length_singleton]
      exact full h4 ‹_›
    · refine ⟨h1, h2, h3, ?_⟩
      simp only [List.length_append, List.length_singleton]
      exact up h4 ‹_›

/-- C125 (partial): in a build with overflow checks, after any history of calls of which any number has panicked, each
count is the number of elements of its section, or 65535 if there are more. Missing: the calls that are not careful (C25),
and that the packet is unchanged, which is false. -/
theorem C125_counts_partial (cfg : Cfg) (ho : cfg.overflowChecks = true) (p : Packet) (hp : CountsCapped p)
    (cs : List PacketCall) (hc : CarefulThrough cfg p cs) : CountsCapped (leaves cfg p cs) := by
  induction cs generalizing p with
  | nil => exact hp
  | cons c cs ih => exact ih _ (capped_step ho hp hc.1) hc.2
example (q : Question) : CountsCapped (leaves ⟨true, true, true⟩ .default [.addQuestion q, .addQuestion q]) :=
  C125_counts_partial ⟨true, true, true⟩ rfl .default ⟨rfl, rfl, rfl, rfl⟩ _ (by simp [CarefulThrough, PacketCall.CarefulCapped])

/-- C125: without overflow checks no call panics. -/
theorem C125_release (cfg : Cfg) (ho : cfg.overflowChecks = false) (p : Packet) (c : PacketCall) :
    (c.leave cfg p).1 = .ok () := by
  cases c with
  | addQuestion q => simp [PacketCall.leave, Caught.addQuestion, caught_count, ho]
  | addAnswer q => simp [PacketCall.leave, Caught.addAnswer, caught_count, ho]
  | addAuthority q => simp [PacketCall.leave, Caught.addAuthority, caught_count, ho]
  | addAdditional q => simp [PacketCall.leave, Caught.addAdditional, caught_count, ho]
  | _ => rfl
example (q : Question) (p : Packet) : ((PacketCall.addQuestion q).leave ⟨false, true, true⟩ p).1 = .ok () :=
  C125_release ⟨false, true, true⟩ rfl p _

/-- C125: what a panic costs: when a question was added to 65535 and the panic was caught, `to_bytes()` writes a message
in which nobody reads any question. -/
theorem C125_lost (cfg cfg' : Cfg) (p : Packet) (q : Question) (hp : CountsOk p) (k : PanicKind)
    (h : ((PacketCall.addQuestion q).leave cfg p).1 = .panic k) (b rest : Bytes)
    (hb : ((PacketCall.addQuestion q).leave cfg p).2.toBytes cfg = .ok b) (c : Packet)
    (hc : Packet.parse cfg' (b ++ rest) = .ok c) : c.questions = [] := by
  have e := ((C125_exact cfg p (.addQuestion q)).2 k h).2
  have hx := ((C125_exact cfg p (.addQuestion q)).1.mp ⟨k, h⟩).1
  rw [e] at hb
  have := (C80_header_arrives cfg cfg' _ c b rest hb hc).2.1
  have h1 : p.questions.length = 65535 := by
    rw [← hp.1, show p.header.quesCount = 65535 from hx]; exact full_toNat
  simp only [PacketCall.pushed, List.length_append, List.length_singleton, h1] at this
  exact List.length_eq_zero_iff.mp this

/-- C125: a packet with any 65535 questions, to which one more is added: it panics, and 65536 questions are left. -/
example (qs : List Question) (hl : qs.length = 65535) (q : Question) :
    CountsCapped (Packet.default.setQuestions qs) ∧ CountsOk (Packet.default.setQuestions qs) ∧
    ((PacketCall.addQuestion q).leave ⟨true, true, true⟩ (Packet.default.setQuestions qs)).1 = .panic .overflow ∧
    ((PacketCall.addQuestion q).leave ⟨true, true, true⟩ (Packet.default.setQuestions qs)).2.questions = qs ++ [q] ∧
    ((PacketCall.addQuestion q).leave ⟨true, true, true⟩ (Packet.default.setQuestions qs)).2.header.quesCount = 65535 := by
  have hq : (Packet.default.setQuestions qs).header.quesCount = 65535 := by
    show lenU16 qs.length = _
    rw [hl]; decide
  have hn : (Packet.default.setQuestions qs).questions.length = 65535 := hl
  have hp := (C125_exact ⟨true, true, true⟩ (Packet.default.setQuestions qs) (.addQuestion q)).1.mpr ⟨hq, rfl⟩
  obtain ⟨k, hk⟩ := hp
  obtain ⟨e1, e2⟩ := (C125_exact ⟨true, true, true⟩ (Packet.default.setQuestions qs) (.addQuestion q)).2 k hk
  refine ⟨⟨?_, rfl, rfl, rfl⟩, ⟨?_, rfl, rfl, rfl⟩, by rw [hk, e1], by rw [e2]; rfl, by rw [e2]; exact hq⟩
  · rw [hq, hn, full_toNat, Nat.min_self]
  · rw [hq, hn, full_toNat]

end Dns
