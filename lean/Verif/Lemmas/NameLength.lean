import Verif.Lemmas.PacketWrite
import Verif.Lemmas.ByteSize

/-! In a compressed message no name, written out, is longer than the message. -/

namespace Dns
open Spec Buf

/-- The names that are remembered have at most `k` octets when they are written out. -/
def ShortNames (U : Fqdn → Prop) (h : Hash) (names : Names) (k : Nat) : Prop :=
  ∀ s, U s → names (h s) ≠ none → s.toBytes.length ≤ k

theorem ShortNames.mono {U : Fqdn → Prop} {h : Hash} {names : Names} {k m : Nat} (H : ShortNames U h names k)
    (hm : k ≤ m) : ShortNames U h names m := fun s h1 h2 => Nat.le_trans (H s h1 h2) hm

theorem toBytes_cons_le (l : Bytes) (n : Fqdn) : (Fqdn.toBytes (l :: n)).length ≤ l.length + 1 + n.toBytes.length := by
  simp only [Fqdn.toBytes, Fqdn.labelBytes, List.length_append]
  split <;> simp
  all_goals omega

theorem toBytes_tail_le (l : Bytes) (n : Fqdn) : n.toBytes.length ≤ (Fqdn.toBytes (l :: n)).length := by
  simp only [Fqdn.toBytes, Fqdn.labelBytes, List.length_append]
  omega

theorem short_name {h : Hash} {U : Fqdn → Prop} (hU : TailClosed U) (hinj : InjOn U h) (k : Nat) :
    ∀ (n : Fqdn) (names : Names) (off : Nat), U n →
      (∀ s : Fqdn, s <:+ n → names (h s) ≠ none → s.toBytes.length ≤ k) →
      n.toBytes.length ≤ k + (n.toBytesCompressed h names off).1.length ∧
      ∀ s, U s → (n.toBytesCompressed h names off).2 (h s) ≠ none →
        names (h s) ≠ none ∨ s.toBytes.length ≤ k + (n.toBytesCompressed h names off).1.length := by
  intro n
  induction n with
  | nil => intro names off _ _; exact ⟨by simp [Fqdn.toBytes, Fqdn.labelBytes, Fqdn.toBytesCompressed], fun s _ h => .inl h⟩
  | cons l ls ih =>
    intro names off hu hs
    unfold Fqdn.toBytesCompressed
    rcases hm : names (h (l :: ls)) with _ | o
    · simp only
      have key := ih (names.insert (h (l :: ls)) off) (off + (l.length + 1)) (hU _ _ hu) ?_
      · generalize Fqdn.toBytesCompressed h ls (names.insert (h (l :: ls)) off) (off + (l.length + 1)) = r at key ⊢
        obtain ⟨h1, h2⟩ := key
        have h3 := toBytes_cons_le l ls
        simp only [List.length_cons, List.length_append]
        refine ⟨by omega, ?_⟩
        intro s hus h4
        rcases h2 s hus h4 with h5 | h5
        · by_cases he : h s = h (l :: ls)
          · have := hinj _ _ hus hu he
            subst this
            right; omega
          · left
            simpa [Names.insert, he] using h5
        · right; omega
      · intro s hsuf h1
        refine hs s (hsuf.trans (List.suffix_cons l ls)) ?_
        intro h2
        by_cases he : h s = h (l :: ls)
        · have hus : U s := by
            have : ∀ (n : Fqdn), U n → s <:+ n → U s := by
              intro n
              induction n with
              | nil => intro h3 h4; rw [List.suffix_nil.mp h4]; exact h3
              | cons x xs ih2 =>
                intro h3 h4
                rcases List.suffix_cons_iff.mp h4 with rfl | h4
                · exact h3
                · exact ih2 (hU _ _ h3) h4
            exact this ls (hU _ _ hu) hsuf
          have h3 := hinj _ _ hus hu he
          have h4 := hsuf.length_le
          rw [h3] at h4
          simp at h4
          
        · exact h1 (by simpa [Names.insert, he] using h2)
    · simp only
      refine ⟨?_, fun s _ h => .inl h⟩
      have := hs (l :: ls) (List.suffix_refl _) (by rw [hm]; simp)
      omega

/-- A compressed name, written out, is not longer than the message up to its end. -/
theorem ShortNames.name {h : Hash} {U : Fqdn → Prop} (hU : TailClosed U) (hinj : InjOn U h) {k : Nat} {n : Fqdn}
    {names : Names} (H : ShortNames U h names k) (off : Nat) (hn : U n) :
    n.toBytes.length ≤ k + (n.toBytesCompressed h names off).1.length ∧
    ShortNames U h (n.toBytesCompressed h names off).2 (k + (n.toBytesCompressed h names off).1.length) := by
  have hs : ∀ (n : Fqdn), U n → ∀ s, s <:+ n → U s := by
    intro n
    induction n with
    | nil => intro h3 s h4; rw [List.suffix_nil.mp h4]; exact h3
    | cons x xs ih2 =>
      intro h3 s h4
      rcases List.suffix_cons_iff.mp h4 with rfl | h4
      · exact h3
      · exact ih2 (hU _ _ h3) s h4
  obtain ⟨h1, h2⟩ := short_name hU hinj k n names off hn (fun s h1 h2 => H s (hs n hn s h1) h2)
  refine ⟨h1, fun s h3 h4 => ?_⟩
  rcases h2 s h3 h4 with h5 | h5
  · have := H s h3 h5; omega
  · exact h5

/-- Compressed data, written out. -/
theorem ShortNames.data {cfg : Cfg} {h : Hash} {U : Fqdn → Prop} (hU : TailClosed U) (hinj : InjOn U h) {k off : Nat}
    {names names' : Names} {r : RecordData} {c : Bytes} (H : ShortNames U h names k)
    (hn : ∀ n ∈ rdataNames r, U n) (hc : r.toBytesCompressed cfg h names off = .ok (c, names')) :
    ShortNames U h names' (k + c.length) ∧
    ∀ d, r.toBytes cfg = .ok d → d.length ≤ c.length + 2 * (k + c.length) := by
  cases r
  case NS r =>
    obtain ⟨h1, h2⟩ := H.name hU hinj off (hn r.nsdname (by simp [rdataNames]))
    have hc := Res.ok.inj hc
    simp only [Ns.toBytesCompressed] at hc
    rw [hc] at h1 h2
    refine ⟨h2, fun d hd => ?_⟩
    cases hd
    simp only [Ns.toBytes]
    dsimp only at h1
    omega
  case CNAME r =>
    obtain ⟨h1, h2⟩ := H.name hU hinj off (hn r.cname (by simp [rdataNames]))
    have hc := Res.ok.inj hc
    simp only [Cname.toBytesCompressed] at hc
    rw [hc] at h1 h2
    refine ⟨h2, fun d hd => ?_⟩
    cases hd
    simp only [Cname.toBytes]
    dsimp only at h1
    omega
  case PTR r =>
    obtain ⟨h1, h2⟩ := H.name hU hinj off (hn r.ptrdname (by simp [rdataNames]))
    have hc := Res.ok.inj hc
    simp only [Ptr.toBytesCompressed] at hc
    rw [hc] at h1 h2
    refine ⟨h2, fun d hd => ?_⟩
    cases hd
    simp only [Ptr.toBytes]
    dsimp only at h1
    omega
  case MX r =>
    obtain ⟨h1, h2⟩ := H.name hU hinj (off + 2) (hn r.exchange (by simp [rdataNames]))
    cases hc
    refine ⟨h2.mono (by simp; try omega), fun d hd => ?_⟩
    cases hd
    simp only [Mx.toBytes, List.length_append]
    omega
  case SRV r =>
    obtain ⟨h1, h2⟩ := H.name hU hinj (off + 6) (hn r.target (by simp [rdataNames]))
    cases hc
    refine ⟨h2.mono (by simp; try omega), fun d hd => ?_⟩
    cases hd
    simp only [Srv.toBytes, List.length_append]
    omega
  case NAPTR r =>
    obtain ⟨h1, h2⟩ := H.name hU hinj (off + r.headBytes.length) (hn r.replacement (by simp [rdataNames]))
    cases hc
    refine ⟨h2.mono (by simp; try omega), fun d hd => ?_⟩
    cases hd
    simp only [Naptr.toBytes, List.length_append]
    omega
  case SOA r =>
    obtain ⟨h1, h2⟩ := H.name hU hinj off (hn r.mname (by simp [rdataNames]))
    obtain ⟨h3, h4⟩ := h2.name hU hinj (off + (r.mname.toBytesCompressed h names off).1.length)
      (hn r.rname (by simp [rdataNames]))
    cases hc
    refine ⟨h4.mono (by simp; omega), fun d hd => ?_⟩
    cases hd
    simp only [Soa.toBytes, List.length_append]
    omega
  case MINFO r =>
    obtain ⟨h1, h2⟩ := H.name hU hinj off (hn r.rmailbx (by simp [rdataNames]))
    obtain ⟨h3, h4⟩ := h2.name hU hinj (off + (r.rmailbx.toBytesCompressed h names off).1.length)
      (hn r.emailbx (by simp [rdataNames]))
    cases hc
    refine ⟨h4.mono (by simp; omega), fun d hd => ?_⟩
    cases hd
    simp only [Minfo.toBytes, List.length_append]
    omega
  case NSEC r =>
    obtain ⟨h1, h2⟩ := H.name hU hinj off (hn r.nextDomainName (by simp [rdataNames]))
    simp only [RecordData.toBytesCompressed, Nsec.toBytesCompressed, Res.bind_ok] at hc
    obtain ⟨x, hx, hc⟩ := hc
    cases hc
    refine ⟨h2.mono (by simp; try omega), fun d hd => ?_⟩
    simp only [RecordData.toBytes, Nsec.toBytes, Res.bind_ok] at hd
    obtain ⟨_, -, y, hy, hd⟩ := hd
    rw [hx] at hy
    cases hy
    cases hd
    simp only [List.length_append]
    omega
  case CSYNC r =>
    simp only [RecordData.toBytesCompressed, Res.bind_ok] at hc
    obtain ⟨x, hx, hc⟩ := hc
    cases hc
    refine ⟨H.mono (by omega), fun d hd => ?_⟩
    have hd : r.toBytes cfg = .ok d := hd
    rw [hx] at hd; cases hd; omega
  case SVCB r =>
    simp only [RecordData.toBytesCompressed, Res.bind_ok] at hc
    obtain ⟨x, hx, hc⟩ := hc
    cases hc
    refine ⟨H.mono (by omega), fun d hd => ?_⟩
    have hd : r.toBytes cfg = .ok d := hd
    rw [hx] at hd; cases hd; omega
  all_goals
    cases hc
    refine ⟨H.mono (by omega), fun d hd => ?_⟩
    cases hd
    omega

theorem ShortNames.record {cfg : Cfg} {h : Hash} {U : Fqdn → Prop} (hU : TailClosed U) (hinj : InjOn U h) {k off : Nat}
    {names names' : Names} {r : ResourceRecord} {c : Bytes} (H : ShortNames U h names k) (hr : U r.name)
    (hn : ∀ n ∈ rdataNames r.rdata, U n) (hc : r.toBytesCompressed cfg h names off = .ok (c, names')) :
    ShortNames U h names' (k + c.length) ∧
    ∀ d, r.rdata.toBytes cfg = .ok d → d.length ≤ 3 * (k + c.length) := by
  unfold ResourceRecord.toBytesCompressed at hc
  simp only [Res.bind_ok] at hc
  obtain ⟨⟨x, n⟩, hx, hc⟩ := hc
  cases hc
  obtain ⟨-, h2⟩ := H.name hU hinj off hr
  obtain ⟨h3, h4⟩ := ShortNames.data (off := _) hU hinj h2 hn hx
  refine ⟨h3.mono ?_, fun d hd => ?_⟩
  · simp only [ResourceRecord.headCompressed, List.length_append]; omega
  · have := h4 d hd
    simp only [ResourceRecord.headCompressed, List.length_append]; omega

theorem ShortNames.records {cfg : Cfg} {h : Hash} {U : Fqdn → Prop} (hU : TailClosed U) (hinj : InjOn U h) :
    ∀ (rs : List ResourceRecord) (names names' : Names) (bin c : Bytes),
    ShortNames U h names bin.length → (∀ r ∈ rs, U r.name ∧ ∀ n ∈ rdataNames r.rdata, U n) →
    Packet.recordsCompressed cfg h rs names bin = .ok (c, names') →
    bin.length ≤ c.length ∧ ShortNames U h names' c.length ∧
    ∀ r ∈ rs, ∀ d, r.rdata.toBytes cfg = .ok d → d.length ≤ 3 * c.length := by
  intro rs
  induction rs with
  | nil =>
    intro names names' bin c H _ hc
    cases hc
    exact ⟨Nat.le_refl _, H, by simp⟩
  | cons r rs ih =>
    intro names names' bin c H hr hc
    unfold Packet.recordsCompressed at hc
    simp only [Res.bind_ok] at hc
    obtain ⟨⟨a, n1⟩, h1, h2⟩ := hc
    obtain ⟨h3, h4⟩ := H.record hU hinj (hr r List.mem_cons_self).1 (hr r List.mem_cons_self).2 h1
    rw [← List.length_append] at h3 h4
    obtain ⟨h5, h6, h7⟩ := ih n1 names' (bin ++ a) c h3 (fun x hx => hr x (List.mem_cons_of_mem _ hx)) h2
    refine ⟨by rw [List.length_append] at h5; omega, h6, ?_⟩
    intro x hx d hd
    rcases List.mem_cons.mp hx with rfl | hx
    · have := h4 d hd; omega
    · exact h7 x hx d hd

theorem ShortNames.questions {cfg : Cfg} {h : Hash} {U : Fqdn → Prop} (hU : TailClosed U) (hinj : InjOn U h) :
    ∀ (qs : List Question) (names : Names) (bin : Bytes),
    ShortNames U h names bin.length → (∀ q ∈ qs, U q.qName) →
    ShortNames U h (Packet.questionsCompressed cfg h qs names bin).2
      (Packet.questionsCompressed cfg h qs names bin).1.length := by
  intro qs
  induction qs with
  | nil => intro names bin H _; exact H
  | cons q qs ih =>
    intro names bin H hq
    unfold Packet.questionsCompressed
    refine ih _ _ ?_ (fun x hx => hq x (List.mem_cons_of_mem _ hx))
    obtain ⟨-, h2⟩ := H.name hU hinj bin.length (hq q List.mem_cons_self)
    refine h2.mono ?_
    simp only [Question.toBytesCompressed, List.length_append]
    omega

/-- The data of a record, with all names written out, are at most three times as long as the
compressed message. -/
theorem Packet.data_length_compressed {cfg : Cfg} {h : Hash} {U : Fqdn → Prop} (hU : TailClosed U) (hinj : InjOn U h)
    {p : Packet} (hn : ∀ n ∈ packetNames p, U n) {b : Bytes} (hb : p.toBytesCompressed cfg h = .ok b) :
    ∀ r ∈ records p, ∀ d, r.rdata.toBytes cfg = .ok d → d.length ≤ 3 * b.length := by
  have hall : ∀ r ∈ records p, U r.name ∧ ∀ n ∈ rdataNames r.rdata, U n := by
    intro r hm
    refine ⟨hn _ ?_, fun n hm2 => hn _ ?_⟩
    · simp only [packetNames, List.mem_append, List.mem_flatMap]
      exact .inr ⟨r, hm, by simp⟩
    · simp only [packetNames, List.mem_append, List.mem_flatMap]
      exact .inr ⟨r, hm, by simp [hm2]⟩
  unfold Packet.toBytesCompressed at hb
  simp only [Res.bind_ok] at hb
  obtain ⟨⟨c2, n2⟩, e2, ⟨c3, n3⟩, e3, ⟨c4, n4⟩, e4, hb⟩ := hb
  cases hb
  have m1 := ShortNames.questions (cfg := cfg) hU hinj p.questions Names.empty p.header.toBytes
    (fun s _ h => (h rfl).elim) (fun q hm => hn _ (by
      simp only [packetNames, List.mem_append, List.mem_map]; exact .inl ⟨q, hm, rfl⟩))
  obtain ⟨l2, m2, s2⟩ := ShortNames.records hU hinj _ _ _ _ _ m1 (fun r hm => hall r (by simp [records, hm])) e2
  obtain ⟨l3, m3, s3⟩ := ShortNames.records hU hinj _ _ _ _ _ m2 (fun r hm => hall r (by simp [records, hm])) e3
  obtain ⟨l4, m4, s4⟩ := ShortNames.records hU hinj _ _ _ _ _ m3 (fun r hm => hall r (by simp [records, hm])) e4
  dsimp only at l2 l3 l4 s2 s3 s4 ⊢
  intro r hm d hd
  simp only [records, List.mem_append] at hm
  rcases hm with (hm | hm) | hm
  · have := s2 r hm d hd; omega
  · have := s3 r hm d hd; omega
  · exact s4 r hm d hd

end Dns
