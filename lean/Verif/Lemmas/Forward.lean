import Verif.Lemmas.ConformOnly
import Verif.Lemmas.Receive

/-! A message without compression pointers is the only encoding of what it says. -/

namespace Dns
open Spec Buf

/-! ## Type bitmaps -/

theorem testBit_block {o : UInt8} (h : o ≠ 0) : ∃ b, b < 8 ∧ o.toNat.testBit (7 - b) = true := by
  have hne : o.toNat ≠ 0 := fun e => h (UInt8.toNat_inj.mp (by simpa using e))
  obtain ⟨i, hi⟩ := Nat.exists_testBit_of_ne_zero hne
  have h8 : i < 8 := by
    by_contra hc
    have h1 : 2 ^ 8 ≤ 2 ^ i := Nat.pow_le_pow_right (by omega) (by omega)
    have h2 := Nat.testBit_lt_two_pow (x := o.toNat) (i := i) (by have := o.toNat_lt; omega)
    rw [h2] at hi
    exact absurd hi (by decide)
  exact ⟨7 - i, by omega, by rw [show 7 - (7 - i) = i by omega]; exact hi⟩

theorem octet_ext {a b : UInt8} (h : ∀ k, k < 8 → a.toNat.testBit (7 - k) = b.toNat.testBit (7 - k)) : a = b := by
  apply UInt8.toNat_inj.mp
  apply Nat.eq_of_testBit_eq
  intro i
  by_cases hi : i < 8
  · have := h (7 - i) (by omega)
    rwa [show 7 - (7 - i) = i by omega] at this
  · have h1 : 2 ^ 8 ≤ 2 ^ i := Nat.pow_le_pow_right (by omega) (by omega)
    rw [Nat.testBit_lt_two_pow (by have := a.toNat_lt; omega), Nat.testBit_lt_two_pow (by have := b.toNat_lt; omega)]

theorem bitSet_at {w : UInt8} {x : Bytes} {k b : Nat} (hb : b < 8) :
    BitSet (w, x) (256 * w.toNat + 8 * k + b) ↔ ∃ o, x[k]? = some o ∧ o.toNat.testBit (7 - b) = true := by
  constructor
  · rintro ⟨k', b', o, h1, h2, h3, h4⟩
    simp only at h4 h1
    have : k' = k ∧ b' = b := by omega
    obtain ⟨rfl, rfl⟩ := this
    exact ⟨o, h1, h3⟩
  · rintro ⟨o, h1, h2⟩
    exact ⟨k, b, o, h1, hb, h2, rfl⟩

theorem bitSet_window {w : UInt8 × Bytes} (hl : w.2.length ≤ 32) {n : Nat} (h : BitSet w n) : n / 256 = w.1.toNat := by
  obtain ⟨k, b, o, h1, h2, _, rfl⟩ := h
  have := (List.getElem?_eq_some_iff.mp h1).1
  omega

theorem block_length {w : UInt8} {x y : Bytes} (hx : x.getLast? ≠ some 0)
    (h : ∀ n, BitSet (w, x) n → BitSet (w, y) n) : x.length ≤ y.length := by
  by_contra hc
  have hne : x ≠ [] := by rintro rfl; simp at hc
  have hlast : x.getLast hne ≠ 0 := fun e => hx (by rw [List.getLast?_eq_getLast_of_ne_nil hne, e])
  obtain ⟨b, hb, ht⟩ := testBit_block hlast
  have h1 : x[x.length - 1]? = some (x.getLast hne) := by
    rw [List.getLast_eq_getElem hne, List.getElem?_eq_getElem (by have := List.length_pos_iff.mpr hne; omega)]
  obtain ⟨o, h2, -⟩ := (bitSet_at hb).mp (h _ ((bitSet_at (k := x.length - 1) hb).mpr ⟨_, h1, ht⟩))
  have := (List.getElem?_eq_some_iff.mp h2).1
  omega

theorem block_unique {w : UInt8} {x y : Bytes} (hx : x.getLast? ≠ some 0) (hy : y.getLast? ≠ some 0)
    (h : ∀ n, BitSet (w, x) n ↔ BitSet (w, y) n) : x = y := by
  have hl : x.length = y.length :=
    Nat.le_antisymm (block_length hx fun n => (h n).mp) (block_length hy fun n => (h n).mpr)
  refine List.ext_getElem hl fun k h1 h2 => octet_ext fun b hb => ?_
  have := h (256 * w.toNat + 8 * k + b)
  rw [bitSet_at hb, bitSet_at hb, List.getElem?_eq_getElem h1, List.getElem?_eq_getElem h2] at this
  simp only [Option.some.injEq, exists_eq_left'] at this
  exact Bool.eq_iff_iff.mpr this

theorem window_sub {ws vs : List (UInt8 × Bytes)} (hw : StrictWindows ws) (hv : StrictWindows vs)
    (h : ∀ n, (∃ w ∈ ws, BitSet w n) ↔ ∃ w ∈ vs, BitSet w n) : ∀ w ∈ ws, w ∈ vs := by
  have same : ∀ {us : List (UInt8 × Bytes)}, StrictWindows us → ∀ {a b}, a ∈ us → b ∈ us → a.1.toNat = b.1.toNat →
      a = b := by
    intro us hu a b ha hb he
    by_contra hne
    have hs : Std.Symm (fun a b : UInt8 × Bytes => a.1.toNat ≠ b.1.toNat) := ⟨fun _ _ h => h.symm⟩
    have := (hu.1.imp (S := fun a b => a.1.toNat ≠ b.1.toNat) (fun h => by omega)).forall ha hb hne
    exact this he
  rintro ⟨w, x⟩ hm
  obtain ⟨h1, h2, h3⟩ := hw.2 _ hm
  simp only at h1 h2 h3
  have hne : x ≠ [] := by rintro rfl; simp at h1
  obtain ⟨b, hb, ht⟩ := testBit_block (o := x.getLast hne)
    (fun e => h3 (by rw [List.getLast?_eq_getLast_of_ne_nil hne, e]))
  have h4 : x[x.length - 1]? = some (x.getLast hne) := by
    rw [List.getLast_eq_getElem hne, List.getElem?_eq_getElem (by omega)]
  have h5 := (bitSet_at (w := w) (k := x.length - 1) hb).mpr ⟨_, h4, ht⟩
  obtain ⟨⟨v, y⟩, hv1, hv2⟩ := (h _).mp ⟨_, hm, h5⟩
  obtain ⟨g1, g2, g3⟩ := hv.2 _ hv1
  have e := bitSet_window g2 hv2
  rw [bitSet_window (w := (w, x)) h2 h5] at e
  have e' : w = v := UInt8.toNat_inj.mp e
  subst e'
  have : x = y := by
    refine block_unique (w := w) h3 g3 fun n => ⟨fun hn => ?_, fun hn => ?_⟩
    · obtain ⟨u, u1, u2⟩ := (h n).mp ⟨_, hm, hn⟩
      have := same hv u1 hv1 (by rw [← bitSet_window (hv.2 _ u1).2.1 u2, ← bitSet_window (w := (w, x)) h2 hn])
      rwa [this] at u2
    · obtain ⟨u, u1, u2⟩ := (h n).mpr ⟨_, hv1, hn⟩
      have := same hw u1 hm (by rw [← bitSet_window (hw.2 _ u1).2.1 u2, ← bitSet_window (w := (w, y)) g2 hn])
      rwa [this] at u2
  rwa [this]

/-- The windows a sender may write are determined by the types. -/
theorem windows_unique {ws vs : List (UInt8 × Bytes)} (hw : StrictWindows ws) (hv : StrictWindows vs)
    (h : ∀ n, (∃ w ∈ ws, BitSet w n) ↔ ∃ w ∈ vs, BitSet w n) : ws = vs := by
  have nd : ∀ {us : List (UInt8 × Bytes)}, StrictWindows us → us.Nodup := fun hu =>
    hu.1.imp (fun {a b} h e => by rw [e] at h; omega)
  have hp : ws.Perm vs := (List.perm_ext_iff_of_nodup (nd hw) (nd hv)).mpr fun w =>
    ⟨window_sub hw hv h w, window_sub hv hw (fun n => (h n).symm) w⟩
  exact hp.eq_of_pairwise (fun a b _ _ h1 h2 => by omega) hw.1 hv.1

theorem types_windows {cfg : Cfg} {ws vs : List (UInt8 × Bytes)} {ts : List RecordType} (hw : StrictWindows ws)
    (hv : StrictWindows vs) (h1 : TypesOf cfg ws ts) (h2 : TypesOf cfg vs ts) : ws = vs := by
  refine windows_unique hw hv fun n => ?_
  have key : ∀ {us : List (UInt8 × Bytes)}, StrictWindows us → TypesOf cfg us ts →
      ((∃ w ∈ us, BitSet w n) ↔ ∃ t ∈ ts, typeNumber t = n) := by
    intro us hu ht
    rw [← ht.bits n]
    constructor
    · rintro ⟨w, h1, h2⟩
      exact ⟨w, h1, n, h2, by have := bitSet_small (hu.2 w h1).2.1 h2; omega⟩
    · rintro ⟨w, h1, m, h2, rfl⟩
      rw [Nat.mod_eq_of_lt (bitSet_small (hu.2 w h1).2.1 h2)]
      exact ⟨w, h1, h2⟩
  rw [key hw h1, key hv h2]

/-! ## RDATA -/

theorem trim_prefix {p q : Bytes} {a b : Nat} (hp : p.getLast? ≠ some 0)
    (h : p ++ List.replicate a 0 = q ++ List.replicate b 0) : p.length ≤ q.length := by
  by_contra hc
  have hne : p ≠ [] := by rintro rfl; simp at hc
  apply hp
  have hpos := List.length_pos_iff.mpr hne
  rw [List.getLast?_eq_getElem?]
  have h1 : (p ++ List.replicate a 0)[p.length - 1]? = p[p.length - 1]? := List.getElem?_append_left (by omega)
  rw [← h1, h, List.getElem?_append_right (by omega), List.getElem?_replicate, if_pos]
  have := congrArg List.length h
  simp only [List.length_append, List.length_replicate] at this
  omega

theorem trim_unique {p q : Bytes} {a b : Nat} (hp : p.getLast? ≠ some 0) (hq : q.getLast? ≠ some 0)
    (h : p ++ List.replicate a 0 = q ++ List.replicate b 0) : p = q :=
  (List.append_inj h (Nat.le_antisymm (trim_prefix hp h) (trim_prefix hq h.symm))).1

theorem afdOf_unique {afd : Afd} {p q : Bytes} (h1 : afdOf afd p) (h2 : afdOf afd q) (hp : p.getLast? ≠ some 0)
    (hq : q.getLast? ≠ some 0) : p = q := by
  cases afd with
  | ipV4 x =>
    refine trim_unique hp hq (valueOf_cancel ?_ (h1.2.trans h2.2.symm))
    have := h1.1; have := h2.1
    simp only [List.length_append, List.length_replicate]; omega
  | ipV6 x =>
    refine trim_unique hp hq (valueOf_cancel ?_ (h1.2.trans h2.2.symm))
    have := h1.1; have := h2.1
    simp only [List.length_append, List.length_replicate]; omega

/-- What a sender may write for a value is determined by the value (also where the crate writes something
else). -/
theorem strict_one {cfg : Cfg} {r : RecordData} {a b : List Item}
    (ha : RDataStrict cfg r a) (hb : RDataStrict cfg r b) : a = b := by
  cases r with
  | APL r =>
    obtain ⟨p, rfl, h1, h2⟩ := ha
    obtain ⟨q, rfl, h3, h4⟩ := hb
    rw [afdOf_unique h1 h3 h2 h4]
  | NSEC r =>
    obtain ⟨p, rfl, h1, h2⟩ := ha
    obtain ⟨q, rfl, h3, h4⟩ := hb
    rw [types_windows h2 h4 h1 h3]
  | CSYNC r =>
    obtain ⟨p, rfl, h1, h2⟩ := ha
    obtain ⟨q, rfl, h3, h4⟩ := hb
    rw [types_windows h2 h4 h1 h3]
  | HIP r => exact ha.2.2.2.trans hb.2.2.2.symm
  | RRSIG r => exact ha.2.trans hb.2.symm
  | SVCB r => exact ha.1.trans hb.1.symm
  | TKEY r => exact ha.2.2.trans hb.2.2.symm
  | _ => exact Eq.trans ha (Eq.symm hb)

/-! ## Messages -/

/-- The same octets stand from `i` to `j` in `d` and from `k` to `l` in `b`. -/
def SameOctets (d b : Bytes) (i j k l : Nat) : Prop := ∃ x, Octets d i x j ∧ Octets b k x l

theorem SameOctets.trans {d b : Bytes} {i j k i' j' k' : Nat} (h1 : SameOctets d b i j i' j')
    (h2 : SameOctets d b j k j' k') : SameOctets d b i k i' k' := by
  obtain ⟨x, a1, a2⟩ := h1
  obtain ⟨y, b1, b2⟩ := h2
  exact ⟨x ++ y, octets_append.mpr ⟨_, a1, b1⟩, octets_append.mpr ⟨_, a2, b2⟩⟩

theorem SameOctets.le {d b : Bytes} {i j k l : Nat} (h : SameOctets d b i j k l) : j ≤ d.length ∧ l ≤ b.length := by
  obtain ⟨x, a1, a2⟩ := h
  exact ⟨a1.le, a2.le⟩

theorem classField_one {cfg : Cfg} (hm : cfg.mdns = true) {n : Nat} {f : Bool} {v w : UInt16}
    (h1 : ClassField cfg n f v) (h2 : ClassField cfg n f w) : v = w := by
  obtain ⟨a1, a2⟩ := h1
  obtain ⟨b1, b2⟩ := h2
  have e := a2.symm.trans b2
  rw [hm, Bool.true_and, Bool.true_and, decide_eq_decide] at e
  have := v.toNat_lt
  have := w.toNat_lt
  apply UInt16.toNat_inj.mp
  omega

theorem question_one {cfg : Cfg} (hm : cfg.mdns = true) {q : Question} {d b : Bytes} {i j k l : Nat}
    (hi : i ≤ d.length) (hk : k ≤ b.length) (h1 : QuestionAt PlainName cfg d i q j)
    (h2 : QuestionAt PlainName cfg b k q l) : SameOctets d b i j k l := by
  obtain ⟨_, v, a1, a2⟩ := h1
  obtain ⟨_, w, b1, b2⟩ := h2
  cases classField_one hm a1 b1
  exact ⟨_, plain_octets hi a2, plain_octets hk b2⟩

theorem record_one {cfg : Cfg} (hm : cfg.mdns = true) {r : ResourceRecord} {d b : Bytes} {i j k l : Nat}
    (hi : i ≤ d.length) (hk : k ≤ b.length)
    (h1 : RecordAtWith (RDataWritten PlainName cfg) PlainName cfg d i r j)
    (h2 : RecordAtWith (RDataWritten PlainName cfg) PlainName cfg b k r l) : SameOctets d b i j k l := by
  obtain ⟨_, _, v, len, m, a1, a2, a3, a4, _, its, a5, a6⟩ := h1
  obtain ⟨_, _, v', len', m', b1, b2, b3, b4, _, its', b5, b6⟩ := h2
  cases classField_one hm a1 b1
  cases strict_one a5 b5
  have o1 := plain_octets (by rw [List.length_take_of_le a4]; omega) a6
  have o2 := plain_octets (by rw [List.length_take_of_le b4]; omega) b6
  have e1 := o1.end_eq
  have e2 := o2.end_eq
  rw [List.length_take_of_le a4] at e1
  rw [List.length_take_of_le b4] at e2
  have : len = len' := UInt16.toNat_inj.mp (by omega)
  subst this
  have o1' := o1.extend (d.drop j)
  have o2' := o2.extend (b.drop l)
  rw [List.take_append_drop, List.length_take_of_le a4] at o1'
  rw [List.take_append_drop, List.length_take_of_le b4] at o2'
  exact SameOctets.trans ⟨_, plain_octets hi a2, plain_octets hk b2⟩ ⟨_, o1', o2'⟩

theorem list_one {α : Type} {R S : Nat → α → Nat → Prop} {d b : Bytes}
    (h : ∀ i j k l x, i ≤ d.length → k ≤ b.length → R i x j → S k x l → SameOctets d b i j k l) :
    ∀ (xs : List α) (i j k l : Nat), i ≤ d.length → k ≤ b.length → ListAt R i xs j → ListAt S k xs l →
      SameOctets d b i j k l := by
  intro xs
  induction xs with
  | nil =>
    rintro i j k l hi hk rfl rfl
    exact ⟨[], ⟨d.take i, d.drop i, by simp, by simp; omega, by simp⟩, ⟨b.take k, b.drop k, by simp, by simp; omega, by simp⟩⟩
  | cons x xs ih =>
    rintro i j k l hi hk ⟨m, a1, a2⟩ ⟨m', b1, b2⟩
    have h1 := h _ _ _ _ _ hi hk a1 b1
    exact h1.trans (ih _ _ _ _ h1.le.1 h1.le.2 a2 b2)

/-- A packet has one encoding without compression. -/
theorem sent_one {cfg : Cfg} (hm : cfg.mdns = true) {p : Packet} {d b : Bytes} (h1 : SentMessage PlainName cfg d p)
    (h2 : SentMessage PlainName cfg b p) : d = b := by
  obtain ⟨_, _, _, _, i1, i2, i3, i4, a0, a1, a2, a3, a4⟩ := h1
  obtain ⟨_, _, _, _, j1, j2, j3, j4, b0, b1, b2, b3, b4⟩ := h2
  have c0 : SameOctets d b 0 i1 0 j1 := ⟨_, plain_octets (Nat.zero_le _) a0, plain_octets (Nat.zero_le _) b0⟩
  have c1 := list_one (R := QuestionAt PlainName cfg d) (S := QuestionAt PlainName cfg b)
    (fun _ _ _ _ _ => question_one hm) _ _ _ _ _ c0.le.1 c0.le.2 a1 b1
  have c2 := list_one (R := RecordAtWith (RDataWritten PlainName cfg) PlainName cfg d)
    (S := RecordAtWith (RDataWritten PlainName cfg) PlainName cfg b) (fun _ _ _ _ _ => record_one hm) _ _ _ _ _ c1.le.1 c1.le.2 a2 b2
  have c3 := list_one (R := RecordAtWith (RDataWritten PlainName cfg) PlainName cfg d)
    (S := RecordAtWith (RDataWritten PlainName cfg) PlainName cfg b) (fun _ _ _ _ _ => record_one hm) _ _ _ _ _ c2.le.1 c2.le.2 a3 b3
  have c4 := list_one (R := RecordAtWith (RDataWritten PlainName cfg) PlainName cfg d)
    (S := RecordAtWith (RDataWritten PlainName cfg) PlainName cfg b) (fun _ _ _ _ _ => record_one hm) _ _ _ _ _ c3.le.1 c3.le.2 a4 b4
  obtain ⟨x, o1, o2⟩ := (((c0.trans c1).trans c2).trans c3).trans c4
  have key : ∀ {e : Bytes}, Octets e 0 x e.length → e = x := by
    rintro e ⟨pre, post, h1, h2, h3⟩
    have h2 : pre = [] := List.length_eq_zero_iff.mp h2
    subst h2
    have h4 := congrArg List.length h1
    simp only [List.nil_append, List.length_append] at h4
    have h5 : post = [] := List.length_eq_zero_iff.mp (by omega)
    simpa [h5] using h1
  rw [key o1, key o2]

/-! ## What such a message says can be written -/

theorem plainName_ok {d : Bytes} {i j : Nat} {n : Fqdn} (h : PlainName d i n j) : NameOk 63 n := by
  induction h with
  | root _ => intro l hl; simp at hl
  | label _ h1 h2 _ _ ih =>
    intro l hl
    rcases List.mem_cons.mp hl with rfl | hl
    · exact ⟨by omega, by omega⟩
    · exact ih l hl
  | pointer _ _ h _ => exact h.elim

theorem sent_record_ok {cfg : Cfg} {d : Bytes} {i j : Nat} {r : ResourceRecord}
    (h : RecordAtWith (RDataWritten PlainName cfg) PlainName cfg d i r j) (hv : Writable cfg 63 r.rdata)
    (hw : WrittenWell r.rdata) : RecordOk cfg 63 r := by
  obtain ⟨h1, h2, v, len, k, ⟨h3, h4⟩, ⟨_, hn, _⟩, h6, h7, h8, its, h9, h10⟩ := h
  refine ⟨plainName_ok hn, h1, h8, h2, by omega, fun hf => ?_, hv, fun b hb => ?_⟩
  · rw [hf] at h4
    exact (Bool.and_eq_true_iff.mp h4.symm).1
  · obtain ⟨its', hs, hi⟩ := writes_strict hv hw
    cases strict_one h9 hs
    have := hi.bytes
    rw [hb] at this
    cases this
    have o := (plain_octets (by rw [List.length_take_of_le h7]; omega) h10).end_eq
    rw [List.length_take_of_le h7] at o
    have := len.toNat_lt
    omega

theorem sent_question_ok {cfg : Cfg} {d : Bytes} {i j : Nat} {q : Question}
    (h : QuestionAt PlainName cfg d i q j) : QuestionOk cfg 63 q := by
  obtain ⟨h1, v, ⟨_, h2⟩, ⟨_, hn, _⟩⟩ := h
  refine ⟨plainName_ok hn, h1, fun hf => ?_⟩
  rw [hf] at h2
  exact (Bool.and_eq_true_iff.mp h2.symm).1

theorem listAt_all {α : Type} {R : Nat → α → Nat → Prop} : ∀ {xs : List α} {i j : Nat}, ListAt R i xs j →
    ∀ x ∈ xs, ∃ k l, R k x l := by
  intro xs
  induction xs with
  | nil => intro i j _ x hx; simp at hx
  | cons y ys ih =>
    rintro i j ⟨k, h1, h2⟩ x hx
    rcases List.mem_cons.mp hx with rfl | hx
    · exact ⟨_, _, h1⟩
    · exact ih h2 x hx

theorem sent_ok {cfg : Cfg} {d : Bytes} {p : Packet} (h : SentMessage PlainName cfg d p)
    (hv : ∀ r ∈ records p, Writable cfg 63 r.rdata) (hw : ∀ r ∈ records p, WrittenWell r.rdata) :
    PacketOk cfg 63 p := by
  obtain ⟨c1, c2, c3, c4, i1, i2, i3, i4, _, a1, a2, a3, a4⟩ := h
  refine ⟨fun q hq => ?_, fun r hr => ?_, ?_, ?_, ?_, ?_⟩
  · obtain ⟨_, _, h⟩ := listAt_all a1 q hq
    exact sent_question_ok h
  · have := hr
    simp only [records, List.mem_append] at this
    obtain ⟨_, _, h⟩ : ∃ i j, RecordAtWith (RDataWritten PlainName cfg) PlainName cfg d i r j := by
      rcases this with (h | h) | h
      · exact listAt_all a2 r h
      · exact listAt_all a3 r h
      · exact listAt_all a4 r h
    exact sent_record_ok h (hv r hr) (hw r hr)
  · rw [c1]; exact UInt16.toNat_lt _
  · rw [c2]; exact UInt16.toNat_lt _
  · rw [c3]; exact UInt16.toNat_lt _
  · rw [c4]; exact UInt16.toNat_lt _

/-- Data that are written well are read, except SSHFP. -/
theorem written_read {r : RecordData} (h : WrittenWell r) (hs : r.type ≠ .SSHFP) : ReadWell r := by
  cases r with
  | SSHFP r => exact (hs rfl).elim
  | IPSECKEY r => exact h
  | APL r =>
    obtain ⟨part, h1, h2⟩ := (writes_APL ⟨true, true, true⟩ 63 r).rdata
    refine ⟨r.afd.toBytes, ?_, apl_last h, ?_⟩
    · simp only [List.cons.injEq, and_true, Item.raw.injEq] at h1
      rw [h1.2.2.2]; exact h2
    · cases r.afd <;> simp [Afd.toBytes, u32be]
  | _ => trivial

end Dns
