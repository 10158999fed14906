import Verif.Lemmas.BitmapParse

/-! The writer of type bitmaps. -/

namespace Dns
open Spec Buf

theorem or_bit (o : UInt8) (b c : Nat) (hb : b < 8) (hc : c < 8) :
    (o ||| ((128 : UInt8) >>> UInt8.ofNat b)).toNat.testBit (7 - c)
      = (o.toNat.testBit (7 - c) || decide (c = b)) := by
  have key : ∀ b < 8, ∀ c < 8, ∀ n : Fin 256,
      (UInt8.ofNat n.val ||| ((128 : UInt8) >>> UInt8.ofNat b)).toNat.testBit (7 - c)
        = ((UInt8.ofNat n.val).toNat.testBit (7 - c) || decide (c = b)) := by decide +kernel
  revert o
  exact forall_u8 (key b hb c hc)

theorem bitSet_set {w : UInt8} {data : Bytes} {len b n : Nat} (hl : len < data.length) (hb : b < 8) :
    BitSet (w, data.set len (data.getD len 0 ||| ((128 : UInt8) >>> UInt8.ofNat b))) n ↔
      BitSet (w, data) n ∨ n = 256 * w.toNat + 8 * len + b := by
  have hd : data[len]? = some data[len] := List.getElem?_eq_getElem hl
  have hg : data.getD len 0 = data[len] := by simp [List.getD_eq_getElem?_getD, hd]
  constructor
  · rintro ⟨k, c, o, h1, h2, h3, h4⟩
    dsimp only at h1 h4
    by_cases hk : k = len
    · subst hk
      rw [List.getElem?_set_self hl] at h1
      cases h1
      rw [hg, or_bit _ _ _ hb h2] at h3
      simp only [Bool.or_eq_true, decide_eq_true_eq] at h3
      rcases h3 with h3 | rfl
      · exact .inl ⟨k, c, data[k], hd, h2, h3, h4⟩
      · exact .inr h4
    · rw [List.getElem?_set_ne (Ne.symm hk)] at h1
      exact .inl ⟨k, c, o, h1, h2, h3, h4⟩
  · rintro (⟨k, c, o, h1, h2, h3, h4⟩ | rfl)
    · dsimp only at h1 h4
      by_cases hk : k = len
      · subst hk
        rw [hd] at h1
        cases h1
        refine ⟨k, c, _, List.getElem?_set_self hl, h2, ?_, h4⟩
        rw [hg, or_bit _ _ _ hb h2, h3]; rfl
      · exact ⟨k, c, o, by rw [List.getElem?_set_ne (Ne.symm hk)]; exact h1, h2, h3, h4⟩
    · refine ⟨len, b, _, List.getElem?_set_self hl, hb, ?_, rfl⟩
      rw [hg, or_bit _ _ _ hb hb]; simp

theorem bitSet_replicate (w : UInt8) (m n : Nat) : ¬ BitSet (w, List.replicate m 0) n := by
  rintro ⟨k, c, o, h1, h2, h3, h4⟩
  dsimp only at h1
  rw [List.getElem?_replicate] at h1
  split at h1
  · cases h1; simp at h3
  · cases h1

theorem bitSet_take {w : UInt8} {data : Bytes} {m n : Nat}
    (h : ∀ n, BitSet (w, data) n → n < 256 * w.toNat + 8 * m) :
    BitSet (w, data.take m) n ↔ BitSet (w, data) n := by
  constructor
  · rintro ⟨k, c, o, h1, h2, h3, h4⟩
    dsimp only at h1 h4
    refine ⟨k, c, o, ?_, h2, h3, h4⟩
    dsimp only
    rw [List.getElem?_take] at h1
    split at h1
    · exact h1
    · cases h1
  · intro hb
    have := h n hb
    obtain ⟨k, c, o, h1, h2, h3, h4⟩ := hb
    dsimp only at h1 h4
    refine ⟨k, c, o, ?_, h2, h3, h4⟩
    dsimp only
    rw [List.getElem?_take, if_pos (by omega)]
    exact h1

/-- Bits of the block under construction. -/
def WState.Bit (s : Bitmap.WState) (n : Nat) : Prop := BitSet (UInt8.ofNat s.blockNum, s.blockData) n

/-- Numbers the writer handles: those of the first window, and the first 32 of the second. -/
def Low (t : Nat) : Prop := t < 288

theorem low_type (t : RecordType) : Low (typeNumber t) := by
  cases t <;> simp [Low, typeNumber]

/-- The second part of an iteration: set the bit. -/
def putBit (cfg : Cfg) (s : Bitmap.WState) (t : Nat) : Res Bitmap.WState := do
  let len ← subU16 cfg (t / 8) (32 * s.blockNum)
  let len := len % 256
  if len < 32 then
    pure { s with
      blockLen := len
      blockData := s.blockData.set len (s.blockData.getD len 0 ||| ((128 : UInt8) >>> UInt8.ofNat (t % 8))) }
  else .panic .index

structure WInv (s : Bitmap.WState) (ws : List (UInt8 × Bytes)) (last : Nat) : Prop where
  out : s.out = Items.octets (windowItems ws)
  len : s.blockData.length = 32
  num : s.blockNum = last / 256
  low : Low last
  blen : s.blockLen = last % 256 / 8
  bits : ∀ n, WState.Bit s n → n ≤ last

theorem low_num {t : Nat} (h : Low t) : (UInt8.ofNat (t / 256)).toNat = t / 256 := by
  unfold Low at h; simp; omega

theorem putBit_ok (cfg : Cfg) {s : Bitmap.WState} {ws : List (UInt8 × Bytes)} {t : Nat} (ht : Low t)
    (ho : s.out = Items.octets (windowItems ws)) (hl : s.blockData.length = 32)
    (hn : s.blockNum = t / 256) (hb : ∀ n, WState.Bit s n → n ≤ t) :
    ∃ s', putBit cfg s t = .ok s' ∧ WInv s' ws t ∧ s'.out = s.out ∧ s'.blockNum = s.blockNum ∧
      (∀ n, WState.Bit s' n ↔ WState.Bit s n ∨ n = t) := by
  have h8 : t / 8 - 32 * (t / 256) = t % 256 / 8 := by omega
  have hsub : subU16 cfg (t / 8) (32 * s.blockNum) = .ok (t % 256 / 8) := by
    unfold subU16
    rw [hn, if_pos (by omega), h8]
  have hlt : t % 256 / 8 % 256 = t % 256 / 8 := by omega
  have hset : ∀ n, BitSet (UInt8.ofNat s.blockNum, s.blockData.set (t % 256 / 8)
      (s.blockData.getD (t % 256 / 8) 0 ||| ((128 : UInt8) >>> UInt8.ofNat (t % 8)))) n ↔
      WState.Bit s n ∨ n = t := by
    intro n
    rw [bitSet_set (by omega) (by omega), hn, low_num ht]
    unfold WState.Bit
    rw [hn]
    have : 256 * (t / 256) + 8 * (t % 256 / 8) + t % 8 = t := by omega
    rw [this]
  refine ⟨{ s with
      blockLen := t % 256 / 8
      blockData := s.blockData.set (t % 256 / 8) (s.blockData.getD (t % 256 / 8) 0 |||
        ((128 : UInt8) >>> UInt8.ofNat (t % 8))) }, ?_, ⟨ho, ?_, hn, ht, rfl, ?_⟩, rfl, rfl, hset⟩
  · unfold putBit
    rw [hsub]
    simp only [bind, Res.bind]
    rw [hlt, if_pos (by omega)]
    rfl
  · simpa using hl
  · intro n hn'
    rcases (hset n).mp hn' with h | h
    · exact hb n h
    · omega

theorem windowItems_octets_append (ws : List (UInt8 × Bytes)) (w : UInt8 × Bytes) :
    Items.octets (windowItems (ws ++ [w])) =
      Items.octets (windowItems ws) ++ w.1 :: UInt8.ofNat w.2.length :: w.2 := by
  simp [windowItems, Items.octets, Item.octets]

/-- The last octet of the window is not zero (RFC 4034, section 4.1.2: trailing zero octets must be left
out). -/
def Tight (w : UInt8 × Bytes) : Prop := w.2.getLast? ≠ some 0

theorem finish_ok {s : Bitmap.WState} {ws : List (UInt8 × Bytes)} {last : Nat} (h : WInv s ws last) :
    Bitmap.finish s = .ok (Items.octets (windowItems (ws ++
      [(UInt8.ofNat s.blockNum, s.blockData.take (s.blockLen + 1))]))) ∧
    (Items.octets (windowItems (ws ++
      [(UInt8.ofNat s.blockNum, s.blockData.take (s.blockLen + 1))]))).length =
        s.out.length + 2 + (s.blockLen + 1) ∧
    (s.blockData.take (s.blockLen + 1)).length = s.blockLen + 1 ∧ s.blockLen + 1 ≤ 32 ∧
    (∀ n, BitSet (UInt8.ofNat s.blockNum, s.blockData.take (s.blockLen + 1)) n ↔ WState.Bit s n) ∧
    (WState.Bit s last → Tight (UInt8.ofNat s.blockNum, s.blockData.take (s.blockLen + 1))) := by
  have hlt : s.blockLen < 32 := by rw [h.blen]; omega
  have htake : (s.blockData.take (s.blockLen + 1)).length = s.blockLen + 1 := by
    rw [List.length_take, h.len]; omega
  refine ⟨?_, ?_, htake, hlt, ?_, ?_⟩
  · unfold Bitmap.finish
    rw [if_pos hlt, windowItems_octets_append, htake, h.out]
    simp
  · rw [windowItems_octets_append, ← h.out]
    simp only [List.length_append, List.length_cons, htake]
    omega
  · intro n
    unfold WState.Bit
    apply bitSet_take
    intro n hn
    have := h.bits n hn
    rw [h.num, low_num h.low, h.blen]
    omega
  · rintro ⟨k, b, o, h1, h2, h3, h4⟩ ht
    dsimp only at h1 h4 ht
    rw [h.num, low_num h.low] at h4
    have hk : k = s.blockLen := by rw [h.blen]; omega
    rw [List.getLast?_eq_getElem?, htake, Nat.add_sub_cancel, List.getElem?_take, if_pos (by omega), ← hk,
      h1] at ht
    cases ht
    simp at h3

theorem writeType_eq (cfg : Cfg) (s : Bitmap.WState) (t : Nat) :
    Bitmap.writeType cfg s t = (do
      let diff ← subU16 cfg t (s.blockNum * 32)
      let s ← if diff > 255 then do
          let out ← Bitmap.finish s
          pure (⟨s.blockNum + 1, s.blockLen, List.replicate 32 0, out⟩ : Bitmap.WState)
        else pure s
      putBit cfg s t) := rfl

/-- One iteration, and the same step of the size computation. -/
theorem writeType_ok (cfg : Cfg) {s : Bitmap.WState} {ws : List (UInt8 × Bytes)} {last t : Nat}
    (h : WInv s ws last) (ht : Low t) (hlt : last ≤ t) (ts : List Nat) :
    ∃ s' ws', Bitmap.writeType cfg s t = .ok s' ∧ WInv s' ws' t ∧
      Bitmap.sizeLoop cfg s.blockNum last s.out.length (t :: ts)
        = Bitmap.sizeLoop cfg s'.blockNum t s'.out.length ts ∧
      (∀ n, ((∃ w ∈ ws', BitSet w n) ∨ WState.Bit s' n) ↔
        ((∃ w ∈ ws, BitSet w n) ∨ WState.Bit s n ∨ n = t)) ∧
      ((ws' = ws ∧ s'.blockNum = s.blockNum) ∨ ∃ w, ws' = ws ++ [w] ∧ w.1.toNat = s.blockNum ∧
        s.blockNum < s'.blockNum ∧ 1 ≤ w.2.length ∧ w.2.length ≤ 32 ∧ t / 256 ≠ s.blockNum ∧
        (WState.Bit s last → Tight w)) ∧ WState.Bit s' t := by
  have hlow := h.low
  have hnum := h.num
  unfold Low at ht hlow
  have hsub : subU16 cfg t (s.blockNum * 32) = .ok (t - s.blockNum * 32) := by
    unfold subU16; rw [if_pos (by omega)]
  rw [writeType_eq, hsub, Bitmap.sizeLoop, hsub]
  simp only [bind, Res.bind]
  by_cases hc : t - s.blockNum * 32 > 255
  · -- a new block
    have h0 : s.blockNum = 0 := by omega
    have hl0 : last / 256 = 0 := by omega
    have ht1 : t / 256 = 1 := by omega
    obtain ⟨f1, f2, f3, f4, f5, f6⟩ := finish_ok h
    rw [if_pos hc, if_pos hc, f1]
    simp only [pure]
    obtain ⟨s', p1, p2, p3, p4, p5⟩ := putBit_ok cfg (t := t)
      (s := ⟨s.blockNum + 1, s.blockLen, List.replicate 32 0, Items.octets (windowItems (ws ++
        [(UInt8.ofNat s.blockNum, s.blockData.take (s.blockLen + 1))]))⟩)
      (ws := ws ++ [(UInt8.ofNat s.blockNum, s.blockData.take (s.blockLen + 1))])
      ht rfl List.length_replicate (by dsimp only; omega)
      (fun n hn => absurd hn (bitSet_replicate _ _ _))
    refine ⟨s', ws ++ [(UInt8.ofNat s.blockNum, s.blockData.take (s.blockLen + 1))], ?_, p2, ?_, ?_, ?_,
      (p5 t).mpr (.inr rfl)⟩
    · exact p1
    · have hsub2 : subU16 cfg (last / 8) (32 * s.blockNum) = .ok s.blockLen := by
        unfold subU16; rw [if_pos (by omega), h.blen]; congr 1; omega
      rw [hsub2]
      dsimp only
      rw [p3, p4]
      dsimp only
      rw [f2]
    · intro n
      rw [p5]
      simp only [List.mem_append, List.mem_singleton]
      constructor
      · rintro (⟨w, hw | rfl, hb⟩ | hb | hb)
        · exact .inl ⟨w, hw, hb⟩
        · exact .inr (.inl ((f5 n).mp hb))
        · exact absurd hb (bitSet_replicate _ _ _)
        · exact .inr (.inr hb)
      · rintro (⟨w, hw, hb⟩ | hb | hb)
        · exact .inl ⟨w, .inl hw, hb⟩
        · exact .inl ⟨_, .inr rfl, (f5 n).mpr hb⟩
        · exact .inr (.inr hb)
    · rw [p4]
      refine .inr ⟨_, rfl, ?_, ?_, ?_, ?_, ?_, f6⟩
      · rw [h0]; rfl
      · dsimp only; omega
      · dsimp only; omega
      · dsimp only; omega
      · omega
  · rw [if_neg hc, if_neg hc]
    simp only [pure]
    obtain ⟨s', p1, p2, p3, p4, p5⟩ := putBit_ok cfg (t := t) (s := s) (ws := ws)
      ht h.out h.len (by omega) (fun n hn => (h.bits n hn).trans hlt)
    refine ⟨s', ws, p1, p2, ?_, ?_, .inl ⟨rfl, p4⟩, (p5 t).mpr (.inr rfl)⟩
    · rw [p3, p4]
    · intro n; rw [p5]

theorem writeLoop_ok (cfg : Cfg) : ∀ (ts : List Nat) {s : Bitmap.WState} {ws : List (UInt8 × Bytes)}
    {last : Nat}, WInv s ws last → (∀ t ∈ ts, Low t) → (∀ t ∈ ts, last ≤ t) → ts.Pairwise (· < ·) →
    (ws.Pairwise (fun a b => a.1.toNat < b.1.toNat)) →
    (∀ w ∈ ws, w.1.toNat < s.blockNum ∧ 1 ≤ w.2.length ∧ w.2.length ≤ 32) →
    ∃ ws', Bitmap.writeLoop cfg s ts = .ok (Items.octets (windowItems ws')) ∧
      Bitmap.sizeLoop cfg s.blockNum last s.out.length ts = .ok (Items.octets (windowItems ws')).length ∧
      (∀ n, (∃ w ∈ ws', BitSet w n) ↔ (∃ w ∈ ws, BitSet w n) ∨ WState.Bit s n ∨ n ∈ ts) ∧
      ws'.Pairwise (fun a b => a.1.toNat < b.1.toNat) ∧
      (∀ w ∈ ws', 1 ≤ w.2.length ∧ w.2.length ≤ 32) ∧
      ((WState.Bit s last ∨ ∃ t ∈ ts.head?, t / 256 = s.blockNum) → (∀ w ∈ ws, Tight w) →
        ∀ w ∈ ws', Tight w) := by
  intro ts
  induction ts with
  | nil =>
    intro s ws last h _ _ _ hp hw
    obtain ⟨f1, f2, f3, f4, f5, f6⟩ := finish_ok h
    refine ⟨_, f1, ?_, ?_, ?_, ?_, ?_⟩
    · rw [f2, Bitmap.sizeLoop]
      have hsub2 : subU16 cfg (last / 8) (32 * s.blockNum) = .ok s.blockLen := by
        have := h.num
        unfold subU16; rw [if_pos (by omega), h.blen]; congr 1; omega
      rw [hsub2]; rfl
    · intro n
      simp only [List.mem_append, List.mem_singleton, List.not_mem_nil, or_false]
      constructor
      · rintro ⟨w, hw | rfl, hb⟩
        · exact .inl ⟨w, hw, hb⟩
        · exact .inr ((f5 n).mp hb)
      · rintro (⟨w, hw, hb⟩ | hb)
        · exact ⟨w, .inl hw, hb⟩
        · exact ⟨_, .inr rfl, (f5 n).mpr hb⟩
    · rw [List.pairwise_append]
      refine ⟨hp, by simp, ?_⟩
      intro a ha b hb
      rw [List.mem_singleton] at hb
      subst hb
      have := (hw a ha).1
      dsimp only
      rw [h.num, low_num h.low, ← h.num]
      exact this
    · intro w hw'
      rcases List.mem_append.mp hw' with hw' | hw'
      · exact (hw w hw').2
      · rw [List.mem_singleton] at hw'
        subst hw'
        dsimp only
        omega
    · intro hb ht w hw'
      rcases List.mem_append.mp hw' with hw' | hw'
      · exact ht w hw'
      · rw [List.mem_singleton] at hw'
        subst hw'
        simp only [List.head?_nil, Option.mem_def, reduceCtorEq, false_and, exists_false, or_false] at hb
        exact f6 hb
  | cons t ts ih =>
    intro s ws last h hlow hge hs hp hw
    rw [List.pairwise_cons] at hs
    obtain ⟨s', ws', w1, w2, w3, w4, w5, w6⟩ := writeType_ok cfg h (hlow t (by simp)) (hge t (by simp)) ts
    have hp' : ws'.Pairwise (fun a b => a.1.toNat < b.1.toNat) ∧
        (∀ w ∈ ws', w.1.toNat < s'.blockNum ∧ 1 ≤ w.2.length ∧ w.2.length ≤ 32) := by
      rcases w5 with ⟨rfl, h2⟩ | ⟨w, rfl, h2, h3, h4, h5, _⟩
      · rw [h2]; exact ⟨hp, hw⟩
      · refine ⟨List.pairwise_append.mpr ⟨hp, by simp, ?_⟩, ?_⟩
        · intro a ha b hb
          rw [List.mem_singleton] at hb
          subst hb
          rw [h2]; exact (hw a ha).1
        · intro a ha
          rcases List.mem_append.mp ha with ha | ha
          · have := hw a ha
            omega
          · rw [List.mem_singleton] at ha
            subst ha
            omega
    obtain ⟨ws2, i1, i2, i3, i4, i5, i6⟩ := ih w2 (fun x hx => hlow x (by simp [hx]))
      (fun x hx => (hs.1 x hx).le) hs.2 hp'.1 hp'.2
    refine ⟨ws2, ?_, ?_, ?_, i4, i5, ?_⟩
    · rw [Bitmap.writeLoop, w1]
      exact i1
    · rw [w3]; exact i2
    · intro n
      rw [i3, ← or_assoc, w4]
      simp only [List.mem_cons, or_assoc]
    · intro hb ht
      refine i6 (.inl w6) ?_
      rcases w5 with ⟨rfl, h2⟩ | ⟨w, rfl, h2, h3, h4, h5, h6, h7⟩
      · exact ht
      · intro a ha
        rcases List.mem_append.mp ha with ha | ha
        · exact ht a ha
        · rw [List.mem_singleton] at ha
          subst ha
          rcases hb with hb | ⟨x, hx, hxe⟩
          · exact h7 hb
          · simp only [List.head?_cons, Option.mem_def, Option.some.injEq] at hx
            subst hx
            exact absurd hxe h6

/-- The bitmap writer writes windows with increasing numbers whose bits are the types, and the size is
computed right. -/
theorem Bitmap.toBytes_ok (cfg : Cfg) {types : List RecordType}
    (h : types.Pairwise (fun a b => typeNumber a < typeNumber b)) :
    ∃ ws, Bitmap.toBytes cfg types = .ok (Items.octets (windowItems ws)) ∧
      Bitmap.byteSize cfg types = .ok (Items.octets (windowItems ws)).length ∧
      (∀ n, (∃ w ∈ ws, BitSet w n) ↔ ∃ t ∈ types, typeNumber t = n) ∧
      ws.Pairwise (fun a b => a.1.toNat < b.1.toNat) ∧
      (∀ w ∈ ws, 1 ≤ w.2.length ∧ w.2.length ≤ 32) ∧
      ((∃ t ∈ types, typeNumber t < 256) → ∀ w ∈ ws, Tight w) := by
  have hmap : types.map RecordType.ord = types.map typeNumber := by
    apply List.map_congr_left; intro t _; exact ord_eq t
  have hinit : WInv .init [] 0 := by
    refine ⟨rfl, List.length_replicate, rfl, by unfold Low; omega, rfl, ?_⟩
    intro n hn
    exact absurd hn (bitSet_replicate _ _ _)
  obtain ⟨ws, h1, h2, h3, h4, h5, h6⟩ := writeLoop_ok cfg (types.map typeNumber) hinit
    (by intro t ht; obtain ⟨x, _, rfl⟩ := List.mem_map.mp ht; exact low_type x)
    (fun _ _ => Nat.zero_le _) (List.pairwise_map.mpr h) (by simp) (by simp)
  refine ⟨ws, ?_, ?_, ?_, h4, h5, ?_⟩
  · unfold Bitmap.toBytes; rw [hmap]; exact h1
  · unfold Bitmap.byteSize; rw [hmap]; exact h2
  · intro n
    rw [h3]
    have : ¬ WState.Bit .init n := bitSet_replicate _ _ _
    simp [this]
  · rintro ⟨t, ht, hlt⟩
    refine h6 (.inr ?_) (by simp)
    cases types with
    | nil => simp at ht
    | cons x xs =>
      refine ⟨typeNumber x, by simp, ?_⟩
      have : typeNumber x < 256 := by
        rcases List.mem_cons.mp ht with rfl | ht
        · exact hlt
        · have := (List.pairwise_cons.mp h).1 t ht
          omega
      exact Nat.div_eq_of_lt this

theorem typesOf_written {cfg : Cfg} {ws : List (UInt8 × Bytes)} {types : List RecordType}
    (hs : types.Pairwise (fun a b => typeNumber a < typeNumber b)) (hk : ∀ t ∈ types, Readable cfg t)
    (hb : ∀ n, (∃ w ∈ ws, BitSet w n) ↔ ∃ t ∈ types, typeNumber t = n) : TypesOf cfg ws types := by
  have hlt : ∀ w ∈ ws, ∀ m, BitSet w m → m < 65536 := by
    intro w hw m hm
    obtain ⟨t, _, rfl⟩ := (hb m).mp ⟨w, hw, hm⟩
    exact typeNumber_lt t
  refine ⟨hs, hk, ?_, fun _ => hlt⟩
  intro n
  rw [← hb]
  constructor
  · rintro ⟨w, hw, m, hm, rfl⟩
    rw [Nat.mod_eq_of_lt (hlt w hw m hm)]
    exact ⟨w, hw, hm⟩
  · rintro ⟨w, hw, hm⟩
    exact ⟨w, hw, n, hm, (Nat.mod_eq_of_lt (hlt w hw n hm)).symm⟩

end Dns
