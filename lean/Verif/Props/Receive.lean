import Verif.Lemmas.Receive
import Verif.Props.Conform

/-! C99: a message written by another implementation is read as what it says. -/

namespace Dns
open Spec Buf

/-- C99 (partial): octets that are a message of RFC 1035 - names with or without compression, RDATA as a
sender may write them, whatever follows the message - are read as the packet the message says.  What is
missing: messages with data that are not `ReadWell`; for them the claim is false, see `C99_exact`.
(`Writable` says that strings of the packet are UTF-8, sets ordered and keys of maps distinct, as they are
in every value of the crate.) -/
theorem C99_received_partial (cfg : Cfg) (d : Bytes) (p : Packet) (e : Nat) (h : ReceivedMessage cfg d p e)
    (hv : ∀ r ∈ records p, Writable cfg 63 r.rdata) (hs : ∀ r ∈ records p, ReadWell r.rdata) :
    Packet.parse cfg d = .ok p ∧ (Packet.parseBuf cfg d 0).2 = e := by
  have := Packet.received h (fun r hr d k => readWell_parsed (hv r hr) (hs r hr))
  unfold Packet.parse
  rw [this]
  exact ⟨rfl, rfl⟩

/-- C99, exactly: a message of RFC 1035 is read as what it says if and only if all its data are
`ReadWell`. -/
theorem C99_exact (cfg : Cfg) (d : Bytes) (p : Packet) (e : Nat) (h : ReceivedMessage cfg d p e)
    (hv : ∀ r ∈ records p, Writable cfg 63 r.rdata) :
    Packet.parse cfg d = .ok p ↔ ∀ r ∈ records p, ReadWell r.rdata := by
  constructor
  · intro hp r hr
    obtain ⟨d', k, h1, h2⟩ := Packet.received_only h hp r hr
    exact parsed_readWell h1 h2
  · exact fun hs => (C99_received_partial cfg d p e h hv hs).1

/-- C99 (partial), for senders that do not follow the RFCs to the letter: RDATA may be any octets that
mean the value (unknown flag bits, bitmaps with trailing zeros, text that is not UTF-8, ...), with octets
left over behind them.  What is missing: SSHFP, IPSECKEY without gateway (false as above), APL (true with
an even number of octets, see `C37_parse_complete_partial`). -/
theorem C99_liberal_partial (cfg : Cfg) (d : Bytes) (p : Packet) (e : Nat) (h : MessageAt LegalName cfg d p e)
    (hs : ∀ r ∈ records p, r.rdata.type ≠ .SSHFP ∧ r.rdata.type ≠ .APL ∧
      ∀ k, r.rdata = .IPSECKEY k → k.gateway ≠ .none) :
    Packet.parse cfg d = .ok p ∧ (Packet.parseBuf cfg d 0).2 = e := by
  have := Packet.received h (fun r hr d k => by
    rintro ⟨ht, its, e, h1, h2⟩
    rw [← ht]
    refine ⟨e, C37_parse_complete_partial cfg d k e _ its ?_ (hs r hr).2.2 ?_ h1 h2⟩
    · intro x hx; exact (hs r hr).1 (by rw [hx]; rfl)
    · intro x part hx; exact ((hs r hr).2.1 (by rw [hx]; rfl)).elim)
  unfold Packet.parse
  rw [this]
  exact ⟨rfl, rfl⟩

/-- A message says one thing: two packets a message says, with data that are read, are equal. -/
theorem C99_one_meaning_partial (cfg : Cfg) (d : Bytes) (p q : Packet) (e f : Nat) (hp : ReceivedMessage cfg d p e)
    (hq : ReceivedMessage cfg d q f) (vp : ∀ r ∈ records p, Writable cfg 63 r.rdata ∧ ReadWell r.rdata)
    (vq : ∀ r ∈ records q, Writable cfg 63 r.rdata ∧ ReadWell r.rdata) : p = q ∧ e = f := by
  obtain ⟨h1, h2⟩ := C99_received_partial cfg d p e hp (fun r hr => (vp r hr).1) (fun r hr => (vp r hr).2)
  obtain ⟨h3, h4⟩ := C99_received_partial cfg d q f hq (fun r hr => (vq r hr).1) (fun r hr => (vq r hr).2)
  exact ⟨Res.ok.inj (h1.symm.trans h3), h2.symm.trans h4⟩

/-! ## Examples -/

theorem legalName_extends : Extends LegalName := by
  intro d e i n j h
  induction h with
  | root h => exact .root (by rw [List.getElem?_append_left (getElem?_lt h)]; exact h)
  | label a b c o _ ih => exact .label a b c (o.extend e) ih
  | pointer a o b h => exact .pointer a (o.extend e) b (nameWith_extend h e)

theorem plain_legal {d : Bytes} {i j : Nat} {n : Fqdn} (h : PlainName d i n j) : LegalName d i n j := by
  unfold PlainName at h
  induction h with
  | root h => exact .root h
  | label a b c o _ ih => exact .label a b c o ih
  | pointer _ _ h => exact h.elim

/-- What the crate itself sends without compression (C97) is such a message. -/
theorem C99_of_sent (cfg : Cfg) (d : Bytes) (p : Packet) (h : SentMessage PlainName cfg d p) :
    ReceivedMessage cfg d p d.length := by
  have hm : ∀ {d its i j}, Items.At PlainName d i its j → Items.At LegalName d i its j :=
    fun h => items_mono (fun _ _ _ _ => plain_legal) h
  obtain ⟨c1, c2, c3, c4, i1, i2, i3, i4, h0, h1, h2, h3, h4⟩ := h
  have key : ∀ i x j, RecordAtWith (RDataWritten PlainName cfg) PlainName cfg d i x j →
      RecordAtWith (RDataWritten LegalName cfg) LegalName cfg d i x j := by
    rintro i x j ⟨a1, a2, v, len, k, a3, a4, a5, a6, a7, its, a8, a9⟩
    exact ⟨a1, a2, v, len, k, a3, hm a4, a5, a6, a7, its, a8, hm a9⟩
  refine ⟨c1, c2, c3, c4, i1, i2, i3, i4, hm h0,
    listAt_mono ?_ _ _ _ h1, listAt_mono key _ _ _ h2, listAt_mono key _ _ _ h3, listAt_mono key _ _ _ h4⟩
  rintro i q j ⟨a1, v, a2, a3⟩
  exact ⟨a1, v, a2, hm a3⟩

/-- Messages with RDATA as a sender may write them are among the messages of `C99_liberal_partial`. -/
theorem received_means {cfg : Cfg} {d : Bytes} {p : Packet} {e : Nat} (h : ReceivedMessage cfg d p e)
    (hv : ∀ r ∈ records p, Writable cfg 63 r.rdata) : MessageAt LegalName cfg d p e := by
  obtain ⟨c1, c2, c3, c4, i1, i2, i3, i4, h0, h1, h2, h3, h4⟩ := h
  have key : ∀ i x j, Writable cfg 63 x.rdata → RecordAtWith (RDataWritten LegalName cfg) LegalName cfg d i x j →
      RecordAtWith (RDataAt LegalName cfg) LegalName cfg d i x j := by
    rintro i x j hx ⟨a1, a2, v, len, k, a3, a4, a5, a6, a7, its, a8, a9⟩
    exact ⟨a1, a2, v, len, k, a3, a4, a5, a6, a7, its, _, strict_means hx a8, a9⟩
  exact ⟨c1, c2, c3, c4, i1, i2, i3, i4, h0, h1,
    listAt_mono_mem key _ _ _ (fun x hx => hv x (by simp [records, hx])) h2,
    listAt_mono_mem key _ _ _ (fun x hx => hv x (by simp [records, hx])) h3,
    listAt_mono_mem key _ _ _ (fun x hx => hv x (by simp [records, hx])) h4⟩

example : ∃ d, MessageAt LegalName ⟨true, true, true⟩ d (withCounts exPacket) d.length := by
  obtain ⟨b, -, h⟩ := C97_plain_partial ⟨true, true, true⟩ exPacket exPacket_ok exPacket_well
  exact ⟨b, received_means (C99_of_sent _ _ _ h) (fun r hr => (exPacket_ok.2.1 r hr).2.2.2.2.2.2.1)⟩

/-- C99: the octets of a packet with records of several types satisfy the hypotheses. -/
example : ∃ d, ReceivedMessage ⟨true, true, true⟩ d (withCounts exPacket) d.length := by
  obtain ⟨b, -, h⟩ := C97_plain_partial ⟨true, true, true⟩ exPacket exPacket_ok exPacket_well
  exact ⟨b, C99_of_sent _ _ _ h⟩

/-- C99: and so does a message with compressed names: `a. MX 10 b.a.` in answer to a question for `a.`. -/
example : ReceivedMessage ⟨true, false, false⟩
    ([0, 1, 0x80, 0, 0, 1, 0, 1, 0, 0, 0, 0] ++ [1, 97, 0, 0, 15, 0, 1] ++
      [0xC0, 12, 0, 15, 0, 1, 0, 0, 0, 5, 0, 6] ++ [0, 10, 1, 98, 0xC0, 12] ++ [7, 7])
    ⟨⟨1, ⟨0x80, 0⟩, 1, 1, 0, 0⟩, [⟨[[97]], .rr .MX, .IN, false⟩],
      [⟨[[97]], .MX, false, .IN, 5, .MX ⟨10, [[98], [97]]⟩⟩], [], []⟩ 37 := by
  have ha : ∀ d : Bytes, d[12]? = some 1 → (d.drop 12).take 2 = [1, 97] → d[14]? = some 0 → ∀ o,
      NameWith 63 (fun _ t => t < o) d 12 [[97]] 15 := by
    intro d h1 h2 h3 o
    have := getElem?_lt h3
    exact .label (len := 1) (by decide) (by decide) rfl (octets_iff.mpr ⟨rfl, by simp only [List.length_cons, List.length_nil]; omega, h2⟩) (.root h3)
  refine ⟨rfl, rfl, rfl, rfl, 12, 19, 37, 37, ?_, ⟨19, ⟨by simp [QReadable, Readable, dnssecTypes], 1, ?_, ?_⟩, rfl⟩,
    ⟨37, ⟨by simp [Readable, dnssecTypes], trivial, 1, 6, 31, ?_, ?_, rfl, by decide, rfl, _, rfl, ?_⟩, rfl⟩, rfl, rfl⟩
  · refine ⟨2, octets_iff.mpr (by decide), 3, ?_, 4, octets_iff.mpr (by decide), 6, octets_iff.mpr (by decide), 8, octets_iff.mpr (by decide), 10,
      octets_iff.mpr (by decide), 12, octets_iff.mpr (by decide), rfl⟩
    exact octets_iff.mpr (by decide)
  · exact ⟨by decide, by decide⟩
  · refine ⟨15, ?_, 17, octets_iff.mpr (by decide), 19, octets_iff.mpr (by decide), rfl⟩
    exact .label (len := 1) (by decide) (by decide) rfl (octets_iff.mpr (by decide)) (.root rfl)
  · exact ⟨by decide, by decide⟩
  · refine ⟨21, ?_, 23, octets_iff.mpr (by decide), 25, octets_iff.mpr (by decide), 29, octets_iff.mpr (by decide),
      31, octets_iff.mpr (by decide), rfl⟩
    exact .pointer (hi := 0xC0) (lo := 12) (by decide) (octets_iff.mpr (by decide)) (by decide) (ha _ rfl rfl rfl _)
  · refine ⟨33, octets_iff.mpr (by decide), 37, ?_, rfl⟩
    exact .label (len := 1) (by decide) (by decide) rfl (octets_iff.mpr (by decide))
      (.pointer (hi := 0xC0) (lo := 12) (by decide) (octets_iff.mpr (by decide)) (by decide) (ha _ rfl rfl rfl _))

example : ∀ r ∈ records exPacket, Writable ⟨true, true, true⟩ 63 r.rdata ∧ ReadWell r.rdata := by
  intro r hr
  refine ⟨(exPacket_ok.2.1 r hr).2.2.2.2.2.2.1, ?_⟩
  simp only [records, exPacket, exRecord, List.cons_append, List.nil_append, List.mem_cons, List.not_mem_nil,
    or_false] at hr
  rcases hr with rfl | rfl | rfl | rfl <;> trivial

/-- A message with one record, given the items of its data. -/
theorem received_one {cfg : Cfg} {r : ResourceRecord} (h : RecordOk cfg 63 r) {its : List Item}
    (ht : r.rdata.type = r.type) (hs : RDataStrict cfg r.rdata its) (hf : ∀ it ∈ its, it.Fits 63)
    (ho : ∀ it ∈ its.dropLast, it.Open) (hl : (Items.octets its).length < 65536) (d : Bytes)
    (hd : d = Items.octets (headerItems (onePacket r).header) ++
      Items.octets (recordHead r (r.classBits cfg) (UInt16.ofNat (Items.octets its).length)) ++ Items.octets its) :
    ReceivedMessage cfg d (onePacket r) d.length := by
  subst hd
  have hN := legalName_extends
  have hp : ∀ pre n, Good 63 n → LegalName (pre ++ nameOctets n) pre.length n (pre ++ nameOctets n).length :=
    fun pre n h => plain_legal (nameWith_plain_end (max := 63) (by omega) _ pre n h)
  refine ⟨rfl, rfl, rfl, rfl, (Items.octets (headerItems (onePacket r).header)).length, _, _, _, ?_, rfl,
    ⟨_, recordAt_parts hN h hl ?_ ⟨ht, its, hs, ?_⟩, rfl⟩, rfl, rfl⟩
  · have := items_plain hN hp (headerItems (onePacket r).header) [] (by simp [headerItems, Item.Fits])
      (by simp [headerItems, Item.Open])
    rw [List.append_assoc]
    exact items_extend hN (by simp [headerItems, Item.Open]) (by simpa using this) _
  · exact items_plain hN hp _ _ (by simp only [recordHead, List.forall_mem_cons]; exact ⟨h.1, by simp [Item.Fits, o16]⟩)
      (by simp [recordHead, Item.Open, o16])
  · exact items_plain hN hp _ _ hf ho

/-- C99 is false: messages with an SSHFP record, an IPSECKEY record without gateway or an APL record
with a prefix of three octets are not read as what they say. -/
theorem C99_counterexamples : ∀ x ∈ ([
      (⟨[[97]], .SSHFP, false, .IN, 5, .SSHFP ⟨.RSA, .SHA1, [2, 7, 7]⟩⟩, [1, 1, 2, 7, 7]),
      (⟨[[97]], .IPSECKEY, false, .IN, 5, .IPSECKEY ⟨10, .RSA, .none, [1, 2, 3]⟩⟩, [10, 0, 1, 1, 2, 3]),
      (⟨[[97]], .APL, false, .IN, 5, .APL ⟨24, false, .ipV4 0x0A010200⟩⟩, [0, 1, 24, 3, 10, 1, 2])] :
        List (ResourceRecord × Bytes)),
    ∃ d, d = [0, 1, 128, 0, 0, 0, 0, 1, 0, 0, 0, 0, 1, 97, 0] ++ octets16 (UInt16.ofNat (typeNumber x.1.type)) ++
        [0, 1, 0, 0, 0, 5, 0, UInt8.ofNat x.2.length] ++ x.2 ∧
      ReceivedMessage ⟨true, true, true⟩ d (onePacket x.1) d.length ∧
      Writable ⟨true, true, true⟩ 63 x.1.rdata ∧
      Packet.parse ⟨true, true, true⟩ d ≠ .ok (onePacket x.1) := by
  intro x hx
  simp only [List.mem_cons, List.not_mem_nil, or_false] at hx
  rcases hx with rfl | rfl | rfl
  · refine ⟨_, rfl, received_one (its := [o8 1, o8 1, .rest [2, 7, 7]]) ?_ rfl ?_ ?_ ?_ ?_ _ ?_, trivial, by decide +kernel⟩
    · exact ⟨by decide, by simp [Readable], rfl, trivial, by decide, by decide, trivial, fun b hb => by cases hb; decide⟩
    · exact rfl
    · simp [Item.Fits, o8]
    · simp [Item.Open, o8]
    · decide
    · decide
  · refine ⟨_, rfl, received_one (its := [.u8 10, o8 0, o8 1, .rest [1, 2, 3]]) ?_ rfl ?_ ?_ ?_ ?_ _ ?_, trivial, by decide +kernel⟩
    · exact ⟨by decide, by simp [Readable], rfl, trivial, by decide, by decide, trivial, fun b hb => by cases hb; decide⟩
    · exact rfl
    · simp [Item.Fits, o8]
    · simp [Item.Open, o8]
    · decide
    · decide
  · refine ⟨_, rfl, received_one (its := [o16 1, .u8 24, o8 3, .raw [10, 1, 2]]) ?_ rfl ?_ ?_ ?_ ?_ _ ?_, trivial,
      by decide +kernel⟩
    · exact ⟨by decide, by simp [Readable], rfl, trivial, by decide, by decide, trivial, fun b hb => by cases hb; decide⟩
    · exact ⟨[10, 1, 2], rfl, ⟨by decide, by decide⟩, by decide⟩
    · simp [Item.Fits, o8, o16]
    · simp [Item.Open, o8, o16]
    · decide
    · decide

end Dns
