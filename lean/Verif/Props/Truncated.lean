import Verif.Props.Exactly
import Verif.Props.Sizes
import Verif.Props.Signed
import Verif.Lemmas.Swallow

/-! C100: what arrives of a signature that is written with `to_bytes()`. -/

namespace Dns
open Spec Buf

/-- The record with a signature that lacks its last octet. -/
def cutSignature (x : ResourceRecord) (r : Rrsig) : ResourceRecord :=
  { x with rdata := .RRSIG { r with signature := r.signature.dropLast } }

theorem cutSignature_ok {cfg : Cfg} {x : ResourceRecord} {r : Rrsig} (h : RecordOk cfg 191 x)
    (hx : x.rdata = .RRSIG r) : RecordOk cfg 191 (cutSignature x r) := by
  obtain ⟨h1, h2, h3, h4, h5, h6, h7, h8⟩ := h
  rw [hx] at h3 h7 h8
  refine ⟨h1, h2, h3, h4, h5, h6, h7, fun b hb => ?_⟩
  have h9 := h8 _ rfl
  cases hb
  simp only [Rrsig.toBytes, List.length_append, List.length_dropLast] at h9 ⊢
  omega

theorem cut_read {cfg : Cfg} {x : ResourceRecord} {r : Rrsig} (h : RecordOk cfg 191 x)
    (hx : x.rdata = .RRSIG r) (hr : r.signature ≠ []) {b : Bytes} (pre post : Bytes) (hb : x.toBytes cfg = .ok b) :
    RecordAtWith (ParsedData cfg) Decodes cfg (pre ++ b ++ post) pre.length (cutSignature x r)
      (pre.length + b.length - 1) := by
  have hn : Good 191 x.name := h.1
  have hk := cutSignature_ok h hx
  obtain ⟨s, z, hs⟩ : ∃ s z, r.signature = s ++ [z] :=
    ⟨_, _, (List.dropLast_append_getLast hr).symm⟩
  obtain ⟨data', h5, _⟩ := RecordData.read_back (Nat.le_refl 191) hk.2.2.2.2.2.2.1
    (by intro y hy; simp [cutSignature] at hy) []
  have hd : x.rdata.toBytes cfg = .ok (data' ++ [z]) := by
    cases h5
    rw [hx]
    simp [RecordData.toBytes, Rrsig.toBytes, hs]
  have hdl := h.2.2.2.2.2.2.2 _ hd
  obtain ⟨n, h3, h4⟩ := RecordData.size h.2.2.2.2.2.2.1.sets hd
  rw [hx] at h4
  simp only [sizeError, List.length_append, List.length_singleton] at h4 hdl
  obtain rfl : n = data'.length := by omega
  let head := Items.octets (recordHead (cutSignature x r) ((cutSignature x r).classBits cfg) (UInt16.ofNat data'.length))
  have hb' : x.toBytes cfg = .ok (head ++ data' ++ [z]) := by
    unfold ResourceRecord.toBytes
    rw [h3, hd]
    simp [bind, Res.bind, pure, head, recordHead, Items.octets, Item.octets, o16, NameOk.toBytes h.1,
      RecordType.toU16_eq, u16be_eq, u32be_eq, lenU16, cutSignature, ResourceRecord.classBits]
    rfl
  rw [hb] at hb'
  cases hb'
  have h1 : Items.At Decodes (pre ++ head) pre.length
      (recordHead (cutSignature x r) ((cutSignature x r).classBits cfg) (UInt16.ofNat data'.length))
      (pre ++ head).length :=
    items_decode (Nat.le_refl 191) _ pre (by simpa [recordHead, Item.Fits, o16, cutSignature] using hn)
      (by simp [recordHead, Item.Open, o16])
  obtain ⟨b2, h6, h7⟩ := RecordData.read_back (Nat.le_refl 191) hk.2.2.2.2.2.2.1
    (by intro y hy; simp [cutSignature] at hy) (pre ++ head)
  rw [h5] at h6
  cases h6
  have h8 := recordAt_extend decodes_extends (recordAt_of_parts hk (by omega) h1 h7) ([z] ++ post)
  have e1 : pre ++ (head ++ data' ++ [z]) ++ post = pre ++ head ++ data' ++ ([z] ++ post) := by
    simp only [List.append_assoc]
  have e2 : pre.length + (head ++ data' ++ [z]).length - 1 = (pre ++ head ++ data').length := by
    simp only [List.length_append, List.length_singleton]; omega
  rw [e1, e2]
  exact h8

/-- C100: whoever reads an RRSIG record that was written with `to_bytes()`, wherever it is in a message and
whatever follows, gets the record with a signature that lacks its last octet, and goes on one octet too early. -/
theorem C100_plain_record (cfg : Cfg) (x : ResourceRecord) (r : Rrsig) (h : RecordOk cfg 191 x)
    (hx : x.rdata = .RRSIG r) (hr : r.signature ≠ []) (b pre post : Bytes) (hb : x.toBytes cfg = .ok b) :
    ResourceRecord.parse cfg (pre ++ b ++ post) pre.length =
      (.ok { x with rdata := .RRSIG { r with signature := r.signature.dropLast } }, pre.length + b.length - 1) :=
  ResourceRecord.parse_ok.mpr (cut_read h hx hr pre post hb)

/-- C100: the signature of the example. -/
example : RecordOk ⟨true, true, true⟩ 191 ⟨[[97]], .RRSIG, false, .IN, 60, .RRSIG signedSig⟩ ∧ signedSig.signature ≠ [] :=
  ⟨signedPacket_ok.2.1 _ (by simp [records, signedPacket]), by decide⟩

theorem listAt_prefix {α : Type} {R : Nat → α → Nat → Prop}
    (hf : ∀ i x y j k, R i x j → R i y k → x = y ∧ j = k) : ∀ (ys xs : List α) (i m e : Nat),
    ListAt R i ys m → ListAt R i xs e → ys.length ≤ xs.length → ∃ zs, xs = ys ++ zs ∧ ListAt R m zs e := by
  intro ys
  induction ys with
  | nil => intro xs i m e h1 h2 _; exact ⟨xs, rfl, by rw [← show i = m from h1]; exact h2⟩
  | cons y ys ih =>
    intro xs i m e h1 h2 hl
    cases xs with
    | nil => simp at hl
    | cons x xs =>
      obtain ⟨a, h3, h4⟩ := h1
      obtain ⟨c, h5, h6⟩ := h2
      obtain ⟨rfl, rfl⟩ := hf _ _ _ _ _ h3 h5
      obtain ⟨zs, rfl, h7⟩ := ih xs _ _ _ h4 h6 (by simpa using hl)
      exact ⟨zs, rfl, h7⟩

theorem recordAt_unique {cfg : Cfg} {d : Bytes} (i : Nat) (x y : ResourceRecord) (j k : Nat)
    (h1 : RecordAtWith (ParsedData cfg) Decodes cfg d i x j)
    (h2 : RecordAtWith (ParsedData cfg) Decodes cfg d i y k) : x = y ∧ j = k := by
  have h := (ResourceRecord.parse_ok.mpr h1).symm.trans (ResourceRecord.parse_ok.mpr h2)
  cases h; exact ⟨rfl, rfl⟩

theorem questionAt_unique {cfg : Cfg} {d : Bytes} (i : Nat) (x y : Question) (j k : Nat)
    (h1 : QuestionAt Decodes cfg d i x j) (h2 : QuestionAt Decodes cfg d i y k) : x = y ∧ j = k := by
  have h := (Question.parse_ok.mpr h1).symm.trans (Question.parse_ok.mpr h2)
  cases h; exact ⟨rfl, rfl⟩

/-- C100: whoever reads a message with a signed answer that was written with `to_bytes()`, whatever the other
records, questions and sections are and whatever follows, never gets the signature: if the message can be read
at all, then the record that arrives in the place of the first RRSIG record is the one with a signature that lacks
its last octet.  (The records before it are such that arrive, see C27.) -/
theorem C100_plain (cfg : Cfg) (p : Packet) (hp : PacketOk cfg 191 p) (good more : List ResourceRecord)
    (x : ResourceRecord) (r : Rrsig) (ha : p.answers = good ++ x :: more) (hx : x.rdata = .RRSIG r)
    (hr : r.signature ≠ [])
    (hg : ∀ y ∈ good, y.rdata.type ∉ [RecordType.SSHFP, .OPT, .RRSIG, .CAA] ∧ ∀ s, y.rdata = .SVCB s → s.params = [])
    (b rest : Bytes) (hb : p.toBytes cfg = .ok b) (p' : Packet) (h' : Packet.parse cfg (b ++ rest) = .ok p') :
    ∃ more', p'.answers =
      good ++ { x with rdata := .RRSIG { r with signature := r.signature.dropLast } } :: more' := by
  obtain ⟨hq, hrec, c1, c2, c3, c4⟩ := hp
  have hok : ∀ y ∈ p.answers, RecordOk cfg 191 y := fun y hy => hrec y (by simp [records, hy])
  rw [ha] at hok
  obtain ⟨b1, e1, l1⟩ := questions_read_back (Nat.le_refl 191) p.questions p.headerBytes hq
  unfold Packet.toBytes at hb
  rw [e1] at hb
  simp only [Res.bind_ok] at hb
  obtain ⟨d2, e2, d3, e3, e4⟩ := hb
  obtain ⟨b3, rfl⟩ := written_prefix _ e3
  obtain ⟨b4, rfl⟩ := written_prefix _ e4
  -- the records in front of the signature
  have hgf : ∀ y ∈ good, (∀ s, y.rdata ≠ .SSHFP s) ∧ sizeError y.rdata = 0 ∧ SetsOk y.rdata := by
    intro y hy
    have hw := (hok y (by simp [hy])).2.2.2.2.2.2.1
    have h1 := (faithful_iff hw).mpr (hg y hy)
    exact ⟨fun s hs => h1.1 (by rw [hs]; rfl), h1.2, hw.sets⟩
  obtain ⟨g, e5, l5⟩ := records_read_back (Nat.le_refl 191) good (p.headerBytes ++ b1)
    (fun y hy => hok y (by simp [hy])) hgf
  rw [ha, recordsBytes_append, e5] at e2
  have e2 : Packet.recordsBytes cfg (x :: more) (p.headerBytes ++ b1 ++ g) = .ok d2 := e2
  unfold Packet.recordsBytes at e2
  simp only [Res.bind_ok] at e2
  obtain ⟨xb, e6, e7⟩ := e2
  obtain ⟨mb, rfl⟩ := written_prefix _ e7
  -- what is read
  obtain ⟨end_, n1, n2, n3, n4, i1, i2, i3, i4, h1, h2, h3, h4, h5⟩ := Packet.parse_ok.mp h'
  have hh := header_items_at (withCounts p).header (b1 ++ g ++ xb ++ mb ++ b3 ++ b4 ++ rest)
  rw [← headerBytes_eq] at hh
  simp only [← List.append_assoc] at hh
  have hhd := ((Header.parse_ok (N := Decodes)).mpr h1).symm.trans ((Header.parse_ok (N := Decodes)).mpr hh)
  obtain ⟨hhe, rfl⟩ : p'.header = (withCounts p).header ∧ i1 = p.headerBytes.length := by
    rw [Prod.mk.injEq, Res.ok.injEq] at hhd; exact hhd
  obtain ⟨w1, w2, w3, w4⟩ := withCounts_ok c1 c2 c3 c4
  rw [hhe] at n1 n2
  have l1' := listAt_mono (fun i y j hy => questionAt_extend decodes_extends hy (g ++ xb ++ mb ++ b3 ++ b4 ++ rest)) _ _ _ l1
  simp only [← List.append_assoc] at l1'
  obtain ⟨zs, z1, z2⟩ := listAt_prefix questionAt_unique _ _ _ _ _ l1' h2
    (by rw [n1, w1]; exact Nat.le_refl _)
  have hz : zs = [] := by
    have := congrArg List.length z1
    rw [List.length_append, n1, w1] at this
    exact List.length_eq_zero_iff.mp (by have : (withCounts p).questions.length = p.questions.length := rfl; omega)
  subst hz
  obtain rfl : _ = i2 := z2
  have l5' := listAt_mono (fun i y j hy => recordAt_extend decodes_extends hy (xb ++ mb ++ b3 ++ b4 ++ rest)) _ _ _ l5
  simp only [← List.append_assoc] at l5'
  have hlen : p'.answers.length = good.length + (more.length + 1) := by
    rw [n2, w2]
    show p.answers.length = _
    rw [ha]; simp
  obtain ⟨zs, z3, z4⟩ := listAt_prefix recordAt_unique _ _ _ _ _ l5' h3 (by omega)
  cases zs with
  | nil => rw [z3] at hlen; simp at hlen
  | cons y zs =>
    obtain ⟨j, z5, _⟩ := z4
    have h6 := cut_read (hok x (by simp)) hx hr (p.headerBytes ++ b1 ++ g) (mb ++ b3 ++ b4 ++ rest) e6
    simp only [← List.append_assoc] at h6
    obtain ⟨rfl, _⟩ := recordAt_unique _ _ _ _ _ z5 h6
    exact ⟨zs, z3⟩

/-- C100: the signed answer of the example: the signature is the second record. -/
example : PacketOk ⟨true, true, true⟩ 191 signedPacket ∧ signedPacket.answers =
      [⟨[[97]], .A, false, .IN, 60, .A ⟨0x01000000⟩⟩] ++ ⟨[[97]], .RRSIG, false, .IN, 60, .RRSIG signedSig⟩ ::
        [⟨[[97]], .A, false, .IN, 60, .A ⟨0x02000000⟩⟩] := ⟨signedPacket_ok, rfl⟩

/-- C100: such messages are read, when the last octet of the signature and what follows happens to be a record, or when
the signature is the last record: then all that is lost is the last octet of the signature. -/
theorem C100_plain_read : ∃ p' : Packet, ∃ b,
    (⟨⟨1, ⟨0x84, 0⟩, 0, 1, 0, 0⟩, [], [⟨[[97]], .RRSIG, false, .IN, 60, .RRSIG signedSig⟩], [], []⟩ : Packet).toBytes
      ⟨true, true, true⟩ = .ok b ∧ Packet.parse ⟨true, true, true⟩ b = .ok p' ∧
    p'.answers = [⟨[[97]], .RRSIG, false, .IN, 60,
      .RRSIG { signedSig with signature := signedSig.signature.dropLast }⟩] := by
  refine ⟨⟨⟨1, ⟨0x84, 0⟩, 0, 1, 0, 0⟩, [], [⟨[[97]], .RRSIG, false, .IN, 60,
      .RRSIG { signedSig with signature := signedSig.signature.dropLast }⟩], [], []⟩, _, rfl, by decide +kernel, rfl⟩

end Dns
