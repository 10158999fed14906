import Verif.Lemmas.Fails
import Verif.Spec.Apart
import Verif.Lemmas.Size
import Verif.Lemmas.Overflow

/-! SVCB records with parameters: their RDLENGTH is too large, and what follows is read as parameters. -/

namespace Dns
open Spec Buf

theorem foldl_ids (ids : List Bytes) (s : Nat) :
    ids.foldl (fun acc a => acc + a.length + 1) s = s + ids.length + (ids.map List.length).sum := by
  induction ids generalizing s with
  | nil => simp
  | cons a ids ih => rw [List.foldl_cons, ih]; simp; omega

theorem mandatory_width {cfg : Cfg} {d : Bytes} : ∀ (fuel len : Nat) (acc keys : List ParamKey) (i j : Nat),
    Param.mandatoryLoop cfg fuel len acc d i = (.ok keys, j) → keys.length * 2 + i ≤ acc.length * 2 + j := by
  intro fuel
  induction fuel with
  | zero => intro len acc keys i j h; simp [Param.mandatoryLoop, Parser.lift] at h
  | succ fuel ih =>
    intro len acc keys i j h
    unfold Param.mandatoryLoop at h
    split at h
    · simp only [Parser.bind_ok, Parser.lift_ok] at h
      obtain ⟨v, k, h1, _, _, ⟨_, rfl⟩, _, _, ⟨_, rfl⟩, h2⟩ := h
      have h1 := (octets_iff.mp (extractU16_ok.mp h1)).1
      have h2 := ih _ _ _ _ _ h2
      have h3 := sum_btInsert ParamKey.ord (fun _ => 1) ‹_› acc
      simp [octets16] at h1 h3
      omega
    · rw [Parser.pure_ok] at h
      obtain ⟨rfl, rfl⟩ := h
      omega

/-- A parameter is not read from fewer octets than are written for it. -/
theorem Param.width {cfg : Cfg} {d : Bytes} {i j : Nat} {p : Param} (h : Param.parse cfg d i = (.ok p, j)) :
    p.byteSize + i ≤ j := by
  unfold Param.parse at h
  simp only [Parser.bind_ok, Parser.lift_ok] at h
  obtain ⟨v, k1, h1, key, _, ⟨hk, rfl⟩, len, k2, h2, h⟩ := h
  have h1 := (octets_iff.mp (extractU16_ok.mp h1)).1
  have h2 := (octets_iff.mp (extractU16_ok.mp h2)).1
  simp [octets16] at h1 h2
  cases key <;> simp only [Param.parseValue, Parser.bind_ok, Parser.pure_ok] at h
  case mandatory =>
    obtain ⟨_, _, h0, keys, _, h3, rfl, rfl⟩ := h
    cases h0
    have := mandatory_width _ _ _ _ _ _ h3
    simp [Param.byteSize] at this ⊢
    omega
  case alpn =>
    obtain ⟨_, _, h0, keys, _, h3, rfl, rfl⟩ := h
    cases h0
    have := alpn_size _ _ _ _ _ _ h3
    simp only [Param.byteSize, foldl_ids] at this ⊢
    simp at this
    omega
  case noDefaultAlpn => obtain ⟨rfl, rfl⟩ := h; simp [Param.byteSize]; omega
  case invalid => obtain ⟨rfl, rfl⟩ := h; simp [Param.byteSize]; omega
  case port =>
    obtain ⟨_, _, h3, rfl, rfl⟩ := h
    have h3 := (octets_iff.mp (extractU16_ok.mp h3)).1
    simp [Param.byteSize, octets16] at h3 ⊢; omega
  case ipV4Hint =>
    obtain ⟨_, _, h3, rfl, rfl⟩ := h
    have h3 := (octets_iff.mp (extractU32_ok.mp h3)).1
    simp [Param.byteSize, octets32] at h3 ⊢; omega
  case ipV6Hint =>
    obtain ⟨_, _, h3, rfl, rfl⟩ := h
    have h3 := (extractU128_ok (N := Decodes)).mp h3
    obtain ⟨b, h4, h5, -⟩ := h3
    have := (octets_iff.mp h4).1
    simp [Param.byteSize] at this ⊢; omega
  case ech =>
    obtain ⟨_, _, h3, rfl, rfl⟩ := h
    have h3 := (octets_iff.mp (extractBytes_ok.mp h3).2).1
    simp [Param.byteSize] at h3 ⊢; omega
  case «private» =>
    obtain ⟨_, _, h3, rfl, rfl⟩ := h
    have h3 := (octets_iff.mp (extractBytes_ok.mp h3).2).1
    simp [Param.byteSize] at h3 ⊢; omega

theorem params_width {cfg : Cfg} {d : Bytes} {s s' : List Param} {i j : Nat} (hl : Loop (Svcb.step cfg) d s i s' j) :
    (s'.map Param.byteSize).sum + i ≤ (s.map Param.byteSize).sum + j := by
  induction hl with
  | done => omega
  | @step acc _ _ _ _ _ h1 h2 _ ih =>
    obtain ⟨_, _, p, hp, rfl⟩ := Svcb.step_ok.mp h2
    have := Param.width hp
    have := sum_btInsert Param.ord Param.byteSize p acc
    omega

/-- The loop over the parameters gets past those that are written one after the other. -/
theorem loop_past {cfg : Cfg} {N : NameRel} {d : Bytes} {s' : List Param} {j : Nat} :
    ∀ (ps acc : List Param) (i k : Nat), (∀ p ∈ ps, paramOk p) →
    Items.At N d i (ps.flatMap paramItems) k → Loop (Svcb.step cfg) d acc i s' j →
    ∃ acc', Loop (Svcb.step cfg) d acc' k s' j := by
  intro ps
  induction ps with
  | nil =>
    intro acc i k _ h hl
    obtain rfl : i = k := h
    exact ⟨acc, hl⟩
  | cons p ps ih =>
    intro acc i k hk h hl
    rw [List.flatMap_cons, itemsAt_append] at h
    obtain ⟨m, h1, h2⟩ := h
    have he := paramItems_end h1
    cases hl with
    | done => omega
    | step h3 h4 h5 =>
      obtain ⟨_, _, q, hq, rfl⟩ := Svcb.step_ok.mp h4
      have hp := Param.parse_complete cfg (hk p List.mem_cons_self) h1
      rw [hp] at hq
      cases hq
      exact ih _ _ _ (fun q hq => hk q (List.mem_cons_of_mem _ hq)) h2 h5

/-- The octet at which the loop goes on is the first one of a known key. -/
theorem loop_key {cfg : Cfg} {d : Bytes} {acc s' : List Param} {k j : Nat} (hl : Loop (Svcb.step cfg) d acc k s' j)
    (hk : k < d.length) : d[k]? = some 0 ∨ d[k]? = some 255 := by
  cases hl with
  | done => omega
  | step h1 h2 _ =>
    obtain ⟨_, _, q, hq, -⟩ := Svcb.step_ok.mp h2
    unfold Param.parse at hq
    simp only [Parser.bind_ok, Parser.lift_ok] at hq
    obtain ⟨v, k1, h3, key, _, ⟨h4, -⟩, -⟩ := hq
    have h5 := keyKnown_iff.mp ⟨key, h4⟩
    have h6 := extractU16_ok.mp h3
    have h7 : d[k]? = some (v >>> 8).toUInt8 := octets_cons_getElem? h6
    have h8 : (v >>> 8).toUInt8.toNat = v.toNat / 256 := by
      have := v.toNat_lt
      simp [Nat.shiftRight_eq_div_pow]; omega
    have h9 := v.toNat_lt
    rw [h7]
    rcases h5 with h5 | h5
    · left; congr 1; apply UInt8.toNat_inj.mp; rw [h8, Nat.div_eq_of_lt (by omega)]; rfl
    · right; congr 1; apply UInt8.toNat_inj.mp; rw [h8]; show v.toNat / 256 = 255; omega

/-- A written SVCB record with parameters is only read as the same record if the octet behind it is 0
or 255. -/
theorem svcb_swallows {cfg : Cfg} {max : Nat} (hmax : max ≤ 191) {r : ResourceRecord} (h : RecordOk cfg max r)
    {s : Svcb} (hs : r.rdata = .SVCB s) (hne : s.params ≠ []) {b pre e : Bytes} {j : Nat}
    (hb : r.toBytes cfg = .ok b) (hj : ResourceRecord.parse cfg (pre ++ b ++ e) pre.length = (.ok r, j)) :
    e[0]? = some 0 ∨ e[0]? = some 255 := by
  obtain ⟨n, data, h1, h2, h3, h4, rfl⟩ := record_octets h hb
  obtain ⟨-, pre', ⟨e', h6⟩, h7⟩ := record_data hmax h hj
  have hw := h.2.2.2.2.2.2.1
  rw [hs] at h1 h2 h4 h6 hw
  have ht : r.type = .SVCB := by rw [← h.2.2.1, hs]; rfl
  rw [ht] at h6
  have hd : s.toBytes cfg = .ok data := by simpa [RecordData.toBytes] using h2
  have hlen := svcb_params_length hd
  have hpos : 0 < s.params.length := List.length_pos_iff.mpr hne
  simp only [sizeError] at h4
  obtain ⟨hn, -, hp⟩ := hw
  have hn' : Good 191 s.targetName := Good.mono hn hmax
  have hps := Svcb.paramBytes_ok cfg hp
  have hdata : data = octets16 s.priority ++ nameOctets s.targetName ++ Items.octets (s.params.flatMap paramItems) := by
    simp only [Svcb.toBytes, hps, Res.bind_ok] at hd
    obtain ⟨x, hx, hd⟩ := hd
    cases hx; cases hd
    rw [NameOk.toBytes hn, u16be_eq]
  have hsum := Svcb.params_size cfg _ _ hps
  have hlen' := congrArg List.length hdata
  simp only [List.length_append, octets16_length] at hlen'
  generalize hm : n % 65536 = m at h6 h7
  have hT : ((data ++ e).take m).length = m := by rw [List.length_take]; omega
  have hD : (pre' ++ (data ++ e).take m).length = pre'.length + m := by rw [List.length_append, hT]
  simp only [RecordData.parse, Svcb.parse, Parser.bind_ok, Parser.pure_ok] at h6
  obtain ⟨s', _, ⟨p, k1, g1, nm, k2, g2, ps, k3, g3, rfl, rfl⟩, g4, rfl⟩ := h6
  cases g4
  have g1 := (octets_iff.mp (extractU16_ok.mp g1)).1
  rw [octets16_length] at g1
  have g3 := loop_of_fuel _ _ _ _ _ g3
  -- the name is where it was written
  have g5 := decodes_extends _ ((data ++ e).drop m) _ _ _ g2
  rw [List.append_assoc, List.take_append_drop] at g5
  have g6 := decodes_extends _ (Items.octets (ps.flatMap paramItems) ++ e) _ _ _
    (decodes_plain (pre' ++ octets16 p) nm hn')
  rw [show pre' ++ octets16 p ++ nameOctets nm ++ (Items.octets (ps.flatMap paramItems) ++ e) = pre' ++ (data ++ e) by
    rw [hdata]; simp] at g6
  rw [List.length_append, octets16_length, ← g1] at g6
  obtain ⟨-, g7⟩ := decodes_fun g5 g6
  simp only [List.length_append, octets16_length] at g7
  have g8 := params_width g3
  have g9 : k3 ≤ (pre' ++ (data ++ e).take m).length := by
    have : ∀ {x y : List Param} {a b : Nat} {d : Bytes}, Loop (Svcb.step cfg) d x a y b → b ≤ d.length := by
      intro x y a b d hl
      induction hl with
      | done => exact Nat.le_refl _
      | step _ _ _ ih => exact ih
    exact this g3
  simp only [List.map_nil, List.sum_nil] at g8
  dsimp only at hsum hlen' h4 hpos hlen
  have hmn : m = data.length + 4 * ps.length := by omega
  have hcut : (data ++ e).take m = data ++ e.take (4 * ps.length) := by
    rw [hmn, List.take_append]; simp
  have g10 := items_decode hmax (ps.flatMap paramItems) (pre' ++ octets16 p ++ nameOctets nm)
    (fun it hit => by
      obtain ⟨q, hq, hmem⟩ := List.mem_flatMap.mp hit
      simp only [paramItems, List.mem_cons, List.not_mem_nil, or_false] at hmem
      have := (hp q hq).2
      rcases hmem with rfl | rfl
      · trivial
      · show _ < 65536
        omega)
    (fun it hit => by
      obtain ⟨q, hq, hmem⟩ := List.mem_flatMap.mp (List.mem_of_mem_dropLast hit)
      simp only [paramItems, List.mem_cons, List.not_mem_nil, or_false] at hmem
      rcases hmem with rfl | rfl <;> trivial)
  have g11 := items_extend decodes_extends (fun it hit => by
      obtain ⟨q, hq, hmem⟩ := List.mem_flatMap.mp hit
      simp only [paramItems, List.mem_cons, List.not_mem_nil, or_false] at hmem
      rcases hmem with rfl | rfl <;> trivial) g10 (e.take (4 * ps.length))
  rw [show pre' ++ octets16 p ++ nameOctets nm ++ Items.octets (ps.flatMap paramItems) = pre' ++ data by
    rw [hdata]; simp] at g11
  rw [List.append_assoc pre' data, ← hcut] at g11
  rw [show (pre' ++ octets16 p ++ nameOctets nm).length = k2 by simp [octets16_length]; omega] at g11
  obtain ⟨acc, g12⟩ := loop_past ps [] k2 _ (fun q hq => (hp q hq).1) g11 g3
  have g13 := loop_key g12 (by rw [hD, List.length_append]; omega)
  rw [hcut, ← List.append_assoc, List.getElem?_append_right (Nat.le_refl _), Nat.sub_self, List.getElem?_take] at g13
  rw [if_pos (by omega)] at g13
  exact g13

/-- The first octet of a written record: 0 for the root, or the length of the first label. -/
theorem record_first {cfg : Cfg} {r : ResourceRecord} (h : RecordOk cfg 191 r) {b : Bytes}
    (hb : r.toBytes cfg = .ok b) (hn : r.name ≠ []) (e : Bytes) :
    (b ++ e)[0]? ≠ some 0 ∧ (b ++ e)[0]? ≠ some 255 := by
  obtain ⟨n, data, -, -, -, -, rfl⟩ := record_octets h hb
  cases hx : r.name with
  | nil => exact absurd hx hn
  | cons l n =>
    have hl := h.1 l (by rw [hx]; exact List.mem_cons_self)
    have h1 : ∀ t : Bytes, (Items.octets (recordHead r (r.classBits cfg) (UInt16.ofNat ‹_›)) ++ data ++ e)[0]? =
        some (UInt8.ofNat l.length) := by
      intro t
      simp [Items.octets, recordHead, Item.octets, hx, nameOctets]
    rw [h1 []]
    constructor <;> intro h2 <;>
    · have h3 := congrArg UInt8.toNat (Option.some.inj h2)
      rw [UInt8.toNat_ofNat_of_lt' (by simp [UInt8.size]; omega)] at h3
      have h4 : (0 : UInt8).toNat = 0 := rfl
      have h5 : (255 : UInt8).toNat = 255 := rfl
      omega

theorem recordsBytes_append (cfg : Cfg) (rs rs' : List ResourceRecord) (bin : Bytes) :
    Packet.recordsBytes cfg (rs ++ rs') bin =
      (Packet.recordsBytes cfg rs bin >>= fun b => Packet.recordsBytes cfg rs' b) := by
  induction rs generalizing bin with
  | nil => rfl
  | cons r rs ih =>
    show (r.toBytes cfg >>= fun b => Packet.recordsBytes cfg (rs ++ rs') (bin ++ b)) = _
    show _ = ((r.toBytes cfg >>= fun b => Packet.recordsBytes cfg rs (bin ++ b)) >>= _)
    cases r.toBytes cfg <;> first | exact ih _ | rfl

theorem records_apart_fail {cfg : Cfg} : ∀ (rs : List ResourceRecord) (bin b : Bytes) (j : Nat),
    (∀ r ∈ rs, RecordOk cfg 191 r) → Apart rs →
    Packet.recordsBytes cfg rs bin = .ok (bin ++ b) →
    ListAt (RecordAtWith (ParsedData cfg) Decodes cfg (bin ++ b)) bin.length rs j →
    ∀ r ∈ rs, r.rdata.type ≠ .SSHFP ∧ sizeError r.rdata = 0 := by
  intro rs
  induction rs with
  | nil => intro bin b j _ _ hb h r hr; cases hr
  | cons r rs ih =>
    rintro bin b j hr hv hb ⟨k, h1, h2⟩
    unfold Packet.recordsBytes at hb
    simp only [Res.bind_ok] at hb
    obtain ⟨a, h3, h4⟩ := hb
    obtain ⟨b', h5⟩ := written_prefix rs h4
    rw [List.append_assoc] at h5
    obtain rfl := List.append_cancel_left h5
    rw [← List.append_assoc] at h4 h1 h2
    have hp1 := ResourceRecord.parse_ok.mpr h1
    have h6 := record_fails (Nat.le_refl 191) (hr r List.mem_cons_self) h3 hp1
    have hz : sizeError r.rdata = 0 := by
      by_cases ht : r.rdata.type = .SVCB
      · cases hx : r.rdata <;> rw [hx] at ht <;> first | (simp [RecordData.type] at ht; done) | skip
        rename_i s
        by_cases hne : s.params = []
        · simp [sizeError, hne]
        exfalso
        have h7 := svcb_swallows (Nat.le_refl 191) (hr r List.mem_cons_self) hx hne h3 hp1
        cases rs with
        | nil =>
          have h4 := Res.ok.inj h4
          have : b' = [] := by simpa using h4
          rw [this] at h7
          simp at h7
        | cons r' c =>
          rcases hv [] r r' c rfl with h8 | h8
          · exact hne (h8 s hx)
          · unfold Packet.recordsBytes at h4
            simp only [Res.bind_ok] at h4
            obtain ⟨a', h9, h10⟩ := h4
            obtain ⟨b'', h11⟩ := written_prefix c h10
            rw [List.append_assoc (bin ++ a)] at h11
            obtain rfl := List.append_cancel_left h11
            have h12 := record_first (hr r' (by simp)) h9 h8 b''
            rcases h7 with h7 | h7
            · exact h12.1 h7
            · exact h12.2 h7
      · exact h6.2 (.inl ht)
    obtain ⟨a', h7, h8⟩ := ResourceRecord.read_back (Nat.le_refl 191) (hr r List.mem_cons_self)
      (fun x hx => h6.1 (by rw [hx]; rfl)) hz (hr r List.mem_cons_self).2.2.2.2.2.2.1.sets bin
    rw [h3] at h7
    cases h7
    have h9 := recordAt_extend decodes_extends h8 b'
    obtain rfl := recordAt_fun _ _ _ _ h1 h9
    have h10 := ih (bin ++ a) b' j (fun x hx => hr x (List.mem_cons_of_mem _ hx))
      (fun x y z c hc => hv (r :: x) y z c (by rw [hc]; rfl)) h4 h2
    intro x hx
    rcases List.mem_cons.mp hx with rfl | hx
    · exact ⟨h6.1, hz⟩
    · exact h10 x hx

theorem Packet.not_read_back_apart {cfg : Cfg} {p : Packet} (hp : PacketOk cfg 191 p)
    (hv : Apart (records p)) {b : Bytes}
    (hb : p.toBytes cfg = .ok b) (h : Packet.parse cfg b = .ok (withCounts p)) :
    ∀ r ∈ records p, r.rdata.type ≠ .SSHFP ∧ sizeError r.rdata = 0 := by
  obtain ⟨hq, hr, c1, c2, c3, c4⟩ := hp
  obtain ⟨b1, e1, l1⟩ := questions_read_back (Nat.le_refl 191) p.questions p.headerBytes hq
  have hb' : Packet.recordsBytes cfg (records p) (p.headerBytes ++ b1) = .ok b := by
    unfold Packet.toBytes at hb
    rw [e1] at hb
    rw [records, recordsBytes_append, recordsBytes_append]
    simp only [Res.bind_ok] at hb ⊢
    obtain ⟨c2, e2, c3, e3, e4⟩ := hb
    exact ⟨c3, ⟨c2, e2, e3⟩, e4⟩
  obtain ⟨b2, rfl⟩ := written_prefix _ hb'
  obtain ⟨end_, _, _, _, _, i1, i2, i3, i4, h1, h2, h3, h4, h5⟩ := Packet.parse_ok.mp h
  have h6 : i1 = p.headerBytes.length := by
    have h7 := header_items_at (withCounts p).header (b1 ++ b2)
    rw [← headerBytes_eq] at h7
    simp only [List.append_assoc] at h1 h7
    simp only [headerItems, Items.At, Item.At] at h1 h7
    obtain ⟨_, n1, _, n2, _, n3, _, n4, _, n5, _, n6, _, n7, rfl⟩ := h1
    obtain ⟨_, m1, _, m2, _, m3, _, m4, _, m5, _, m6, _, m7, m8⟩ := h7
    rw [← m8]
    rw [n7.end_eq, n6.end_eq, n5.end_eq, n4.end_eq, n3.end_eq, n2.end_eq, n1.end_eq,
      m7.end_eq, m6.end_eq, m5.end_eq, m4.end_eq, m3.end_eq, m2.end_eq, m1.end_eq]
  subst h6
  have h8 := listAt_mono (fun i x j hx => questionAt_extend decodes_extends hx b2) _ _ _ l1
  obtain rfl := listAt_fun questionAt_fun _ _ _ _ h2 h8
  exact records_apart_fail (records p) (p.headerBytes ++ b1) b2 end_ hr hv hb'
    (listAt_append.mpr ⟨i4, listAt_append.mpr ⟨i3, h3, h4⟩, h5⟩)

end Dns
