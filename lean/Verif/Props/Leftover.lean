import Verif.Props.RData
import Verif.Props.Svcb
import Verif.Props.PacketWire
import Verif.Lemmas.Fails
import Verif.Props.Receive

/-!
Nothing in the RDATA of a record is left unread (C103).
-/

namespace Dns
open Spec

/-- The types whose format extends to the end of the RDATA (key material, bitmaps, lists, ...). -/
def Spec.ToTheEnd : RecordType → Prop
  | .NULL | .WKS | .TXT | .OPT | .DS | .IPSECKEY | .RRSIG | .NSEC | .DNSKEY | .DHCID | .TLSA | .HIP
  | .CDS | .CDNSKEY | .OPENPGPKEY | .CSYNC | .SVCB | .URI | .CAA => True
  | _ => False

instance (t : RecordType) : Decidable (ToTheEnd t) := by unfold ToTheEnd; split <;> infer_instance

theorem items_closed {N : NameRel} {d : Bytes} : ∀ {its : List Item} {i j : Nat},
    (∃ it, its.getLast? = some it ∧ ¬ it.Open) → Items.At N d i its j → j = d.length
  | [], _, _, ⟨_, h, _⟩, _ => by simp at h
  | [it], i, j, ⟨_, h, ho⟩, ⟨_, h1, h2⟩ => by
    cases h
    cases h2
    cases it <;> first | exact (ho trivial).elim | exact h1.2 | exact h1.2.trans h1.1
  | _ :: _ :: _, _, _, ⟨it, h, ho⟩, ⟨_, _, h1⟩ =>
    items_closed ⟨it, by rwa [List.getLast?_cons_cons] at h, ho⟩ h1

theorem rdata_closed {cfg : Cfg} {r : RecordData} {its : List Item} (h : RData cfg r its)
    (ht : ToTheEnd r.type) : ∃ it, its.getLast? = some it ∧ ¬ it.Open := by
  cases r <;> first | exact ht.elim | skip
  case IPSECKEY r => cases h; exact ⟨.rest r.publicKey, List.getLast?_concat .., id⟩
  case TXT r => obtain ⟨ws, rfl, -⟩ := h; exact ⟨.eof, List.getLast?_concat .., id⟩
  case OPT r => obtain ⟨ws, rfl, -⟩ := h; exact ⟨.eof, List.getLast?_concat .., id⟩
  case NSEC r => obtain ⟨ws, rfl, -⟩ := h; exact ⟨.eof, List.getLast?_concat .., id⟩
  case CSYNC r => obtain ⟨ws, rfl, -⟩ := h; exact ⟨.eof, List.getLast?_concat .., id⟩
  case HIP r => obtain ⟨-, -, -, rfl⟩ := h; exact ⟨.eof, List.getLast?_concat .., id⟩
  case SVCB r => obtain ⟨rfl, -⟩ := h; exact ⟨.eof, List.getLast?_concat .., id⟩
  case RRSIG r => obtain ⟨-, rfl⟩ := h; exact ⟨_, rfl, id⟩
  case CAA r => obtain ⟨_, _, rfl, -⟩ := h; exact ⟨_, rfl, id⟩
  case DNSKEY r => obtain ⟨_, rfl, -⟩ := h; exact ⟨_, rfl, id⟩
  case CDNSKEY r => obtain ⟨_, rfl, -⟩ := h; exact ⟨_, rfl, id⟩
  all_goals cases h; exact ⟨_, rfl, id⟩

theorem rdata_open {cfg : Cfg} {r : RecordData} {its : List Item} (h : RData cfg r its)
    (ht : ¬ ToTheEnd r.type) (hs : r.type ≠ .SSHFP) : ∀ it ∈ its, it.Open := by
  cases r <;> first | exact (ht trivial).elim | exact (hs rfl).elim | skip
  case APL r => obtain ⟨_, rfl, -⟩ := h; simp [Item.Open, o16, o8]
  case NAPTR r => obtain ⟨_, rfl, -⟩ := h; simp [Item.Open]
  case TKEY r => obtain ⟨-, -, rfl⟩ := h; simp [Item.Open, o16]
  all_goals cases h; simp [Item.Open, o16]

/-- C103 (partial): data of these types are read up to the last octet.  What is missing: the other types
(false, see `C103_ignored`). -/
theorem C103_all_read_partial (cfg : Cfg) (t : RecordType) (d : Bytes) (i j : Nat) (r : RecordData)
    (h : RecordData.parse cfg t d i = (.ok r, j)) (ht : ToTheEnd t) : j = d.length := by
  obtain rfl := RecordData.parse_type h
  by_cases hx : Exact r
  · obtain ⟨-, its, h1, h2⟩ := (RecordData.parse_ok hx).mp h
    exact items_closed (rdata_closed h1 ht) h2
  · cases r <;> first | exact (hx trivial).elim | exact ht.elim | skip
    case IPSECKEY r =>
      have hg : r.gateway = .none := Classical.not_not.mp hx
      obtain ⟨x, h1⟩ := (C37_ipseckey_read cfg d i j r hg).mp h
      exact items_closed ⟨.rest r.publicKey, by simp, id⟩ h1
    case SVCB r =>
      simp only [RecordData.type, RecordData.parse, Svcb.parse, Parser.bind_ok, Parser.pure_ok] at h
      obtain ⟨_, k, ⟨p, k1, h1, n, k2, h2, l, k3, h3, rfl, rfl⟩, -, rfl⟩ := h
      exact (svcb_loop (loop_of_fuel _ _ _ _ _ h3)).1

/-- Text of two strings, read to its end. -/
example : RecordData.parse ⟨true, true, true⟩ .TXT [9, 1, 97, 2, 98, 99] 1 = (.ok (.TXT ⟨[[97], [98, 99]]⟩), 6) ∧
    ToTheEnd .TXT := by decide +kernel

/-- C103 is false for all other types: whatever follows the data is ignored. -/
theorem C103_ignored (cfg : Cfg) (t : RecordType) (d : Bytes) (i j : Nat) (r : RecordData)
    (h : RecordData.parse cfg t d i = (.ok r, j)) (ht : ¬ ToTheEnd t) (e : Bytes) :
    RecordData.parse cfg t (d ++ e) i = (.ok r, j) := by
  obtain rfl := RecordData.parse_type h
  by_cases hx : Exact r
  · obtain ⟨-, its, h1, h2⟩ := (RecordData.parse_ok hx).mp h
    refine (RecordData.parse_ok hx).mpr ⟨rfl, its, h1,
      items_extend decodes_extends (rdata_open h1 ht ?_) h2 e⟩
    intro hs
    cases r <;> first | exact hx | cases hs
  · cases r <;> first | exact (hx trivial).elim | exact (ht trivial).elim | skip
    case SSHFP r =>
      exact (C37_sshfp_read cfg (d ++ e) i j r).mpr (items_extend legalName_extends
        (by simp [Item.Open, o8]) ((C37_sshfp_read cfg d i j r).mp h) e)
    case APL r =>
      obtain ⟨len, part, h1, h2, h3, h4⟩ := (C37_apl_read cfg d i j r).mp h
      exact (C37_apl_read cfg (d ++ e) i j r).mpr ⟨len, part, h1, h2,
        items_extend legalName_extends (by simp [Item.Open, o16, o8]) h3 e, h4⟩

/-- A mail exchange and one octet behind it. -/
example : RecordData.parse ⟨true, true, true⟩ .MX [0, 5, 1, 97, 0] 0 = (.ok (.MX ⟨5, [[97]]⟩), 5) ∧
    RecordData.parse ⟨true, true, true⟩ .MX [0, 5, 1, 97, 0, 44] 0 = (.ok (.MX ⟨5, [[97]]⟩), 5) ∧
    ¬ ToTheEnd .MX := by decide +kernel

/-- C103, exactly: the types with data of which all octets are read. -/
theorem C103_exact (cfg : Cfg) (t : RecordType) :
    (∀ d i j r, RecordData.parse cfg t d i = (.ok r, j) → j = d.length) ↔ ToTheEnd t := by
  refine ⟨fun h => ?_, fun ht d i j r h => C103_all_read_partial cfg t d i j r h ht⟩
  by_contra ht
  have hd : ∃ d r j, RecordData.parse cfg t d 0 = (.ok r, j) := by
    cases t
    case APL => exact ⟨[0, 1, 0, 0], .APL ⟨0, false, .ipV4 0⟩, 4, rfl⟩
    case NAPTR => exact ⟨[0, 0, 0, 0, 0, 0, 0, 0], .NAPTR ⟨0, 0, [], [], [], []⟩, 8, by
      show RecordData.parse ⟨cfg.overflowChecks, cfg.mdns, cfg.dnssec⟩ _ _ _ = _
      generalize cfg.overflowChecks = a, cfg.mdns = b, cfg.dnssec = c
      revert a b c
      decide +kernel⟩
    case TKEY => exact ⟨[0, 0, 0, 0, 0, 0, 0, 0, 0, 0, 2, 0, 0, 0, 0, 0, 0], _, 17, rfl⟩
    all_goals first
      | exact (ht trivial).elim
      | exact ⟨List.replicate 40 0, _, _, rfl⟩
  obtain ⟨d, r, j, h1⟩ := hd
  have h2 := h _ _ _ _ h1
  have h3 := h _ _ _ _ (C103_ignored cfg t d 0 j r h1 ht [0])
  rw [List.length_append, ← h2] at h3
  simp at h3

/-- C103 for records in messages (partial): of a record of these types that was read, the RDLENGTH octets
behind its head, from `k` on, were all read. -/
theorem C103_record_partial (cfg : Cfg) (d : Bytes) (i j : Nat) (r : ResourceRecord)
    (h : ResourceRecord.parse cfg d i = (.ok r, j)) (ht : ToTheEnd r.type) :
    ∃ (k : Nat) (v len : UInt16), Items.At Decodes d i (recordHead r v len) k ∧ j = k + len.toNat ∧
      RecordData.parse cfg r.type (d.take j) k = (.ok r.rdata, j) := by
  obtain ⟨-, -, v, len, k, -, h1, h2, h3, e, h4⟩ := ResourceRecord.parse_ok.mp h
  refine ⟨k, v, len, h1, h2, ?_⟩
  have h5 := C103_all_read_partial _ _ _ _ _ _ h4 ht
  rw [h4, h5, List.length_take, Nat.min_eq_left h3]

/-- A text record in a message. -/
example : ResourceRecord.parse ⟨true, true, true⟩ [1, 97, 0, 0, 16, 0, 1, 0, 0, 0, 9, 0, 2, 1, 98, 7] 0 =
    (.ok ⟨[[97]], .TXT, false, .IN, 9, .TXT ⟨[[98]]⟩⟩, 15) ∧ ToTheEnd .TXT := by decide +kernel

/-- C103 is false for every record of the other types (except SSHFP, which is not read back at all): what
`to_bytes` writes ends with RDLENGTH and the data, and with any octets `e` behind the data and RDLENGTH
increased by their number it is read as the same record, wherever it stands. -/
theorem C103_padded (cfg : Cfg) (r : ResourceRecord) (hr : RecordOk cfg 63 r) (ht : ¬ ToTheEnd r.type)
    (hs : r.type ≠ .SSHFP) :
    ∃ head data, r.rdata.toBytes cfg = .ok data ∧
      r.toBytes cfg = .ok (head ++ octets16 (UInt16.ofNat data.length) ++ data) ∧
      ∀ pre e post : Bytes, data.length + e.length < 65536 →
        let b := head ++ octets16 (UInt16.ofNat (data.length + e.length)) ++ data ++ e
        ResourceRecord.parse cfg (pre ++ b ++ post) pre.length = (.ok r, (pre ++ b).length) := by
  have hw := hr.2.2.2.2.2.2.1
  have hne : ∀ x, r.rdata ≠ .SSHFP x := fun x hx => hs (by rw [← hr.2.2.1, hx]; rfl)
  obtain ⟨data, hd, -⟩ := RecordData.read_back (by decide) hw hne []
  obtain ⟨n, hn, h5⟩ := RecordData.size hw.sets hd
  have hz : sizeError r.rdata = 0 := by
    rw [← hr.2.2.1] at ht
    cases hrd : r.rdata <;> rw [hrd] at ht <;> first | rfl | exact (ht trivial).elim
  have hl : n = data.length := by rw [hz] at h5; omega
  subst hl
  have hb : r.toBytes cfg = .ok (Items.octets (recordHead r (r.classBits cfg) (UInt16.ofNat data.length))
      ++ data) := by
    have : r.toBytes cfg = .ok (r.name.toBytes ++ u16be r.type.toU16 ++ u16be (r.classBits cfg) ++
        u32be r.ttl ++ u16be (lenU16 data.length) ++ data) := by
      unfold ResourceRecord.toBytes
      rw [hn, hd]
      rfl
    rw [this]
    simp [recordHead, Items.octets, Item.octets, o16, NameOk.toBytes hr.1, RecordType.toU16_eq, u16be_eq,
      u32be_eq, lenU16]
  have split : ∀ len, Items.octets (recordHead r (r.classBits cfg) len) =
      (nameOctets r.name ++ octets16 (UInt16.ofNat (typeNumber r.type)) ++ octets16 (r.classBits cfg) ++
        octets32 r.ttl) ++ octets16 len := by
    intro len
    simp [recordHead, Items.octets, Item.octets, o16]
  refine ⟨_, data, hd, by rw [hb, split], fun pre e post he => ?_⟩
  intro b
  have hb' : b = Items.octets (recordHead r (r.classBits cfg) (UInt16.ofNat (data.length + e.length))) ++
      data ++ e := by rw [split]
  clear_value b
  subst hb'
  let head := Items.octets (recordHead r (r.classBits cfg) (UInt16.ofNat (data.length + e.length)))
  have h1 : Items.At Decodes (pre ++ head) pre.length
      (recordHead r (r.classBits cfg) (UInt16.ofNat (data.length + e.length))) (pre ++ head).length :=
    items_decode (max := 63) (by decide) _ pre (by
      have : Good 63 r.name := hr.1
      simp [recordHead, Item.Fits, o16, this]) (by simp [recordHead, Item.Open, o16])
  have h2 := items_extend decodes_extends (by simp [Item.Open, o16, recordHead]) h1 (data ++ e ++ post)
  have hlen : (UInt16.ofNat (data.length + e.length)).toNat = data.length + e.length := by
    simp only [UInt16.toNat_ofNat']; omega
  refine ResourceRecord.parse_ok.mpr ⟨hr.2.1, hr.2.2.2.1, r.classBits cfg,
    UInt16.ofNat (data.length + e.length), (pre ++ head).length,
    ResourceRecord.classBits_ok hr, ?_, ?_, ?_, ?_⟩
  · simpa [head] using h2
  · rw [hlen]; simp [head]; omega
  · simp
  · obtain ⟨data', hd', hp⟩ := RecordData.read_back (by decide) hw hne (pre ++ head)
    rw [hd] at hd'
    cases hd'
    rw [hr.2.2.1] at hp
    refine ⟨(pre ++ head ++ data).length, ?_⟩
    have := C103_ignored cfg r.type _ _ _ _ hp ht e
    have ht' : (pre ++ (head ++ data ++ e) ++ post).take (pre ++ (head ++ data ++ e)).length =
        pre ++ head ++ data ++ e := by
      rw [List.take_left]
      simp
    rw [show Items.octets (recordHead r (r.classBits cfg) (UInt16.ofNat (data.length + e.length))) = head from rfl,
      ht']
    exact this

/-- C103 is false: an address of five octets is read as one of four; of an APL record of two addresses
(RFC 3123 allows any number of them) the second is lost. -/
theorem C103_counterexample (cfg : Cfg) :
    (RecordData.parse cfg .A [192, 0, 2, 1, 77] 0 = (.ok (.A ⟨0xC0000201⟩), 4)) ∧
    (RecordData.parse cfg .APL ([0, 1, 24, 4, 192, 0, 2, 0] ++ [0, 1, 32, 4, 10, 0, 0, 1]) 0 =
      (.ok (.APL ⟨24, false, .ipV4 0xC0000200⟩), 8)) := by
  obtain ⟨a, b, c⟩ := cfg
  revert a b c
  decide +kernel

/-- Conditions of `C103_padded`. -/
example : RecordOk ⟨true, true, true⟩ 63 exRecord ∧ ¬ ToTheEnd exRecord.type ∧ exRecord.type ≠ .SSHFP :=
  ⟨⟨by decide, by decide, rfl, trivial, by decide, fun _ => rfl, trivial, fun b hb => by cases hb; decide⟩,
    by decide, by decide⟩

end Dns
