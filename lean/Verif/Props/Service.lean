import Verif.Spec.Service
import Verif.Props.Flush
import Verif.Lemmas.Needed
import Verif.Model.Constructors

/-!
C137: the attributes of services.
-/

namespace Dns
open Spec Buf

theorem split_key : ∀ {k : Bytes}, (∀ b ∈ k, b ≠ 0x3D) → ∀ s : Bytes,
    (k ++ s).takeWhile (· ≠ 0x3D) = k ++ s.takeWhile (· ≠ 0x3D) ∧ (k ++ s).dropWhile (· ≠ 0x3D) = s.dropWhile (· ≠ 0x3D) := by
  intro k
  induction k with
  | nil => intro _ s; exact ⟨rfl, rfl⟩
  | cons b k ih =>
    intro h s
    obtain ⟨h1, h2⟩ := ih (fun x hx => h x (List.mem_cons_of_mem _ hx)) s
    have hb := h b List.mem_cons_self
    rw [List.cons_append, List.takeWhile_cons, List.dropWhile_cons, if_pos (decide_eq_true hb), if_pos (decide_eq_true hb), h1, h2]
    exact ⟨rfl, rfl⟩

theorem attributeOf_text {k : Bytes} {v : Option Bytes} (h : KeyOk k) : attributeOf (Attribute.text (k, v)) = some (k, v) := by
  have hs := fun s => split_key (fun b hb => (h.2 b hb).2.2) s
  obtain ⟨x, xs, rfl⟩ := List.exists_cons_of_ne_nil h.1
  unfold attributeOf Attribute.text
  cases v with
  | none =>
    simp only
    rw [(hs []).1, (hs []).2]
    simp
  | some v =>
    simp only
    rw [(hs (0x3D :: v)).1, (hs (0x3D :: v)).2]
    simp

theorem lower_text_lookup {as : List Attribute} (hp : as.Pairwise fun a b => ¬ SameKey a.1 b.1) {k : Bytes}
    {v : Option Bytes} : (as.find? fun a => decide (SameKey a.1 k)).map (fun a => a.2) = some v ↔
      ∃ a ∈ as, SameKey a.1 k ∧ a.2 = v := by
  induction as with
  | nil => simp
  | cons a as ih =>
    rw [List.pairwise_cons] at hp
    rw [List.find?_cons]
    by_cases ha : SameKey a.1 k
    · rw [show decide (SameKey a.1 k) = true by simpa using ha]
      simp only [Option.map_some, Option.some.injEq]
      constructor
      · rintro rfl; exact ⟨a, List.mem_cons_self, ha, rfl⟩
      · rintro ⟨b, hb, hs, rfl⟩
        rcases List.mem_cons.mp hb with rfl | hb
        · rfl
        · exact absurd (ha.trans hs.symm) (hp.1 b hb)
    · rw [show decide (SameKey a.1 k) = false by simpa using ha]
      simp only
      rw [ih hp.2]
      constructor
      · rintro ⟨b, hb, hs⟩; exact ⟨b, List.mem_cons_of_mem _ hb, hs⟩
      · rintro ⟨b, hb, hs, hv⟩
        rcases List.mem_cons.mp hb with rfl | hb
        · exact absurd hs ha
        · exact ⟨b, hb, hs, hv⟩

theorem filterMap_texts : ∀ {as : List Attribute}, (∀ a ∈ as, KeyOk a.1) → (as.map Attribute.text).filterMap attributeOf = as := by
  intro as
  induction as with
  | nil => intro _; rfl
  | cons a as ih =>
    intro h
    rw [List.map_cons, List.filterMap_cons, attributeOf_text (v := a.2) (h a List.mem_cons_self)]
    simp only
    rw [ih fun b hb => h b (List.mem_cons_of_mem _ hb)]

/-- C137: a client that sees the strings finds each attribute, and no others (this validates the specification). -/
theorem C137_strings (as : List Attribute) (h : AttributesOk as) (k : Bytes) (v : Option Bytes) :
    lookupAttribute (as.map Attribute.text) k = some v ↔ ∃ a ∈ as, SameKey a.1 k ∧ a.2 = v := by
  rw [lookupAttribute, filterMap_texts fun a ha => (h.1 a ha).1, lower_text_lookup h.2]

theorem lossy_ascii {b : UInt8} (h : b < 0x80) (bs : Bytes) : utf8Lossy (b :: bs) = b :: utf8Lossy bs := by
  rw [utf8Lossy, show utf8Step b bs = (true, 0) by rw [utf8Step, if_pos h]]
  simp

theorem lossy_ascii_append : ∀ {k : Bytes}, (∀ b ∈ k, b < 0x80) → ∀ bs, utf8Lossy (k ++ bs) = k ++ utf8Lossy bs := by
  intro k
  induction k with
  | nil => intro _ _; rfl
  | cons b k ih =>
    intro h bs
    rw [List.cons_append, lossy_ascii (h b List.mem_cons_self), ih fun x hx => h x (List.mem_cons_of_mem _ hx)]
    rfl

theorem key_ascii {k : Bytes} (h : KeyOk k) : ∀ b ∈ k, b < 0x80 := by
  intro b hb
  have := (h.2 b hb).2.1
  rw [UInt8.le_iff_toNat_le] at this
  rw [UInt8.lt_iff_toNat_lt]
  exact Nat.lt_of_le_of_lt this (by decide)

theorem lossy_text {a : Attribute} (h : KeyOk a.1) : utf8Lossy a.text = Attribute.text (a.1, a.2.map utf8Lossy) := by
  obtain ⟨k, v⟩ := a
  unfold Attribute.text
  rw [lossy_ascii_append (key_ascii h)]
  cases v with
  | none => simp [utf8Lossy]
  | some v => simp only [Option.map_some]; rw [lossy_ascii (by decide)]

/-- The strings of a TXT record as items. -/
theorem strings_octets (ss : List Bytes) : Items.octets (ss.map .str) = ss.flatMap fun s => UInt8.ofNat s.length :: s := by
  induction ss with
  | nil => rfl
  | cons s ss ih => rw [List.map_cons, List.flatMap_cons, ← ih]; simp [Items.octets, Item.octets]

theorem strings_length (ss : List Bytes) :
    (ss.flatMap fun s => UInt8.ofNat s.length :: s).length = (ss.map fun s => s.length + 1).sum := by
  rw [List.length_flatMap]
  rfl

theorem txt_read (cfg : Cfg) (n : Fqdn) (ttl : UInt32) (ss : List Bytes) (pre post : Bytes) (hn : NameOk 191 n)
    (hs : ∀ s ∈ ss, s.length < 256) (hl : (ss.map fun s => s.length + 1).sum < 65536) :
    ResourceRecord.parse cfg (pre ++ txtRecord n ttl ss ++ post) pre.length =
      (.ok ⟨n, .TXT, false, .IN, ttl, .TXT ⟨ss.map utf8Lossy⟩⟩, (pre ++ txtRecord n ttl ss).length) := by
  have hdata : Items.octets (ss.map Item.str ++ [.eof]) = ss.flatMap fun s => UInt8.ofNat s.length :: s := by
    rw [octets_eof, strings_octets]
  generalize hD : (ss.flatMap fun s => UInt8.ofNat s.length :: s) = D at hdata
  have hDl : D.length = (ss.map fun s => s.length + 1).sum := by rw [← hD, strings_length]
  let r : ResourceRecord := ⟨n, .TXT, false, .IN, ttl, .TXT ⟨ss.map utf8Lossy⟩⟩
  let head := recordHead r 1 (UInt16.ofNat D.length)
  have hlen : (UInt16.ofNat D.length).toNat = D.length :=
    UInt16.toNat_ofNat_of_lt' (by rw [hDl]; simpa [UInt16.size] using hl)
  have hoct : txtRecord n ttl ss = Items.octets head ++ D := by
    rw [txtRecord, hD, ← hDl]
    simp [head, recordHead, Items.octets, Item.octets, r, o16, typeNumber]
    rfl
  have h1 : Items.At Decodes (pre ++ Items.octets head) pre.length head (pre ++ Items.octets head).length :=
    items_decode (Nat.le_refl _) head pre (by
      simp only [head, recordHead, List.mem_cons, List.not_mem_nil, or_false]
      rintro it (rfl | rfl | rfl | rfl | rfl) <;> first | exact hn | trivial)
      (by simp [head, recordHead, Item.Open, o16])
  have h2 := items_extend decodes_extends (by simp [head, recordHead, Item.Open, o16]) h1 (D ++ post)
  have h3 := items_decode (Nat.le_refl 191) (ss.map Item.str ++ [.eof]) (pre ++ Items.octets head) (by
      apply fits_eof
      intro it hit
      obtain ⟨s, hm, rfl⟩ := List.mem_map.mp hit
      exact hs s hm) (by
      rw [List.dropLast_concat]
      intro it hit
      obtain ⟨s, hm, rfl⟩ := List.mem_map.mp hit
      trivial)
  rw [hdata] at h3
  have h4 : RecordData.parse cfg .TXT (pre ++ Items.octets head ++ D) (pre ++ Items.octets head).length
      = (.ok (.TXT ⟨ss.map utf8Lossy⟩), (pre ++ Items.octets head ++ D).length) :=
    RecordData.parse_complete (r := .TXT ⟨ss.map utf8Lossy⟩) (by simp) (by simp) (by simp) ⟨ss, rfl, rfl⟩ h3
  apply ResourceRecord.parse_ok.mpr
  have hall : pre ++ txtRecord n ttl ss ++ post = pre ++ Items.octets head ++ (D ++ post) := by rw [hoct]; simp
  have hend : pre ++ txtRecord n ttl ss = pre ++ Items.octets head ++ D := by rw [hoct]; simp
  refine ⟨by simp [Readable, dnssecTypes], trivial, 1, UInt16.ofNat D.length, (pre ++ Items.octets head).length,
    ⟨rfl, by simp⟩, ?_, ?_, ?_, ?_⟩
  · rw [hall]; exact h2
  · rw [hlen, hend]; simp [Nat.add_assoc]
  · simp
  · rw [List.take_left, hend]; exact ⟨_, h4⟩

/-- C137: a TXT record of any other software, wherever it stands in a message, is read, and a client finds for each key what
`from_utf8_lossy` makes of the value. -/
theorem C137_received (cfg : Cfg) (n : Fqdn) (ttl : UInt32) (as : List Attribute) (pre post : Bytes) (hn : NameOk 191 n)
    (ha : AttributesOk as) (hl : (as.map fun a => a.text.length + 1).sum < 65536) :
    ∃ t : Txt, ResourceRecord.parse cfg (pre ++ txtRecord n ttl (as.map Attribute.text) ++ post) pre.length =
        (.ok ⟨n, .TXT, false, .IN, ttl, .TXT t⟩, (pre ++ txtRecord n ttl (as.map Attribute.text)).length) ∧
      ∀ k v, lookupAttribute t.strings k = some v ↔ ∃ a ∈ as, SameKey a.1 k ∧ a.2.map utf8Lossy = v := by
  refine ⟨⟨(as.map Attribute.text).map utf8Lossy⟩, txt_read cfg n ttl _ pre post hn ?_ (by rw [List.map_map]; exact hl), ?_⟩
  · intro s hs
    obtain ⟨a, hm, rfl⟩ := List.mem_map.mp hs
    exact (ha.1 a hm).2
  · intro k v
    have h1 : (as.map Attribute.text).map utf8Lossy = (as.map fun a => (a.1, a.2.map utf8Lossy)).map Attribute.text := by
      rw [List.map_map, List.map_map]
      exact List.map_congr_left fun a hm => lossy_text (ha.1 a hm).1
    simp only [h1]
    rw [lookupAttribute, filterMap_texts, lower_text_lookup]
    · constructor
      · rintro ⟨b, hb, hs, hv⟩
        obtain ⟨a, hm, rfl⟩ := List.mem_map.mp hb
        exact ⟨a, hm, hs, hv⟩
      · rintro ⟨a, hm, hs, hv⟩
        exact ⟨_, List.mem_map_of_mem hm, hs, hv⟩
    · exact List.pairwise_map.mpr ha.2
    · intro b hb
      obtain ⟨a, hm, rfl⟩ := List.mem_map.mp hb
      exact (ha.1 a hm).1

theorem lossy_eq_iff {b : Bytes} : utf8Lossy b = b ↔ IsUtf8 b :=
  ⟨fun h => h ▸ utf8Lossy_isUtf8 b, fun h => utf8Lossy_of_valid ((utf8Valid_iff b).mpr h)⟩

/-- C137: exactly, the client finds the attributes of the service iff all values are UTF-8. -/
theorem C137_received_exact (cfg : Cfg) (n : Fqdn) (ttl : UInt32) (as : List Attribute) (pre post : Bytes) (hn : NameOk 191 n)
    (ha : AttributesOk as) (hl : (as.map fun a => a.text.length + 1).sum < 65536) :
    (∃ t : Txt, ResourceRecord.parse cfg (pre ++ txtRecord n ttl (as.map Attribute.text) ++ post) pre.length =
        (.ok ⟨n, .TXT, false, .IN, ttl, .TXT t⟩, (pre ++ txtRecord n ttl (as.map Attribute.text)).length) ∧
      ∀ k v, lookupAttribute t.strings k = some v ↔ ∃ a ∈ as, SameKey a.1 k ∧ a.2 = v) ↔
    ∀ a ∈ as, ∀ v, a.2 = some v → IsUtf8 v := by
  obtain ⟨t, h1, h2⟩ := C137_received cfg n ttl as pre post hn ha hl
  constructor
  · rintro ⟨t', h3, h4⟩ a hm v hv
    rw [h1] at h3
    injection h3 with h3
    injection h3 with h3
    injection h3 with _ _ _ _ _ h3
    injection h3 with h3
    subst h3
    obtain ⟨b, hb, hs, he⟩ := (h4 a.1 (some (utf8Lossy v))).mp ((h2 a.1 _).mpr ⟨a, hm, rfl, by rw [hv]; rfl⟩)
    have := (C137_strings as ha a.1 a.2).mpr ⟨a, hm, rfl, rfl⟩
    have h5 := (C137_strings as ha a.1 b.2).mpr ⟨b, hb, hs, rfl⟩
    rw [this] at h5
    injection h5 with h5
    rw [hv, he] at h5
    injection h5 with h5
    exact lossy_eq_iff.mp h5.symm
  · intro h
    refine ⟨t, h1, fun k v => (h2 k v).trans ?_⟩
    have : ∀ a ∈ as, a.2.map utf8Lossy = a.2 := by
      intro a hm
      cases hv : a.2 with
      | none => rfl
      | some v => rw [Option.map_some, lossy_eq_iff.mpr (h a hm v hv)]
    constructor
    · rintro ⟨a, hm, hs, hv⟩; exact ⟨a, hm, hs, (this a hm) ▸ hv⟩
    · rintro ⟨a, hm, hs, hv⟩; exact ⟨a, hm, hs, (this a hm).trans hv⟩

theorem isUtf8_cons_ascii {b : UInt8} (h : b < 0x80) {bs : Bytes} (hb : IsUtf8 bs) : IsUtf8 (b :: bs) := by
  rw [← lossy_eq_iff, lossy_ascii h, lossy_eq_iff.mpr hb]

theorem isUtf8_text {a : Attribute} (h : KeyOk a.1) (hv : ∀ v, a.2 = some v → IsUtf8 v) : IsUtf8 a.text := by
  rw [← lossy_eq_iff, lossy_text h]
  cases e : a.2 with
  | none => simp [Attribute.text, e]
  | some v => rw [Option.map_some, lossy_eq_iff.mpr (hv v e), ← e]

/-- C137 (partial): a service with attributes of which the values are UTF-8 announces them with `Txt::new`, with `to_bytes` or
`to_bytes_compressed`; a client that reads the message finds for each key what the service has said.  What is missing: a
`String` cannot have other values. -/
theorem C137_sent_partial (cfg : Cfg) (how : Option Hash) (n : Fqdn) (flush : Bool) (ttl : UInt32) (as : List Attribute)
    (hn : NameOk 191 n) (hf : flush = true → cfg.mdns = true) (ha : AttributesOk as)
    (hu : ∀ a ∈ as, ∀ v, a.2 = some v → IsUtf8 v) (hl : (as.map fun a => a.text.length + 1).sum < 65536)
    (hh : ∀ h, how = some h → ∀ b, (announce [⟨n, .TXT, flush, .IN, ttl, .TXT (Txt.new (as.map Attribute.text))⟩]).toBytesCompressed cfg h =
      .ok b → b.length ≤ 16384)
    (hc : ∀ h, how = some h → NoCollision h [n]) :
    ∃ d p t, writeWith cfg how (announce [⟨n, .TXT, flush, .IN, ttl, .TXT (Txt.new (as.map Attribute.text))⟩]) = .ok d ∧
      Packet.parse cfg d = .ok p ∧ p.answers = [⟨n, .TXT, flush, .IN, ttl, .TXT t⟩] ∧
      ∀ k v, lookupAttribute t.strings k = some v ↔ ∃ a ∈ as, SameKey a.1 k ∧ a.2 = v := by
  obtain ⟨d, h1, p, h2, h3⟩ := announce_arrives (cfg := cfg) (how := how)
    (m := [⟨n, .TXT, flush, .IN, ttl, .TXT (Txt.new (as.map Attribute.text))⟩]) (by simp) (by
      intro r hr
      rcases List.mem_singleton.mp hr with rfl
      refine ⟨⟨hn, by simp [Readable, dnssecTypes], rfl, trivial, by simp [classNumber], hf, ?_, ?_⟩, by simp [RecordData.type]⟩
      · intro s hs
        obtain ⟨a, hm, rfl⟩ := List.mem_map.mp hs
        exact ⟨(ha.1 a hm).2, isUtf8_text (ha.1 a hm).1 (hu a hm)⟩
      · intro b hb
        injection hb with hb
        rw [← hb, Txt.toBytes, foldl_strings, List.nil_append, strings_octets, strings_length]
        rw [Txt.new, List.map_map]
        exact hl)
    (fun _ r hr => by rcases List.mem_singleton.mp hr with rfl; rfl)
    (fun h e => ⟨by simpa [packetNames, announce, Packet.setAnswers, Packet.newReply, records, rdataNames] using hc h e, hh h e⟩)
  exact ⟨d, p, _, h1, h2, h3, C137_strings as ha⟩

/-- C137: a record without attributes, with one empty string as RFC 6763 (section 6.1) demands, or without strings, has none. -/
theorem C137_none (k : Bytes) : lookupAttribute [[]] k = none ∧ lookupAttribute [] k = none := ⟨rfl, rfl⟩

/-- C137 is false for values that are not UTF-8: RFC 6763, section 6.5, "the value is opaque binary data".  One octet is read as
three, and different values become equal. -/
theorem C137_counterexample (cfg : Cfg) : ∀ v ∈ [[0xFF], [0xFE], [0xC3]],
    AttributesOk [([0x6B], some v)] ∧
    ∃ t : Txt, ResourceRecord.parse cfg (txtRecord [[97]] 120 [Attribute.text ([0x6B], some v)]) 0 =
        (.ok ⟨[[97]], .TXT, false, .IN, 120, .TXT t⟩, 17) ∧
      lookupAttribute t.strings [0x6B] = some (some [0xEF, 0xBF, 0xBD]) := by
  have : ∀ x y z : Bool, ∀ v ∈ [[0xFF], [0xFE], [0xC3]],
      AttributesOk [([0x6B], some v)] ∧
      ResourceRecord.parse ⟨x, y, z⟩ (txtRecord [[97]] 120 [Attribute.text ([0x6B], some v)]) 0 =
        (.ok ⟨[[97]], .TXT, false, .IN, 120, .TXT ⟨[[0x6B, 0x3D, 0xEF, 0xBF, 0xBD]]⟩⟩, 17) := by decide +kernel
  intro v hv
  obtain ⟨h1, h2⟩ := this cfg.overflowChecks cfg.mdns cfg.dnssec v hv
  exact ⟨h1, _, h2, by decide +kernel⟩

/-- The attributes of a printer: a key without a value, one with an empty value, one with a text. -/
def exAttributes : List Attribute := [([0x61], none), ([0x62], some []), ([0x70, 0x61, 0x74, 0x68], some [0x2F, 0x3D, 0xC3, 0xA4])]

theorem exAttributes_ok : AttributesOk exAttributes := by decide

theorem exAttributes_utf8 : ∀ a ∈ exAttributes, ∀ v, a.2 = some v → IsUtf8 v := by
  simp only [exAttributes, List.mem_cons, List.not_mem_nil, or_false]
  rintro a (rfl | rfl | rfl) v hv <;> cases hv <;> exact (utf8Valid_iff _).mp (by decide +kernel)

/-- C137: the hypotheses hold for these attributes. -/
example (cfg : Cfg) (pre post : Bytes) := C137_received cfg [[97]] 120 exAttributes pre post (by decide) exAttributes_ok (by decide)
example (cfg : Cfg) (pre post : Bytes) :=
  (C137_received_exact cfg [[97]] 120 exAttributes pre post (by decide) exAttributes_ok (by decide)).mpr exAttributes_utf8
example (cfg : Cfg) := C137_sent_partial cfg none [[97]] false 120 exAttributes (by decide) (by simp) exAttributes_ok exAttributes_utf8
  (by decide) (fun h e => by cases e) (fun h e => by cases e)
example (k : Bytes) (v : Option Bytes) := C137_strings exAttributes exAttributes_ok k v

/-- What a client finds in the answers of a message. -/
def foundIn (cfg : Cfg) (d : Bytes) (k : Bytes) : Res (List (Option (Option Bytes))) := do
  let p ← Packet.parse cfg d
  return p.answers.map fun r => match r.rdata with
    | .TXT t => lookupAttribute t.strings k
    | _ => none

/-- C137: what a client finds in the record; the case of the key does not count. -/
example : (do let d ← writeWith ⟨true, true, true⟩ (some exHash)
                (announce [⟨[[97]], .TXT, true, .IN, 120, .TXT (Txt.new (exAttributes.map Attribute.text))⟩])
              [[0x41], [0x62], [0x50, 0x41, 0x74, 0x68], [0x63]].mapM (foundIn ⟨true, true, true⟩ d)) =
    .ok [[some none], [some (some [])], [some (some [0x2F, 0x3D, 0xC3, 0xA4])], [none]] := by decide +kernel

end Dns
