import Verif.Spec.Placed
import Verif.Lemmas.Forward
import Verif.Props.Shortest
import Verif.Props.Backward
import Verif.Props.Write

/-
Forwarding with compression.
C111 A message that is read and written again with `to_bytes_compressed()` does not get longer.
-/

namespace Dns
open Spec Buf

/-! ### The number of octets of a message with pointers to prior names -/

/-- Each place is that of an ending of one of the names. -/
def Explained (known : Places) (seen : List Fqdn) : Prop := ∀ x ∈ known, ∃ m ∈ seen, x.2 <:+ m

theorem nameSize_cons (l : Bytes) (n : Fqdn) : nameSize (l :: n) = l.length + 1 + nameSize n := by simp [nameSize]

theorem NamePlaced.encoded {known : Places} {seen : List Fqdn} (hs : Explained known seen) {d : Bytes} :
    ∀ {n : Fqdn} {i j : Nat} {new : Places}, NamePlaced known d i n j new →
      i ≤ j ∧ j ≤ d.length ∧ EncodedIn seen n (j - i) ∧ ∀ x ∈ new, x.2 <:+ n := by
  intro n
  induction n with
  | nil =>
    rintro i j new ⟨h1, rfl⟩
    have := h1.end_eq
    simp only [List.length_singleton] at this
    exact ⟨by omega, h1.le, .inl (by simp [nameSize]; omega), by simp⟩
  | cons l n ih =>
    rintro i j new (⟨t, h1, _, h2, rfl⟩ | ⟨_, _, k, new', h1, h2, rfl⟩)
    · have := h2.end_eq
      simp only [octets16, List.length_cons, List.length_nil] at this
      obtain ⟨m, hm, hsuf⟩ := hs _ h1
      exact ⟨by omega, h2.le, .inr ⟨[], l :: n, rfl, by simp, ⟨m, hm, hsuf⟩, by simp [nameSize]; omega⟩, by simp⟩
    · have := h1.end_eq
      simp only [List.length_cons] at this
      obtain ⟨h3, hle, h4, h5⟩ := ih h2
      refine ⟨by omega, hle, ?_, ?_⟩
      · rcases h4 with h4 | ⟨front, rest, rfl, h6, h7, h8⟩
        · exact .inl (by rw [nameSize_cons]; omega)
        · exact .inr ⟨l :: front, rest, rfl, h6, h7, by rw [nameSize_cons]; omega⟩
      · intro x hx
        rcases List.mem_cons.mp hx with rfl | hx
        · exact List.suffix_refl _
        · exact (h5 x hx).trans (List.suffix_cons _ _)

theorem Explained.add {known new : Places} {seen : List Fqdn} {n : Fqdn} (hs : Explained known seen)
    (h : ∀ x ∈ new, x.2 <:+ n) : Explained (known ++ new) (seen ++ [n]) := by
  intro x hx
  rcases List.mem_append.mp hx with hx | hx
  · obtain ⟨m, hm, h1⟩ := hs x hx
    exact ⟨m, List.mem_append_left _ hm, h1⟩
  · exact ⟨n, by simp, h x hx⟩

/-- The names among items. -/
def itemNames (its : List Item) : List Fqdn := its.filterMap fun it => match it with
  | .name n => some n
  | _ => none

theorem nameOctets_length (n : Fqdn) : (nameOctets n).length = nameSize n + 1 := by
  induction n with
  | nil => rfl
  | cons l n ih =>
    rw [nameSize_cons]
    simp only [nameOctets, List.map_cons, List.flatten_cons, List.length_append, List.length_cons] at ih ⊢
    omega

theorem encodings_join : ∀ {a b : List Fqdn} {seen : List Fqdn} {xs ys : List Nat}, Encodings seen a xs →
    Encodings (seen ++ a) b ys → Encodings seen (a ++ b) (xs ++ ys) := by
  intro a
  induction a with
  | nil => intro b seen xs ys h1 h2; cases h1; simpa using h2
  | cons n a ih =>
    rintro b seen xs ys ⟨k, ks, rfl, h1, h2⟩ h3
    exact ⟨k, ks ++ ys, rfl, h1, ih h2 (by simpa using h3)⟩

theorem Items.Placed.encoded {d : Bytes} : ∀ {its : List Item} {known known' : Places} {seen : List Fqdn} {i j : Nat},
    i ≤ d.length → Explained known seen → Items.Placed d known i its j known' →
    i ≤ j ∧ Explained known' (seen ++ itemNames its) ∧ ∃ ks, Encodings seen (itemNames its) ks ∧
      j - i + plainSize (itemNames its) = (Items.octets its).length + ks.sum := by
  intro its
  induction its with
  | nil =>
    rintro known known' seen i j hi hs ⟨rfl, rfl⟩
    exact ⟨Nat.le_refl _, by simpa [itemNames] using hs, [], rfl, by simp [itemNames, plainSize, Items.octets]⟩
  | cons it its ih =>
    intro known known' seen i j hi hs h
    by_cases hn : ∃ n, it = .name n
    · obtain ⟨n, rfl⟩ := hn
      obtain ⟨k, new, h1, h2⟩ := h
      obtain ⟨a1, a2, a3, a4⟩ := NamePlaced.encoded hs h1
      obtain ⟨b1, b2, ks, b3, b4⟩ := ih a2 (hs.add a4) h2
      have e : itemNames (.name n :: its) = n :: itemNames its := rfl
      rw [e]
      refine ⟨by omega, by simpa using b2, _, ⟨_, ks, rfl, a3, b3⟩, ?_⟩
      rw [octets_cons]
      have := nameOctets_length n
      simp only [plainSize, List.map_cons, List.sum_cons, List.length_append, Item.octets] at b4 ⊢
      omega
    · have e : itemNames (it :: its) = itemNames its := by
        cases it <;> first | rfl | exact absurd ⟨_, rfl⟩ hn
      have h' : ∃ k, it.At PlainName d i k ∧ Items.Placed d known k its j known' := by
        cases it <;> first | exact h | exact absurd ⟨_, rfl⟩ hn
      obtain ⟨k, h1, h2⟩ := h'
      have h3 := item_octets hi (fun n hc => absurd ⟨n, hc⟩ hn) h1
      obtain ⟨b1, b2, ks, b3, b4⟩ := ih h3.le hs h2
      rw [e]
      have := h3.end_eq
      refine ⟨by omega, b2, ks, b3, ?_⟩
      rw [octets_cons, List.length_append]
      omega

theorem Items.Placed.le {d : Bytes} : ∀ {its : List Item} {known known' : Places} {i j : Nat}, i ≤ d.length →
    Items.Placed d known i its j known' → j ≤ d.length := by
  intro its
  induction its with
  | nil => rintro known known' i j hi ⟨rfl, rfl⟩; exact hi
  | cons it its ih =>
    intro known known' i j hi h
    by_cases hn : ∃ n, it = .name n
    · obtain ⟨n, rfl⟩ := hn
      obtain ⟨k, new, h1, h2⟩ := h
      refine ih (Nat.le_trans ?_ (Nat.le_refl _)) h2
      clear h2
      induction n generalizing i new with
      | nil => exact h1.1.le
      | cons l n ihn =>
        rcases h1 with ⟨t, _, _, h1, _⟩ | ⟨_, _, k', new', h1, h3, _⟩
        · exact h1.le
        · exact ihn h1.le _ h3
    · have h' : ∃ k, it.At PlainName d i k ∧ Items.Placed d known k its j known' := by
        cases it <;> first | exact h | exact absurd ⟨_, rfl⟩ hn
      obtain ⟨k, h1, h2⟩ := h'
      exact ih (item_octets hi (fun n hc => absurd ⟨n, hc⟩ hn) h1).le h2

/-- The names of the items of the data, for the types whose names are compressed. -/
theorem strict_names {cfg : Cfg} {r : RecordData} (ht : compressedType r.type = true) {its : List Item}
    (h : RDataStrict cfg r its) : itemNames its = rdataNames r := by
  have win : ∀ ws : List (UInt8 × Bytes), itemNames (windowItems ws ++ [.eof]) = [] := by
    intro ws
    induction ws with
    | nil => rfl
    | cons w ws ih => simpa [windowItems, itemNames] using ih
  cases r
  case NSEC r =>
    obtain ⟨ws, rfl, _⟩ := h
    have := win ws
    simp only [itemNames, List.cons_append, List.filterMap_cons] at this ⊢
    rw [this]; rfl
  all_goals first
    | (cases h; rfl)
    | (simp [compressedType, mayCompress, RecordData.type] at ht)

/-- A question or a record of such a message. -/
def PartPlaced (cfg : Cfg) (d : Bytes) (known : Places) (i : Nat) (x : Part) (j : Nat) (known' : Places) : Prop :=
  match x with
  | .question q => QuestionPlaced cfg d known i q j known'
  | .record r => RecordPlaced compressedType cfg d known i r j known'

/-- The data of the records are written as the RFCs demand. -/
def Part.Well (cfg : Cfg) : Part → Prop
  | .question _ => True
  | .record r => ∃ its, RDataStrict cfg r.rdata its ∧ r.rdata.toBytes cfg = .ok (Items.octets its)

theorem PartPlaced.encoded {cfg : Cfg} {d : Bytes} {known known' : Places} {seen : List Fqdn} {i j : Nat} {x : Part}
    (hi : i ≤ d.length) (hs : Explained known seen) (h : PartPlaced cfg d known i x j known') (hf : x.Full)
    (hw : x.Well cfg) {a : Bytes} (ha : x.toBytes cfg = .ok a) :
    i ≤ j ∧ j ≤ d.length ∧ Explained known' (seen ++ x.allNames) ∧ ∃ ks, Encodings seen x.allNames ks ∧
      j - i + plainSize x.allNames = a.length + ks.sum := by
  cases x with
  | question q =>
    obtain ⟨_, v, _, h⟩ := h
    have hle := Items.Placed.le hi h
    obtain ⟨b1, b2, ks, b3, b4⟩ := Items.Placed.encoded hi hs h
    have e0 : itemNames [.name q.qName, o16 (qtypeNumber q.qType), .u16 v] = Part.allNames (.question q) := rfl
    rw [e0] at b2 b3 b4
    cases ha
    refine ⟨b1, hle, b2, ks, b3, ?_⟩
    have := toBytes_nameSize q.qName hf
    have := nameOctets_length q.qName
    simp only [Question.toBytes, Items.octets, List.map_cons, List.map_nil, List.flatten_cons, List.flatten_nil,
      Item.octets, o16, octets16, List.length_append, List.length_cons, List.length_nil, u16be_length] at b4 ⊢
    omega
  | record r =>
    obtain ⟨_, _, _, v, len, k, known1, its, _, h1, rfl, h2, h3, h4⟩ := h
    obtain ⟨b1, b2, ks, b3, b4⟩ := Items.Placed.encoded hi hs h1
    obtain ⟨its', w1, w2⟩ := hw
    cases strict_one h3 w1
    simp only [Part.toBytes, ResourceRecord.toBytes, Res.bind_eq_ok, Res.pure_eq, Res.ok.injEq] at ha
    obtain ⟨size, _, e, he, rfl⟩ := ha
    cases w2.symm.trans he
    have := toBytes_nameSize r.name hf.1
    have := nameOctets_length r.name
    have e1 : itemNames (recordHead r v len) = [r.name] := rfl
    rw [e1] at b2 b3 b4
    have e2 : (Items.octets (recordHead r v len)).length = nameSize r.name + 11 := by
      simp only [recordHead, Items.octets, List.map_cons, List.map_nil, List.flatten_cons, List.flatten_nil,
        Item.octets, o16, octets16, octets32, List.length_append, List.length_cons, List.length_nil]
      omega
    have hl : (d.take (k + len.toNat)).length = k + len.toNat := by simp; omega
    have key : ∃ ks', Explained known' (seen ++ Part.allNames (.record r)) ∧
        Encodings (seen ++ [r.name]) (if compressedType r.rdata.type then rdataNames r.rdata else []) ks' ∧
        len.toNat + plainSize (if compressedType r.rdata.type then rdataNames r.rdata else []) =
          (Items.octets its).length + ks'.sum := by
      by_cases ht : compressedType r.rdata.type = true
      · simp only [ht, if_true] at h4
        obtain ⟨c1, c2, ks', c3, c4⟩ := Items.Placed.encoded (by omega) b2 h4
        rw [strict_names ht h3] at c2 c3 c4
        simp only [ht, if_true, Part.allNames]
        exact ⟨ks', by simpa using c2, c3, by omega⟩
      · simp only [ht] at h4
        have c1 := (plain_octets (by omega) h4.1).end_eq
        cases h4.2
        simp only [ht, Part.allNames]
        exact ⟨[], by simpa using b2, rfl, by simp [plainSize]; omega⟩
    obtain ⟨ks', c1, c2, c3⟩ := key
    refine ⟨by omega, h2, c1, ks ++ ks', ?_, ?_⟩
    · exact encodings_join (a := [r.name]) b3 c2
    · simp only [plainSize, Part.allNames, List.length_append, List.map_cons, List.map_nil, List.sum_cons, List.sum_nil,
        u16be_length, u32be_length, List.sum_append] at b4 c3 ⊢
      omega

theorem PartsPlaced.encoded {cfg : Cfg} {d : Bytes} : ∀ {xs : List Part} {known known' : Places} {seen : List Fqdn}
    {i j : Nat}, i ≤ d.length → Explained known seen → ListPlaced (PartPlaced cfg d) known i xs j known' →
    (∀ x ∈ xs, x.Full) → (∀ x ∈ xs, x.Well cfg) → ∀ {a : Bytes}, partsBytes cfg xs = .ok a →
    i ≤ j ∧ ∃ ks, Encodings seen (xs.flatMap Part.allNames) ks ∧
      j - i + plainSize (xs.flatMap Part.allNames) = a.length + ks.sum := by
  intro xs
  induction xs with
  | nil =>
    rintro known known' seen i j hi hs ⟨rfl, rfl⟩ _ _ a ha
    cases ha
    exact ⟨Nat.le_refl _, [], rfl, by simp [plainSize]⟩
  | cons x xs ih =>
    rintro known known' seen i j hi hs ⟨k, known1, h1, h2⟩ hf hw a ha
    simp only [partsBytes, Res.bind_eq_ok, Res.pure_eq, Res.ok.injEq] at ha
    obtain ⟨u, hu, v, hv, rfl⟩ := ha
    obtain ⟨a1, a2, a3, ks, a4, a5⟩ := PartPlaced.encoded hi hs h1 (hf x (by simp)) (hw x (by simp)) hu
    obtain ⟨b1, ks', b2, b3⟩ := ih a2 a3 h2 (fun y hy => hf y (by simp [hy])) (fun y hy => hw y (by simp [hy])) hv
    refine ⟨by omega, ks ++ ks', ?_, ?_⟩
    · rw [List.flatMap_cons]; exact encodings_join a4 b2
    · simp only [List.flatMap_cons, plainSize_append, List.length_append, List.sum_append]
      omega

theorem listPlaced_append {α : Type} {R : Places → Nat → α → Nat → Places → Prop} : ∀ {xs ys : List α} {k1 k3 : Places}
    {i j m : Nat} {k2 : Places}, ListPlaced R k1 i xs m k2 → ListPlaced R k2 m ys j k3 →
    ListPlaced R k1 i (xs ++ ys) j k3 := by
  intro xs
  induction xs with
  | nil => rintro ys k1 k3 i j m k2 ⟨rfl, rfl⟩ h; exact h
  | cons x xs ih => rintro ys k1 k3 i j m k2 ⟨k, known1, h1, h2⟩ h; exact ⟨k, known1, h1, ih h2 h⟩

theorem listPlaced_map {α β : Type} {R : Places → Nat → α → Nat → Places → Prop}
    {S : Places → Nat → β → Nat → Places → Prop} {f : α → β} (hf : ∀ k i x j l, R k i x j l → S k i (f x) j l) :
    ∀ {xs : List α} {k k' : Places} {i j : Nat}, ListPlaced R k i xs j k' → ListPlaced S k i (xs.map f) j k' := by
  intro xs
  induction xs with
  | nil => intro k k' i j h; exact h
  | cons x xs ih => rintro k k' i j ⟨m, known1, h1, h2⟩; exact ⟨m, known1, hf _ _ _ _ _ h1, ih h2⟩

theorem Spec.PlacedMessage.parts {cfg : Cfg} {d : Bytes} {p : Packet} (h : PlacedMessage compressedType cfg d p) :
    ∃ known, ListPlaced (PartPlaced cfg d) [] 12 (parts p) d.length known := by
  obtain ⟨_, _, _, _, i1, i2, i3, i4, k2, k3, k4, k5, h0, h1, h2, h3, h4⟩ := h
  have e := (plain_octets (Nat.zero_le _) h0).end_eq
  simp only [headerItems, Items.octets, List.map_cons, List.map_nil, List.flatten_cons, List.flatten_nil,
    Item.octets, octets16, List.length_append, List.length_cons, List.length_nil] at e
  have e : i1 = 12 := by omega
  subst e
  refine ⟨k5, ?_⟩
  unfold Dns.parts
  rw [List.map_append, List.map_append]
  have hr : ∀ {rs : List ResourceRecord} {k k' : Places} {i j : Nat},
      ListPlaced (RecordPlaced compressedType cfg d) k i rs j k' →
      ListPlaced (PartPlaced cfg d) k i (rs.map Part.record) j k' :=
    fun h => listPlaced_map (S := PartPlaced cfg d) (f := Part.record) (fun _ _ _ _ _ h => h) h
  have hq : ∀ {rs : List Question} {k k' : Places} {i j : Nat}, ListPlaced (QuestionPlaced cfg d) k i rs j k' →
      ListPlaced (PartPlaced cfg d) k i (rs.map Part.question) j k' :=
    fun h => listPlaced_map (S := PartPlaced cfg d) (f := Part.question) (fun _ _ _ _ _ h => h) h
  exact listPlaced_append (hq h1) (listPlaced_append (listPlaced_append (hr h2) (hr h3)) (hr h4))

/-- The number of octets of the message, compared with the message without compression. -/
theorem Spec.PlacedMessage.size {cfg : Cfg} {d a : Bytes} {p : Packet} (h : PlacedMessage compressedType cfg d p)
    (hn : ∀ n ∈ packetNames p, ∀ l ∈ n, l ≠ [])
    (hw : ∀ r ∈ records p, ∃ its, RDataStrict cfg r.rdata its ∧ r.rdata.toBytes cfg = .ok (Items.octets its))
    (ha : p.toBytes cfg = .ok a) :
    ∃ ks, Encodings [] ((Dns.parts p).flatMap Part.allNames) ks ∧
      d.length + plainSize ((Dns.parts p).flatMap Part.allNames) = a.length + ks.sum := by
  obtain ⟨known, h1⟩ := h.parts
  have h12 : 12 ≤ d.length := by
    obtain ⟨_, _, _, _, i1, i2, i3, i4, k2, k3, k4, k5, h0, _⟩ := h
    have e := plain_octets (Nat.zero_le _) h0
    have e1 := e.end_eq
    have e2 := e.le
    simp only [headerItems, Items.octets, List.map_cons, List.map_nil, List.flatten_cons, List.flatten_nil,
      Item.octets, octets16, List.length_append, List.length_cons, List.length_nil] at e1
    omega
  rw [toBytes_parts] at ha
  simp only [Res.bind_eq_ok, Res.pure_eq, Res.ok.injEq] at ha
  obtain ⟨u, h2, rfl⟩ := ha
  have hwell : ∀ x ∈ Dns.parts p, x.Well cfg := by
    intro x hx
    cases x with
    | question q => trivial
    | record r => exact hw r (by simpa [Dns.parts, records] using hx)
  obtain ⟨b1, ks, b2, b3⟩ := PartsPlaced.encoded h12 (seen := []) (by simp [Explained]) h1 (parts_full hn) hwell h2
  refine ⟨ks, b2, ?_⟩
  have l2 : p.headerBytes.length = 12 := by
    rw [headerBytes_eq]; simp [headerItems, Items.octets, Item.octets, octets16]
  simp only [List.length_append]
  omega

/-! ### Such messages are read -/

theorem nameWith_allow {max : Nat} {A B : Nat → Nat → Prop} (hAB : ∀ p t, A p t → B p t) {d : Bytes} {i j : Nat} {n : Fqdn}
    (h : NameWith max A d i n j) : NameWith max B d i n j := by
  induction h with
  | root h => exact .root h
  | label a b c o _ ih => exact .label a b c o ih
  | pointer a o b _ ih => exact .pointer a o (hAB _ _ b) ih

/-- The labels are found at the places, with pointers to positions before `i` only. -/
def Valid (d : Bytes) (i : Nat) (known : Places) : Prop :=
  ∀ x ∈ known, x.1 < i ∧ ∃ e, NameWith 63 (fun _ t => t < i) (d.take i) x.1 x.2 e

theorem nameWith_take {max : Nat} {A : Nat → Nat → Prop} {d : Bytes} {i j k e : Nat} {n : Fqdn} (hij : i ≤ j)
    (h : NameWith max A (d.take i) k n e) : NameWith max A (d.take j) k n e := by
  have e1 : d.take j = d.take i ++ (d.take j).drop i := by
    conv_lhs => rw [← List.take_append_drop i (d.take j)]
    rw [List.take_take, Nat.min_eq_left hij]
  rw [e1]
  exact nameWith_extends _ _ _ _ _ _ _ h

theorem Valid.mono {d : Bytes} {i j : Nat} {known : Places} (hij : i ≤ j) (h : Valid d i known) : Valid d j known := by
  intro x hx
  obtain ⟨h1, e, h2⟩ := h x hx
  exact ⟨by omega, e, nameWith_take hij (nameWith_allow (fun _ t ht => by omega) h2)⟩

theorem octets_cut {d : Bytes} {x : Bytes} {i j : Nat} (h : Octets d i x j) : Octets (d.take j) i x j := by
  obtain ⟨pre, post, rfl, rfl, rfl⟩ := h
  rw [show pre.length + x.length = (pre ++ x).length by simp, List.take_left']
  · exact ⟨pre, [], by simp, rfl, by simp⟩
  · rfl

theorem pointer_value {t : Nat} (ht : t < 16384) :
    ∃ hi lo : UInt8, octets16 (UInt16.ofNat (49152 + t)) = [hi, lo] ∧ 192 ≤ hi.toNat ∧
      (hi.toNat - 192) * 256 + lo.toNat = t := by
  have e : (UInt16.ofNat (49152 + t)).toNat = 49152 + t := UInt16.toNat_ofNat_of_lt' (by simp [UInt16.size]; omega)
  have h1 : ((UInt16.ofNat (49152 + t)) >>> 8).toUInt8.toNat = 192 + t / 256 := by
    rw [UInt16.toNat_toUInt8, UInt16.toNat_shiftRight, e, Nat.shiftRight_eq_div_pow]
    simp
    omega
  have h2 : (UInt16.ofNat (49152 + t)).toUInt8.toNat = t % 256 := by
    rw [UInt16.toNat_toUInt8, e]
    omega
  exact ⟨_, _, rfl, by omega, by omega⟩

theorem NamePlaced.legal {known : Places} {d : Bytes} {start : Nat} (hv : Valid d start known) :
    ∀ {n : Fqdn} {i j : Nat} {new : Places}, start ≤ i → NamePlaced known d i n j new →
      i < j ∧ LegalName d i n j ∧ NameWith 63 (fun _ t => t < start) (d.take j) i n j ∧
      ∀ x ∈ new, x.1 < j ∧ NameWith 63 (fun _ t => t < start) (d.take j) x.1 x.2 j := by
  intro n
  induction n with
  | nil =>
    rintro i j new hi ⟨h1, rfl⟩
    have e : j = i + 1 := h1.end_eq
    subst e
    exact ⟨by omega, .root (octets_cons_getElem? h1), .root (octets_cons_getElem? (octets_cut h1)), by simp⟩
  | cons l n ih =>
    rintro i j new hi (⟨t, h1, h2, h3, rfl⟩ | ⟨h1, h2, k, new', h3, h4, rfl⟩)
    · obtain ⟨hi', lo, e1, e2, e3⟩ := pointer_value h2
      have e : j = i + 2 := h3.end_eq
      subst e
      obtain ⟨v1, e, v2⟩ := hv _ h1
      have v3 := nameWith_take (show start ≤ i + 2 by omega) v2
      have c := octets_cut h3
      rw [e1] at h3 c
      have v4 : NameWith 63 (fun _ t => t < start) d t (l :: n) e := by
        rw [← List.take_append_drop start d]
        exact nameWith_extends _ _ _ _ _ _ _ v2
      simp only at v1
      refine ⟨by omega, .pointer e2 h3 (by rw [e3]; omega) (by
        rw [e3]; exact nameWith_allow (fun _ _ ht => by omega) v4), .pointer e2 c (by rw [e3]; exact v1) (by
        rw [e3]; exact v3), by simp⟩
    · have e : k = i + 1 + l.length := by have := h3.end_eq; simp only [List.length_cons] at this; omega
      subst e
      obtain ⟨b1, b2, b3, b4⟩ := ih (by omega) h4
      have hl : (UInt8.ofNat l.length).toNat = l.length := by
        rw [UInt8.toNat_ofNat']; omega
      have c : Octets (d.take j) i (UInt8.ofNat l.length :: l) (i + 1 + l.length) := by
        have := (octets_cut h3).extend ((d.take j).drop (i + 1 + l.length))
        rwa [show d.take (i + 1 + l.length) = (d.take j).take (i + 1 + l.length) by
          rw [List.take_take, Nat.min_eq_left (by omega)], List.take_append_drop] at this
      have h5 : NameWith 63 (fun _ t => t < start) (d.take j) i (l :: n) j :=
        .label (by omega) (by omega) (by omega) c b3
      refine ⟨by omega, .label (by omega) (by omega) (by omega) h3 b2, h5, ?_⟩
      intro x hx
      rcases List.mem_cons.mp hx with rfl | hx
      · exact ⟨by simp only; omega, h5⟩
      · exact b4 x hx

theorem Items.Placed.legal {d : Bytes} : ∀ {its : List Item} {known known' : Places} {i j : Nat}, i ≤ d.length →
    Valid d i known → Items.Placed d known i its j known' →
    i ≤ j ∧ Items.At LegalName d i its j ∧ Valid d j known' := by
  intro its
  induction its with
  | nil => rintro known known' i j _ hv ⟨rfl, rfl⟩; exact ⟨Nat.le_refl _, rfl, hv⟩
  | cons it its ih =>
    intro known known' i j hi hv h
    by_cases hn : ∃ n, it = .name n
    · obtain ⟨n, rfl⟩ := hn
      obtain ⟨k, new, h1, h2⟩ := h
      obtain ⟨a1, a2, a3, a4⟩ := NamePlaced.legal hv (Nat.le_refl _) h1
      have hv' : Valid d k (known ++ new) := by
        intro x hx
        rcases List.mem_append.mp hx with hx | hx
        · exact hv.mono (by omega) x hx
        · obtain ⟨c1, c2⟩ := a4 x hx
          exact ⟨c1, k, nameWith_allow (fun _ t ht => by omega) c2⟩
      obtain ⟨b1, b2, b3⟩ := ih (NamePlaced.encoded (seen := known.map Prod.snd)
        (fun x hx => ⟨_, List.mem_map_of_mem hx, List.suffix_refl _⟩) h1).2.1 hv' h2
      exact ⟨by omega, ⟨k, a2, b2⟩, b3⟩
    · have h' : ∃ k, it.At PlainName d i k ∧ Items.Placed d known k its j known' := by
        cases it <;> first | exact h | exact absurd ⟨_, rfl⟩ hn
      obtain ⟨k, h1, h2⟩ := h'
      have h3 := item_octets hi (fun n hc => absurd ⟨n, hc⟩ hn) h1
      have := h3.end_eq
      obtain ⟨b1, b2, b3⟩ := ih h3.le (hv.mono (by omega)) h2
      exact ⟨by omega, ⟨k, Item.At.mono (fun _ _ _ => plain_legal) h1, b2⟩, b3⟩

theorem QuestionPlaced.legal {cfg : Cfg} {d : Bytes} {known known' : Places} {i j : Nat} {q : Question} (hi : i ≤ d.length)
    (hv : Valid d i known) (h : QuestionPlaced cfg d known i q j known') :
    QuestionAt LegalName cfg d i q j ∧ Valid d j known' ∧ j ≤ d.length := by
  obtain ⟨h1, v, h2, h3⟩ := h
  obtain ⟨_, b2, b3⟩ := Items.Placed.legal hi hv h3
  exact ⟨⟨h1, v, h2, b2⟩, b3, Items.Placed.le hi h3⟩

theorem RecordPlaced.legal {T : RecordType → Bool} {cfg : Cfg} {d : Bytes} {known known' : Places} {i j : Nat}
    {r : ResourceRecord} (hi : i ≤ d.length) (hv : Valid d i known) (h : RecordPlaced T cfg d known i r j known') :
    RecordAtWith (RDataWritten LegalName cfg) LegalName cfg d i r j ∧ Valid d j known' ∧ j ≤ d.length := by
  obtain ⟨h1, h2, ht, v, len, k, known1, its, h3, h4, rfl, h5, h6, h7⟩ := h
  obtain ⟨_, b2, b3⟩ := Items.Placed.legal hi hv h4
  have hl : (d.take (k + len.toNat)).length = k + len.toNat := by simp; omega
  have key : Items.At LegalName (d.take (k + len.toNat)) k its (k + len.toNat) ∧ Valid d (k + len.toNat) known' := by
    by_cases hc : T r.rdata.type = true
    · simp only [hc, if_true] at h7
      have hv' : Valid (d.take (k + len.toNat)) k known1 := by
        intro x hx
        have := b3 x hx
        rwa [List.take_take, Nat.min_eq_left (by omega)]
      obtain ⟨_, c2, c3⟩ := Items.Placed.legal (by omega) hv' h7
      refine ⟨c2, fun x hx => ?_⟩
      have := c3 x hx
      rwa [List.take_take, Nat.min_self] at this
    · simp only [hc] at h7
      obtain ⟨c1, rfl⟩ := h7
      exact ⟨Items.At.mono (fun _ _ _ => plain_legal) c1, b3.mono (by omega)⟩
  exact ⟨⟨h1, h2, v, len, k, h3, b2, rfl, h5, ht, its, h6, by rw [hl]; exact key.1⟩, key.2, h5⟩

theorem listPlaced_legal {α : Type} {d : Bytes} {R : Places → Nat → α → Nat → Places → Prop} {S : Nat → α → Nat → Prop}
    (hR : ∀ {k k' i j x}, i ≤ d.length → Valid d i k → R k i x j k' → S i x j ∧ Valid d j k' ∧ j ≤ d.length) :
    ∀ {xs : List α} {k k' : Places} {i j : Nat}, i ≤ d.length → Valid d i k → ListPlaced R k i xs j k' →
      ListAt S i xs j ∧ Valid d j k' ∧ j ≤ d.length := by
  intro xs
  induction xs with
  | nil => rintro k k' i j hi hv ⟨rfl, rfl⟩; exact ⟨rfl, hv, hi⟩
  | cons x xs ih =>
    rintro k k' i j hi hv ⟨m, k1, h1, h2⟩
    obtain ⟨a1, a2, a3⟩ := hR hi hv h1
    obtain ⟨b1, b2, b3⟩ := ih a3 a2 h2
    exact ⟨⟨m, a1, b1⟩, b2, b3⟩

/-- Such messages are among those of C99. -/
theorem Spec.PlacedMessage.received {T : RecordType → Bool} {cfg : Cfg} {d : Bytes} {p : Packet}
    (h : PlacedMessage T cfg d p) : ReceivedMessage cfg d p d.length := by
  obtain ⟨c1, c2, c3, c4, i1, i2, i3, i4, k2, k3, k4, k5, h0, h1, h2, h3, h4⟩ := h
  have g0 := (plain_octets (Nat.zero_le _) h0).le
  obtain ⟨a1, a2, a3⟩ := listPlaced_legal QuestionPlaced.legal g0 (by simp [Valid]) h1
  obtain ⟨b1, b2, b3⟩ := listPlaced_legal RecordPlaced.legal a3 a2 h2
  obtain ⟨d1, d2, d3⟩ := listPlaced_legal RecordPlaced.legal b3 b2 h3
  obtain ⟨e1, _, _⟩ := listPlaced_legal RecordPlaced.legal d3 d2 h4
  exact ⟨c1, c2, c3, c4, i1, i2, i3, i4, Items.At.mono (fun _ _ _ => plain_legal) h0, a1, b1, d1, e1⟩

/-! ### C111 -/

theorem packetNames_full {cfg : Cfg} {p : Packet} (hp : PacketOk cfg 63 p) : ∀ n ∈ packetNames p, ∀ l ∈ n, l ≠ [] := by
  have ok : ∀ {n : Fqdn}, NameOk 63 n → ∀ l ∈ n, l ≠ [] := by
    rintro n hn l hl rfl
    have := (hn _ hl).1
    simp at this
  have data : ∀ {r : RecordData}, Writable cfg 63 r → ∀ n ∈ rdataNames r, NameOk 63 n := by
    intro r hr n hn
    cases r
    case IPSECKEY r =>
      cases hg : r.gateway <;> simp only [Writable, rdataNames, hg] at hr hn <;> first
        | (simp at hn; done)
        | (obtain rfl := List.mem_singleton.mp hn; exact hr)
    case HIP r => exact hr.2.2.2 n hn
    all_goals first
      | (simp [rdataNames] at hn; done)
      | (simp only [Writable] at hr
         simp only [rdataNames, List.mem_cons, List.not_mem_nil, or_false] at hn
         first
           | (subst hn; first | exact hr | exact hr.1 | exact hr.2 | exact hr.2.2.2.2)
           | (rcases hn with rfl | rfl
              · exact hr.1
              · exact hr.2))
  intro n hn
  rcases List.mem_append.mp hn with hn | hn
  · obtain ⟨q, hq, rfl⟩ := List.mem_map.mp hn
    exact ok (hp.1 q hq).1
  · obtain ⟨r, hr, hn⟩ := List.mem_flatMap.mp hn
    rcases List.mem_cons.mp hn with rfl | hn
    · exact ok (hp.2.1 r hr).1
    · exact ok (data (hp.2.1 r hr).2.2.2.2.2.2.1 n hn)

/-- C111 (partial): a message of RFC 1035 whose pointers lead to prior names in questions, to prior owner names or to prior
names in the data of the types in which the crate compresses names (the types of RFC 1035, SRV, NAPTR, NSEC) is read as
what it says.  Written again with `to_bytes_compressed()` it has at most as many octets as it came with, and if these are
at most 16384, then what is written is read as the same packet.  What is missing: data that are not `ReadWell` or not
`WrittenWell` and pointers to names in other data; for them the claim is false, see the counterexamples. -/
theorem C111_forward_partial (cfg : Cfg) (h : Hash) (d : Bytes) (p : Packet) (hd : PlacedMessage compressedType cfg d p)
    (hp : PacketOk cfg 63 p) (hc : NoCollision h (packetNames p))
    (hs : ∀ r ∈ records p, ReadWell r.rdata ∧ WrittenWell r.rdata) :
    Packet.parse cfg d = .ok p ∧ ∃ b, p.toBytesCompressed cfg h = .ok b ∧ b.length ≤ d.length ∧
      (d.length ≤ 16384 → Packet.parse cfg b = .ok p) := by
  have hv : ∀ r ∈ records p, Writable cfg 63 r.rdata := fun r hr => (hp.2.1 r hr).2.2.2.2.2.2.1
  refine ⟨(C99_received_partial cfg d p d.length hd.received hv (fun r hr => (hs r hr).1)).1, ?_⟩
  have hcount : CountsOk p := ⟨hd.1.symm, hd.2.1.symm, hd.2.2.1.symm, hd.2.2.2.1.symm⟩
  have hnf : ∀ r ∈ records p, r.rdata.type ≠ .SSHFP := by
    intro r hr ht
    have := (hs r hr).1
    cases hx : r.rdata <;> rw [hx] at ht this <;> first | (simp [RecordData.type] at ht; done) | exact this
  obtain ⟨b, hb, hread⟩ := C28_compressed_round_trip_partial cfg h p (hp.mono (by decide)) hcount hnf hc
  have hsets : ∀ r ∈ records p, SetsOk r.rdata := fun r hr => (hv r hr).sets
  have hlong : ¬ (cfg.overflowChecks = true ∧ ∃ r ∈ records p, LongSvcb r.rdata) := by
    rcases C66_to_bytes_compressed cfg h p hsets with ⟨_, h2⟩ | ⟨h1, _⟩
    · rw [h2] at hb; cases hb
    · exact h1
  obtain ⟨a, ha⟩ : ∃ a, p.toBytes cfg = .ok a := by
    rcases C66_to_bytes cfg p hsets with ⟨h1, _⟩ | ⟨_, h2⟩
    · exact absurd h1 hlong
    · exact h2
  have hn := packetNames_full hp
  obtain ⟨ks, h1, h2⟩ := hd.size hn (fun r hr => C38_write_partial cfg 63 r.rdata (hv r hr) (hs r hr).2) ha
  obtain ⟨ks', h3, h4, h5⟩ := C107_least cfg h p a b hn hc ha hb
  have h6 := h4 ks h1
  have h7 : b.length ≤ d.length := by omega
  refine ⟨b, hb, h7, fun hl => ?_⟩
  have := (hread (by omega) []).1
  rwa [List.append_nil] at this

/-- A question and an answer with a pointer to the end of its name (the start could have been shortened, too): the crate
writes two octets less. -/
def loosePacket : Packet := ⟨⟨7, ⟨0x84, 0⟩, 1, 1, 0, 0⟩, [⟨[[97], [98]], .rr .MX, .IN, false⟩],
  [⟨[[97], [98]], .MX, false, .IN, 5, .MX ⟨10, [[109], [97], [98]]⟩⟩], [], []⟩

/-- Its octets. -/
def looseOctets : Bytes := [0, 7, 132, 0, 0, 1, 0, 1, 0, 0, 0, 0, 1, 97, 1, 98, 0, 0, 15, 0, 1,
  1, 97, 192, 14, 0, 15, 0, 1, 0, 0, 0, 5, 0, 6, 0, 10, 1, 109, 192, 21]

/-- These octets say this. -/
theorem loose_placed : PlacedMessage compressedType ⟨true, true, true⟩ looseOctets loosePacket := by
  refine ⟨rfl, rfl, rfl, rfl, 12, 21, 41, 41, [(12, [[97], [98]]), (14, [[98]])], 
    [(12, [[97], [98]]), (14, [[98]]), (21, [[97], [98]]), (37, [[109], [97], [98]])], _, _, ?_, ?_, ?_, ⟨rfl, rfl⟩, ⟨rfl, rfl⟩⟩
  · exact ⟨2, octets_iff.mpr (by decide), 3, octets_iff.mpr (by decide), 4, octets_iff.mpr (by decide),
      6, octets_iff.mpr (by decide), 8, octets_iff.mpr (by decide), 10, octets_iff.mpr (by decide),
      12, octets_iff.mpr (by decide), rfl⟩
  · refine ⟨21, _, ⟨by simp [QReadable, Readable], 1, ⟨by decide, by decide⟩, 17, [(12, [[97], [98]]), (14, [[98]])], 
      ?_, 19, octets_iff.mpr (by decide), 21, octets_iff.mpr (by decide), rfl, rfl⟩, rfl, rfl⟩
    exact .inr ⟨by decide, by decide, 14, _, octets_iff.mpr (by decide), .inr ⟨by decide, by decide, 16, _,
      octets_iff.mpr (by decide), ⟨octets_iff.mpr (by decide), rfl⟩, rfl⟩, rfl⟩
  · refine ⟨41, _, ⟨by simp [Readable], by simp [classOk], rfl, 1, 6, 35, [(12, [[97], [98]]), (14, [[98]]), (21, [[97], [98]])],
      [.u16 10, .name [[109], [97], [98]]], ⟨by decide, by decide⟩, ?_, by decide, by decide, rfl, ?_⟩, rfl, rfl⟩
    · refine ⟨25, [(21, [[97], [98]])], ?_, 27, octets_iff.mpr (by decide), 29, octets_iff.mpr (by decide),
        33, octets_iff.mpr (by decide), 35, octets_iff.mpr (by decide), rfl, rfl⟩
      exact .inr ⟨by decide, by decide, 23, _, octets_iff.mpr (by decide),
        .inl ⟨14, by decide, by decide, octets_iff.mpr (by decide), rfl⟩, rfl⟩
    · refine ⟨37, octets_iff.mpr (by decide), 41, [(37, [[109], [97], [98]])], ?_, rfl, rfl⟩
      exact .inr ⟨by decide, by decide, 39, _, octets_iff.mpr (by decide),
        .inl ⟨21, by decide, by decide, octets_iff.mpr (by decide), rfl⟩, rfl⟩

/-- C111: the hypotheses are met. -/
example : PlacedMessage compressedType ⟨true, true, true⟩ looseOctets loosePacket ∧
    PacketOk ⟨true, true, true⟩ 63 loosePacket ∧ NoCollision exHash (packetNames loosePacket) ∧
    (∀ r ∈ records loosePacket, ReadWell r.rdata ∧ WrittenWell r.rdata) ∧
    ∃ b, loosePacket.toBytesCompressed ⟨true, true, true⟩ exHash = .ok b ∧ b.length + 2 = looseOctets.length := by
  refine ⟨?_, ?_, ?_, ?_, _, rfl, by decide +kernel⟩
  · exact loose_placed
  · refine ⟨?_, ?_, by decide, by decide, by decide, by decide⟩
    · intro q hq
      simp only [loosePacket, List.mem_singleton] at hq
      subst hq
      exact ⟨by decide, by simp [QReadable, Readable], by simp⟩
    · intro r hr
      simp only [loosePacket, records, List.append_nil, List.mem_singleton] at hr
      subst hr
      refine ⟨by decide, by simp [Readable], rfl, by simp [classOk], by decide, by simp, ?_, ?_⟩
      · show NameOk 63 _
        decide
      · intro b hb; cases hb; decide
  · have key : ∀ a ∈ (packetNames loosePacket).flatMap List.tails, ∀ b ∈ (packetNames loosePacket).flatMap List.tails,
        exHash a = exHash b → a = b := by decide +kernel
    rintro a b ⟨n, hn, ha⟩ ⟨m, hm, hb⟩ h
    exact key a (List.mem_flatMap.mpr ⟨n, hn, (List.mem_tails _ _).mpr ha⟩) b
      (List.mem_flatMap.mpr ⟨m, hm, (List.mem_tails _ _).mpr hb⟩) h
  · intro r hr
    simp only [loosePacket, records, List.append_nil, List.mem_singleton] at hr
    subst hr
    exact ⟨trivial, trivial⟩

/-- C111 is false for pointers to names in other data: a message in which the owner name of the second record is a pointer
to the target name of the first, an SVCB record, gets three octets longer. -/
theorem C111_counterexample_pointer : ∃ (d b : Bytes) (p : Packet), ReceivedMessage ⟨true, true, true⟩ d p d.length ∧
    (∀ r ∈ records p, ReadWell r.rdata ∧ WrittenWell r.rdata) ∧
    Packet.parse ⟨true, true, true⟩ d = .ok p ∧ p.toBytesCompressed ⟨true, true, true⟩ exHash = .ok b ∧
    Packet.parse ⟨true, true, true⟩ b = .ok p ∧ d.length < b.length := by
  refine ⟨[0, 1, 128, 0, 0, 0, 0, 2, 0, 0, 0, 0, 0, 0, 64, 0, 1, 0, 0, 0, 5, 0, 7, 0, 1, 1, 97, 1, 98, 0, 192, 25,
      0, 1, 0, 1, 0, 0, 0, 5, 0, 4, 0, 0, 0, 1], _,
    ⟨⟨1, ⟨0x80, 0⟩, 0, 2, 0, 0⟩, [], [⟨[], .SVCB, false, .IN, 5, .SVCB ⟨1, [[97], [98]], []⟩⟩,
      ⟨[[97], [98]], .A, false, .IN, 5, .A ⟨1⟩⟩], [], []⟩, ?_, ?_, by decide +kernel, rfl, by decide +kernel,
    by decide +kernel⟩
  · refine ⟨rfl, rfl, rfl, rfl, 12, 12, _, _, ?_, rfl, ⟨30, ?_, 46, ?_, rfl⟩, rfl, rfl⟩
    · exact ⟨2, octets_iff.mpr (by decide), 3, octets_iff.mpr (by decide), 4, octets_iff.mpr (by decide),
        6, octets_iff.mpr (by decide), 8, octets_iff.mpr (by decide), 10, octets_iff.mpr (by decide),
        12, octets_iff.mpr (by decide), rfl⟩
    · refine ⟨by simp [Readable], by simp [classOk], 1, 7, 23, ⟨by decide, by decide⟩, ?_, by decide, by decide, rfl, _,
        ⟨rfl, by simp, by simp⟩, ?_⟩
      · exact ⟨13, .root (by decide), 15, octets_iff.mpr (by decide), 17, octets_iff.mpr (by decide),
          21, octets_iff.mpr (by decide), 23, octets_iff.mpr (by decide), rfl⟩
      · exact ⟨25, octets_iff.mpr (by decide), 30, .label (len := 1) (by decide) (by decide) rfl (octets_iff.mpr (by decide))
          (.label (len := 1) (by decide) (by decide) rfl (octets_iff.mpr (by decide)) (.root (by decide))), _, ⟨by decide, rfl⟩, rfl⟩
    · refine ⟨by simp [Readable], by simp [classOk], 1, 4, 42, ⟨by decide, by decide⟩, ?_, by decide, by decide, rfl, _, rfl, ?_⟩
      · exact ⟨32, .pointer (hi := 192) (lo := 25) (by decide) (octets_iff.mpr (by decide)) (by decide)
          (.label (len := 1) (by decide) (by decide) rfl (octets_iff.mpr (by decide))
          (.label (len := 1) (by decide) (by decide) rfl (octets_iff.mpr (by decide)) (.root (by decide)))),
          34, octets_iff.mpr (by decide), 36, octets_iff.mpr (by decide),
          40, octets_iff.mpr (by decide), 42, octets_iff.mpr (by decide), rfl⟩
      · exact ⟨46, octets_iff.mpr (by decide), rfl⟩
  · intro r hr
    simp only [records, List.append_nil, List.mem_cons, List.not_mem_nil, or_false] at hr
    rcases hr with rfl | rfl <;> exact ⟨trivial, trivial⟩

/-- C111 is false for data that are not `WrittenWell`: an APL record with the address 10.1.0.0, of which the RFC has two
octets, is written with four, and an NSEC record that only has types beyond the first window with an empty window. -/
theorem C111_counterexample_data : ∀ x ∈ ([
      (⟨[[97]], .APL, false, .IN, 5, .APL ⟨16, false, .ipV4 0x0A010000⟩⟩, [0, 1, 16, 2, 10, 1]),
      (⟨[[97]], .NSEC, false, .IN, 5, .NSEC ⟨[], [.CAA]⟩⟩, [0, 1, 1, 64])] : List (ResourceRecord × Bytes)),
    ∃ d b, d = [0, 1, 128, 0, 0, 0, 0, 1, 0, 0, 0, 0, 1, 97, 0] ++ octets16 (UInt16.ofNat (typeNumber x.1.type)) ++
        [0, 1, 0, 0, 0, 5, 0, UInt8.ofNat x.2.length] ++ x.2 ∧
      Packet.parse ⟨true, true, true⟩ d = .ok (onePacket x.1) ∧
      (onePacket x.1).toBytesCompressed ⟨true, true, true⟩ exHash = .ok b ∧ d.length < b.length := by
  intro x hx
  simp only [List.mem_cons, List.not_mem_nil, or_false] at hx
  rcases hx with rfl | rfl
  · exact ⟨_, _, rfl, by decide +kernel, rfl, by decide +kernel⟩
  · exact ⟨_, _, rfl, by decide +kernel, rfl, by decide +kernel⟩

end Dns
