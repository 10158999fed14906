import Verif.Props.Placed

/-
The message `to_bytes_compressed()` writes is itself a message whose pointers lead to prior names.
C111 It is the shortest of them.
-/

namespace Dns
open Spec Buf

/-- The map of the writer has places only. -/
def Mapped (U : Fqdn → Prop) (h : Hash) (names : Names) (known : Places) (len : Nat) : Prop :=
  ∀ s, U s → s ≠ [] → ∀ t, names (h s) = some t → (t, s) ∈ known ∧ t < len

theorem Mapped.mono {U : Fqdn → Prop} {h : Hash} {names : Names} {known : Places} {i j : Nat}
    (hm : Mapped U h names known i) (hij : i ≤ j) : Mapped U h names known j := fun s h1 h2 t h3 =>
  ⟨(hm s h1 h2 t h3).1, by have := (hm s h1 h2 t h3).2; omega⟩

theorem pointer_word {t : Nat} (ht : t < 16384) : UInt16.ofNat t ||| 0xC000 = UInt16.ofNat (49152 + t) := by
  apply UInt16.toNat_inj.mp
  rw [UInt16.toNat_or, UInt16.toNat_ofNat', UInt16.toNat_ofNat', Nat.mod_eq_of_lt (by omega), Nat.mod_eq_of_lt (by omega)]
  show t ||| 49152 = _
  have := Nat.two_pow_add_eq_or_of_lt (i := 14) (b := t) ht 3
  rw [Nat.or_comm]
  simpa using this.symm

section
variable {U : Fqdn → Prop} {h : Hash} (hU : TailClosed U) (hi : InjOn U h)
include hU hi

theorem name_placed {known : Places} : ∀ (n : Fqdn) (names : Names) (pre : Bytes), U n → Good 63 n →
    (∀ s, s <:+ n → s ≠ [] → ∀ t, names (h s) = some t → (t, s) ∈ known ∧ t < 16384) →
    ∃ new, NamePlaced known (pre ++ (n.toBytesCompressed h names pre.length).1) pre.length n
        (pre ++ (n.toBytesCompressed h names pre.length).1).length new ∧
      ∀ s, U s → s ≠ [] → ∀ t, (n.toBytesCompressed h names pre.length).2 (h s) = some t →
        names (h s) = some t ∨ (t, s) ∈ new ∧ t < (pre ++ (n.toBytesCompressed h names pre.length).1).length := by
  intro n
  induction n with
  | nil =>
    intro names pre _ _ _
    exact ⟨[], ⟨octets_end _ _, rfl⟩, fun s _ _ t ht => .inl ht⟩
  | cons l n ih =>
    intro names pre hn hg hm
    unfold Fqdn.toBytesCompressed
    cases hx : names (h (l :: n)) with
    | some o =>
      obtain ⟨h1, h2⟩ := hm _ (List.suffix_refl _) (by simp) _ hx
      refine ⟨[], .inl ⟨o, h1, h2, ?_, rfl⟩, fun s _ _ t ht => .inl ht⟩
      simp only
      rw [pointer_word h2, u16be_eq]
      exact octets_end _ _
    | none =>
      have hl := hg l (by simp)
      obtain ⟨new, h1, h2⟩ := ih (names.insert (h (l :: n)) pre.length) (pre ++ (lenU8 l.length :: l)) (hU _ _ hn)
        (fun x hx => hg x (by simp [hx])) (by
        intro s hs hne t ht
        have hd : h s ≠ h (l :: n) := by
          intro he
          have := hi _ _ (suffix_closed hU (hU _ _ hn) hs) hn he
          have := hs.length_le
          simp_all
        rw [Names.insert, if_neg hd] at ht
        exact hm s (hs.trans (List.suffix_cons _ _)) hne t ht)
      have e1 : (pre ++ (lenU8 l.length :: l)).length = pre.length + (l.length + 1) := by simp
      rw [e1] at h1 h2
      simp only
      rw [show pre ++ (lenU8 l.length :: (l ++ (Fqdn.toBytesCompressed h n (names.insert (h (l :: n)) pre.length)
        (pre.length + (l.length + 1))).1)) = pre ++ (lenU8 l.length :: l) ++ (Fqdn.toBytesCompressed h n
        (names.insert (h (l :: n)) pre.length) (pre.length + (l.length + 1))).1 by simp]
      refine ⟨(pre.length, l :: n) :: new, .inr ⟨hl.1, hl.2, _, new, ?_, h1, rfl⟩, ?_⟩
      · have := (octets_end pre (lenU8 l.length :: l)).extend (Fqdn.toBytesCompressed h n
          (names.insert (h (l :: n)) pre.length) (pre.length + (l.length + 1))).1
        rw [e1] at this
        exact this
      · intro s hs hne t ht
        rcases h2 s hs hne t ht with h3 | h3
        · unfold Names.insert at h3
          split at h3
          · rename_i e
            cases h3
            have := hi _ _ hs hn e
            subst this
            refine .inr ⟨by simp, ?_⟩
            simp only [List.length_append, List.length_cons]
            omega
          · exact .inl h3
        · exact .inr ⟨List.mem_cons_of_mem _ h3.1, h3.2⟩

theorem Mapped.name {known : Places} {names : Names} {pre : Bytes} (hm : Mapped U h names known pre.length) (n : Fqdn)
    (hn : U n) (hg : Good 63 n) (hl : pre.length ≤ 16384) :
    ∃ new, NamePlaced known (pre ++ (n.toBytesCompressed h names pre.length).1) pre.length n
        (pre ++ (n.toBytesCompressed h names pre.length).1).length new ∧
      Mapped U h (n.toBytesCompressed h names pre.length).2 (known ++ new)
        (pre ++ (n.toBytesCompressed h names pre.length).1).length := by
  obtain ⟨new, h1, h2⟩ := name_placed hU hi n names pre hn hg (fun s hs hne t ht => by
    obtain ⟨a, b⟩ := hm s (suffix_closed hU hn hs) hne t ht
    exact ⟨a, by omega⟩)
  refine ⟨new, h1, fun s hs hne t ht => ?_⟩
  rcases h2 s hs hne t ht with h3 | h3
  · obtain ⟨a, b⟩ := hm s hs hne t h3
    exact ⟨by simp [a], by simp only [List.length_append]; omega⟩
  · exact ⟨by simp [h3.1], h3.2⟩

omit hU hi in
theorem namePlaced_extend {known : Places} {d : Bytes} (e : Bytes) : ∀ {n : Fqdn} {i j : Nat} {new : Places},
    NamePlaced known d i n j new → NamePlaced known (d ++ e) i n j new := by
  intro n
  induction n with
  | nil => rintro i j new ⟨h1, h2⟩; exact ⟨h1.extend e, h2⟩
  | cons l n ih =>
    rintro i j new (⟨t, h1, h2, h3, h4⟩ | ⟨h1, h2, k, new', h3, h4, h5⟩)
    · exact .inl ⟨t, h1, h2, h3.extend e, h4⟩
    · exact .inr ⟨h1, h2, k, new', h3.extend e, ih h4, h5⟩

omit hU hi in
theorem itemsPlaced_extend {d : Bytes} (e : Bytes) : ∀ {its : List Item} {known known' : Places} {i j : Nat},
    (∀ it ∈ its, it.Open) → Items.Placed d known i its j known' → Items.Placed (d ++ e) known i its j known' := by
  intro its
  induction its with
  | nil => intro known known' i j _ h; exact h
  | cons it its ih =>
    intro known known' i j ho h
    have ho' : ∀ it ∈ its, it.Open := fun x hx => ho x (List.mem_cons_of_mem _ hx)
    have ho1 := ho it List.mem_cons_self
    cases it
    case name n =>
      obtain ⟨k, new, h1, h2⟩ := h
      exact ⟨k, new, namePlaced_extend e h1, ih ho' h2⟩
    all_goals
      obtain ⟨k, h1, h2⟩ := h
      exact ⟨k, item_extend (nameWith_extends _ _) ho1 h1 e, ih ho' h2⟩

theorem items_placed : ∀ (its : List Item) (names : Names) (known : Places) (pre : Bytes), (∀ it ∈ its, it.Fits 63) →
    (∀ it ∈ its.dropLast, it.Open) → (∀ n, .name n ∈ its → U n) → Mapped U h names known pre.length →
    (pre ++ (Items.compress h its names pre.length).1).length ≤ 16384 →
    ∃ known', Items.Placed (pre ++ (Items.compress h its names pre.length).1) known pre.length its
        (pre ++ (Items.compress h its names pre.length).1).length known' ∧
      Mapped U h (Items.compress h its names pre.length).2 known'
        (pre ++ (Items.compress h its names pre.length).1).length := by
  intro its
  induction its with
  | nil =>
    intro names known pre _ _ _ hm _
    simp only [Items.compress, List.append_nil]
    exact ⟨known, ⟨rfl, rfl⟩, hm⟩
  | cons it its ih =>
    intro names known pre hf ho hu hm hlen
    set a := Item.compress h it names pre.length with ha
    have hc : Items.compress h (it :: its) names pre.length =
        (a.1 ++ (Items.compress h its a.2 (pre ++ a.1).length).1,
          (Items.compress h its a.2 (pre ++ a.1).length).2) := by
      rw [Items.compress, List.length_append]
    rw [hc] at hlen ⊢
    dsimp only at hlen ⊢
    rw [← List.append_assoc] at hlen ⊢
    have hlen1 : (pre ++ a.1).length ≤ 16384 := by
      rw [List.length_append] at hlen; omega
    have hpre : pre.length ≤ 16384 := by rw [List.length_append] at hlen1; omega
    have hf' : ∀ it ∈ its, it.Fits 63 := fun x hx => hf x (List.mem_cons_of_mem _ hx)
    have hu' : ∀ n, .name n ∈ its → U n := fun n hn => hu n (List.mem_cons_of_mem _ hn)
    have ho' : ∀ it ∈ its.dropLast, it.Open := by
      by_cases hne : its = []
      · subst hne; simp
      · rw [dropLast_cons_of_ne hne] at ho
        exact fun x hx => ho x (List.mem_cons_of_mem _ hx)
    by_cases hn : ∃ n, it = .name n
    · obtain ⟨n, rfl⟩ := hn
      obtain ⟨new, h1, h2⟩ := hm.name hU hi n (hu n List.mem_cons_self) (hf _ List.mem_cons_self) hpre
      obtain ⟨known', h3, h4⟩ := ih a.2 (known ++ new) (pre ++ a.1) hf' ho' hu' h2 hlen
      exact ⟨known', ⟨_, new, namePlaced_extend _ h1, h3⟩, h4⟩
    · have ha' : a = (it.octets, names) := by
        rw [ha]
        cases it with
        | name n => exact absurd ⟨n, rfl⟩ hn
        | _ => rfl
      have h1 : it.At PlainName (pre ++ a.1) pre.length (pre ++ a.1).length := by
        rw [ha']
        refine item_plain (hf _ List.mem_cons_self) pre ?_
        rintro n rfl
        exact absurd ⟨n, rfl⟩ hn
      have h2 : Mapped U h a.2 known (pre ++ a.1).length := by
        rw [ha']; exact hm.mono (by simp)
      obtain ⟨known', h3, h4⟩ := ih a.2 known (pre ++ a.1) hf' ho' hu' h2 hlen
      have h5 : it.At PlainName (pre ++ a.1 ++ (Items.compress h its a.2 (pre ++ a.1).length).1) pre.length
          (pre ++ a.1).length := by
        by_cases hne : its = []
        · subst hne
          simpa [Items.compress] using h1
        · rw [dropLast_cons_of_ne hne] at ho
          exact item_extend (nameWith_extends _ _) (ho _ List.mem_cons_self) h1 _
      refine ⟨known', ?_, h4⟩
      cases it
      case name n => exact absurd ⟨n, rfl⟩ hn
      all_goals exact ⟨_, h5, h3⟩

omit hU hi in
theorem compresses_type (r : RecordData) : compressedType r.type = compresses r := by cases r <;> rfl

omit hU hi in
theorem plainName_end (pre : Bytes) (n : Fqdn) (hg : Good 63 n) :
    PlainName (pre ++ nameOctets n) pre.length n (pre ++ nameOctets n).length :=
  nameWith_plain_end (by decide) _ pre n hg

/-- What a question or a record needs to be written as the RFCs demand. -/
def Part.Ready (cfg : Cfg) (U : Fqdn → Prop) : Part → Prop
  | .question q => QuestionOk cfg 63 q ∧ U q.qName
  | .record r => RecordOk cfg 63 r ∧ WrittenWell r.rdata ∧ U r.name ∧ ∀ n ∈ rdataNames r.rdata, U n

theorem Part.placed {cfg : Cfg} {x : Part} (hx : x.Ready cfg U) {names : Names} {known : Places} {pre : Bytes}
    (hm : Mapped U h names known pre.length) {o : Bytes × Names} (ho : x.toBytesCompressed cfg h names pre.length = .ok o)
    (hl : (pre ++ o.1).length ≤ 16384) :
    ∃ known', PartPlaced cfg (pre ++ o.1) known pre.length x (pre ++ o.1).length known' ∧
      Mapped U h o.2 known' (pre ++ o.1).length := by
  cases x with
  | question q =>
    obtain ⟨hq, hn⟩ := hx
    have hg : Good 63 q.qName := hq.1
    cases ho
    rw [Question.compressed_eq] at hl ⊢
    obtain ⟨known', h1, h2⟩ := items_placed hU hi _ names known pre (by simp [Item.Fits, o16, hg])
      (by simp [Item.Open, o16]) (by simp [o16, hn]) hm hl
    exact ⟨known', ⟨hq.2.1, q.classBits cfg, Question.classBits_ok hq, h1⟩, h2⟩
  | record r =>
    obtain ⟨hr, hs, hn, hn2⟩ := hx
    have hg : Good 63 r.name := hr.1
    obtain ⟨its, hst, hw⟩ := writes_strict hr.2.2.2.2.2.2.1 hs
    simp only [Part.toBytesCompressed, ResourceRecord.toBytesCompressed, Res.bind_eq_ok, Res.pure_eq,
      Res.ok.injEq] at ho
    obtain ⟨data, hd, rfl⟩ := ho
    simp only at hl ⊢
    set hc := r.headCompressed cfg h names pre.length with hhc
    have hcl : Items.compress h (recordHead r (r.classBits cfg) (UInt16.ofNat data.1.length)) names pre.length =
        (hc.1 ++ u16be (lenU16 data.1.length), hc.2) := by
      simp [hhc, recordHead, ResourceRecord.headCompressed, Items.compress, Item.compress, Item.octets,
        o16, RecordType.toU16_eq, u16be_eq, u32be_eq, lenU16]
    rw [← List.append_assoc] at hl ⊢
    set head := pre ++ (hc.1 ++ u16be (lenU16 data.1.length)) with hhead
    have hhl : head.length = pre.length + hc.1.length + 2 := by simp [hhead, u16be_length]; omega
    have hdl : data.1.length < 65536 := by rw [List.length_append] at hl; omega
    obtain ⟨known1, h1, h2⟩ := items_placed hU hi _ names known pre
      (by simp [recordHead, Item.Fits, o16, hg] : ∀ it ∈ recordHead r (r.classBits cfg) (UInt16.ofNat data.1.length), it.Fits 63)
      (by simp [recordHead, Item.Open, o16]) (by simp [recordHead, o16, hn]) hm
      (by rw [hcl]; rw [List.length_append] at hl; show head.length ≤ 16384; omega)
    rw [hcl] at h1 h2
    simp only at h1 h2
    rw [← hhead] at h1 h2
    rw [← hhl] at hd
    have hlen : (UInt16.ofNat data.1.length).toNat = data.1.length :=
      UInt16.toNat_ofNat_of_lt' (by simpa [UInt16.size] using hdl)
    have key : ∃ known', (if compressedType r.rdata.type then Items.Placed (head ++ data.1) known1 head.length its
          (head ++ data.1).length known'
        else Items.At PlainName (head ++ data.1) head.length its (head ++ data.1).length ∧ known1 = known') ∧
        Mapped U h data.2 known' (head ++ data.1).length := by
      have hcomp := hw.compressed h hc.2 head.length
      rw [compresses_type]
      by_cases hcc : compresses r.rdata = true
      · rw [if_pos hcc] at hcomp
        have he : Items.compress h its hc.2 head.length = data := Res.ok.inj (hcomp.symm.trans hd)
        obtain ⟨known', h3, h4⟩ := items_placed hU hi its hc.2 known1 head hw.fits hw.opens
          (fun n hmem => hn2 n (hw.names n hmem)) h2 (by rw [he]; exact hl)
        rw [he] at h3 h4
        exact ⟨known', by rw [if_pos hcc]; exact h3, h4⟩
      · rw [if_neg hcc] at hcomp
        have he : (Items.octets its, hc.2) = data := Res.ok.inj (hcomp.symm.trans hd)
        have h3 := items_plain (nameWith_extends _ _) plainName_end its head hw.fits hw.opens
        rw [← he]
        exact ⟨known1, by rw [if_neg hcc]; exact ⟨h3, rfl⟩, h2.mono (by simp)⟩
    obtain ⟨known', h3, h4⟩ := key
    refine ⟨known', ⟨hr.2.1, hr.2.2.2.1, hr.2.2.1, r.classBits cfg, UInt16.ofNat data.1.length, head.length, known1, its,
      ResourceRecord.classBits_ok hr, itemsPlaced_extend _ (by simp [recordHead, Item.Open, o16]) h1, ?_, Nat.le_refl _, hst, ?_⟩, h4⟩
    · rw [hlen, List.length_append]
    · rw [List.take_length]; exact h3

omit hU hi in
theorem partPlaced_extend {cfg : Cfg} {d : Bytes} (e : Bytes) {known known' : Places} {i j : Nat} {x : Part}
    (h : PartPlaced cfg d known i x j known') : PartPlaced cfg (d ++ e) known i x j known' := by
  cases x with
  | question q =>
    obtain ⟨h1, v, h2, h3⟩ := h
    exact ⟨h1, v, h2, itemsPlaced_extend e (by simp [Item.Open, o16]) h3⟩
  | record r =>
    obtain ⟨h1, h2, ht, v, len, k, known1, its, h3, h4, h5, h6, h7, h8⟩ := h
    refine ⟨h1, h2, ht, v, len, k, known1, its, h3, itemsPlaced_extend e (by simp [recordHead, Item.Open, o16]) h4, h5,
      by rw [List.length_append]; omega, h7, ?_⟩
    rw [List.take_append_of_le_length h6]
    exact h8

theorem parts_placed {cfg : Cfg} : ∀ {xs : List Part} {names : Names} {known : Places} {pre : Bytes},
    (∀ x ∈ xs, x.Ready cfg U) → Mapped U h names known pre.length → ∀ {o : Bytes × Names},
    partsCompressed cfg h xs names pre.length = .ok o → (pre ++ o.1).length ≤ 16384 →
    ∃ known', ListPlaced (PartPlaced cfg (pre ++ o.1)) known pre.length xs (pre ++ o.1).length known' := by
  intro xs
  induction xs with
  | nil =>
    intro names known pre _ _ o ho _
    cases ho
    exact ⟨known, by simp [ListPlaced]⟩
  | cons x xs ih =>
    intro names known pre hx hm o ho hl
    simp only [partsCompressed, Res.bind_eq_ok, Res.pure_eq, Res.ok.injEq] at ho
    obtain ⟨a, ha, b, hb, rfl⟩ := ho
    simp only at hl ⊢
    rw [← List.append_assoc] at hl ⊢
    obtain ⟨known1, h1, h2⟩ := Part.placed hU hi (hx x (by simp)) hm ha (by rw [List.length_append] at hl; omega)
    rw [← List.length_append] at hb
    obtain ⟨known', h3⟩ := ih (fun y hy => hx y (by simp [hy])) h2 hb hl
    exact ⟨known', _, known1, partPlaced_extend _ h1, h3⟩

end

theorem listPlaced_split {α : Type} {R : Places → Nat → α → Nat → Places → Prop} : ∀ {xs ys : List α} {k1 k3 : Places}
    {i j : Nat}, ListPlaced R k1 i (xs ++ ys) j k3 → ∃ m k2, ListPlaced R k1 i xs m k2 ∧ ListPlaced R k2 m ys j k3 := by
  intro xs
  induction xs with
  | nil => intro ys k1 k3 i j h; exact ⟨i, k1, ⟨rfl, rfl⟩, h⟩
  | cons x xs ih =>
    rintro ys k1 k3 i j ⟨k, known1, h1, h2⟩
    obtain ⟨m, k2, h3, h4⟩ := ih h2
    exact ⟨m, k2, ⟨k, known1, h1, h3⟩, h4⟩

theorem listPlaced_unmap {α β : Type} {R : Places → Nat → α → Nat → Places → Prop}
    {S : Places → Nat → β → Nat → Places → Prop} {f : α → β} (hf : ∀ k i x j l, S k i (f x) j l → R k i x j l) :
    ∀ {xs : List α} {k k' : Places} {i j : Nat}, ListPlaced S k i (xs.map f) j k' → ListPlaced R k i xs j k' := by
  intro xs
  induction xs with
  | nil => intro k k' i j h; exact h
  | cons x xs ih => rintro k k' i j ⟨m, known1, h1, h2⟩; exact ⟨m, known1, hf _ _ _ _ _ h1, ih h2⟩

/-- C111: what `to_bytes_compressed()` writes for a packet with data that are `WrittenWell` is, if it has at most 16384
octets, a message whose pointers lead to prior names in questions, owner names and data of the types in which names are
compressed, and of all messages of this kind that say the same packet it is the shortest. -/
theorem C111_shortest (cfg : Cfg) (h : Hash) (p : Packet) (hp : PacketOk cfg 63 p) (hc : CountsOk p)
    (hh : NoCollision h (packetNames p)) (hs : ∀ r ∈ records p, WrittenWell r.rdata) :
    ∃ b, p.toBytesCompressed cfg h = .ok b ∧ (b.length ≤ 16384 → PlacedMessage compressedType cfg b p) ∧
      ∀ d, PlacedMessage compressedType cfg d p → b.length ≤ d.length := by
  have hv : ∀ r ∈ records p, Writable cfg 63 r.rdata := fun r hr => (hp.2.1 r hr).2.2.2.2.2.2.1
  obtain ⟨b, hb, _⟩ := C97_compressed_partial cfg h p hp hc hh hs
  refine ⟨b, hb, fun hl => ?_, fun d hd => ?_⟩
  · rw [toBytesCompressed_parts] at hb
    simp only [Res.bind_eq_ok, Res.pure_eq, Res.ok.injEq] at hb
    obtain ⟨o, ho, rfl⟩ := hb
    have h12 : p.header.toBytes.length = 12 := rfl
    have hready : ∀ x ∈ Dns.parts p, x.Ready cfg (SuffixOf (packetNames p)) := by
      intro x hx
      have h1 := parts_suffix p x hx
      unfold Dns.parts at hx
      rcases List.mem_append.mp hx with hx | hx <;> obtain ⟨y, hy, rfl⟩ := List.mem_map.mp hx
      · exact ⟨hp.1 y hy, h1⟩
      · exact ⟨hp.2.1 y hy, hs y hy, h1⟩
    obtain ⟨known, hk⟩ := parts_placed (suffixOf_tailClosed (packetNames p)) hh (pre := p.header.toBytes) (known := [])
      hready (fun s _ _ t ht => by cases ht) ho hl
    generalize hd : p.header.toBytes ++ o.1 = d at hl hk ⊢
    unfold Dns.parts at hk
    rw [List.map_append, List.map_append, h12] at hk
    obtain ⟨i2, k2, h1, hk⟩ := listPlaced_split hk
    obtain ⟨i4, k4, hk, h4⟩ := listPlaced_split hk
    obtain ⟨i3, k3, h2, h3⟩ := listPlaced_split hk
    have hr : ∀ {rs : List ResourceRecord} {k k' : Places} {i j : Nat},
        ListPlaced (PartPlaced cfg d) k i (rs.map Part.record) j k' →
        ListPlaced (RecordPlaced compressedType cfg d) k i rs j k' :=
      fun h => listPlaced_unmap (S := PartPlaced cfg d) (f := Part.record) (fun _ _ _ _ _ h => h) h
    have hq : ∀ {rs : List Question} {k k' : Places} {i j : Nat},
        ListPlaced (PartPlaced cfg d) k i (rs.map Part.question) j k' →
        ListPlaced (QuestionPlaced cfg d) k i rs j k' :=
      fun h => listPlaced_unmap (S := PartPlaced cfg d) (f := Part.question) (fun _ _ _ _ _ h => h) h
    have h0 := header_sent (nameWith_extends _ _) plainName_end p.header o.1
    refine ⟨hc.1.symm, hc.2.1.symm, hc.2.2.1.symm, hc.2.2.2.symm, 12, i2, i3, i4, k2, k3, k4, known, ?_, hq h1, hr h2, hr h3,
      hr h4⟩
    rw [← header_toBytes_eq, hd, h12] at h0
    exact h0
  · have hlong : ¬ (cfg.overflowChecks = true ∧ ∃ r ∈ records p, LongSvcb r.rdata) := by
      rcases C66_to_bytes_compressed cfg h p (fun r hr => (hv r hr).sets) with ⟨_, h2⟩ | ⟨h1, _⟩
      · rw [h2] at hb; cases hb
      · exact h1
    obtain ⟨a, ha⟩ : ∃ a, p.toBytes cfg = .ok a := by
      rcases C66_to_bytes cfg p (fun r hr => (hv r hr).sets) with ⟨h1, _⟩ | ⟨_, h2⟩
      · exact absurd h1 hlong
      · exact h2
    have hn := packetNames_full hp
    obtain ⟨ks, h1, h2⟩ := hd.size hn (fun r hr => C38_write_partial cfg 63 r.rdata (hv r hr) (hs r hr)) ha
    obtain ⟨ks', h3, h4, h5⟩ := C107_least cfg h p a b hn hh ha hb
    have h6 := h4 ks h1
    omega

/-- C111: the packet of the examples satisfies the hypotheses. -/
example : ∃ b, exPacket.toBytesCompressed ⟨true, true, true⟩ exHash = .ok b ∧
    (b.length ≤ 16384 → PlacedMessage compressedType ⟨true, true, true⟩ b exPacket) ∧
    ∀ d, PlacedMessage compressedType ⟨true, true, true⟩ d exPacket → b.length ≤ d.length :=
  C111_shortest _ _ _ exPacket_ok ⟨rfl, rfl, rfl, rfl⟩ exPacket_noCollision (fun r hr => (exPacket_well r hr).1)

end Dns
