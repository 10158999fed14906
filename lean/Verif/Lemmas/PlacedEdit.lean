import Verif.Spec.Edit
import Verif.Props.PlacedOwn
import Verif.Props.Stream
import Verif.Props.Patch

/-! Messages with pointers to prior names that agree in some of their octets. -/

namespace Dns
open Spec Buf

/-- The octets from `lo` up to `hi` are the same. -/
structure Shared (lo hi : Nat) (d d' : Bytes) : Prop where
  left : hi ≤ d.length
  right : hi ≤ d'.length
  same : ∀ k, lo ≤ k → k < hi → d'[k]? = d[k]?

theorem Shared.octets {lo hi : Nat} {d d' : Bytes} (hs : Shared lo hi d d') {x : Bytes} {i j : Nat} (hi' : lo ≤ i) (hj : j ≤ hi)
    (h : Octets d i x j) : Octets d' i x j := by
  obtain ⟨h1, _, h3⟩ := octets_iff.mp h
  refine octets_iff.mpr ⟨h1, by have := hs.right; omega, ?_⟩
  rw [← h3]
  have hl : ((d.drop i).take x.length).length = x.length := congrArg List.length h3
  rw [hl]
  apply List.ext_getElem?
  intro k
  by_cases hk : k < x.length
  · rw [List.getElem?_take_of_lt hk, List.getElem?_take_of_lt hk, List.getElem?_drop, List.getElem?_drop]
    exact hs.same _ (by omega) (by omega)
  · rw [List.getElem?_eq_none, List.getElem?_eq_none] <;> simp <;> omega

theorem Shared.mono {lo hi lo' hi' : Nat} {d d' : Bytes} (hs : Shared lo hi d d') (h1 : lo ≤ lo') (h2 : hi' ≤ hi) :
    Shared lo' hi' d d' :=
  ⟨Nat.le_trans h2 hs.left, Nat.le_trans h2 hs.right, fun k a b => hs.same k (by omega) (by omega)⟩

theorem Shared.take {lo hi : Nat} {d d' : Bytes} (hs : Shared lo hi d d') : Shared lo hi (d.take hi) (d'.take hi) := by
  refine ⟨by have := hs.left; simp; omega, by have := hs.right; simp; omega, fun k a b => ?_⟩
  rw [List.getElem?_take_of_lt b, List.getElem?_take_of_lt b]
  exact hs.same k a b

theorem namePlaced_lt {known : Places} {d : Bytes} : ∀ {n : Fqdn} {i j : Nat} {new : Places},
    NamePlaced known d i n j new → i < j := by
  intro n
  induction n with
  | nil => rintro i j new ⟨h1, _⟩; have := h1.end_eq; simp at this; omega
  | cons l n ih =>
    rintro i j new (⟨t, _, _, h2, _⟩ | ⟨_, _, k, new', h1, h2, _⟩)
    · have := h2.end_eq
      simp [octets16] at this
      omega
    · have := h1.end_eq
      have := ih h2
      simp at *
      omega

theorem Shared.name {lo hi : Nat} {d d' : Bytes} (hs : Shared lo hi d d') {known : Places} : ∀ {n : Fqdn} {i j : Nat}
    {new : Places}, lo ≤ i → j ≤ hi → NamePlaced known d i n j new → NamePlaced known d' i n j new := by
  intro n
  induction n with
  | nil => rintro i j new h1 h2 ⟨h3, h4⟩; exact ⟨hs.octets h1 h2 h3, h4⟩
  | cons l n ih =>
    rintro i j new a b (⟨t, h1, h2, h3, h4⟩ | ⟨h1, h2, k, new', h3, h4, h5⟩)
    · exact .inl ⟨t, h1, h2, hs.octets a b h3, h4⟩
    · have := h3.end_eq
      have := namePlaced_lt h4
      exact .inr ⟨h1, h2, k, new', hs.octets a (by omega) h3, ih (by omega) b h4, h5⟩

/-- Items that are no names. -/
theorem Shared.item {lo hi : Nat} {d d' : Bytes} (hs : Shared lo hi d d') {N N' : NameRel} {it : Item}
    (ho : it.Open ∨ d'.length = d.length) (hn : ∀ n, it ≠ .name n) {i j : Nat} (a : lo ≤ i) (b : j ≤ hi)
    (h : it.At N d i j) : it.At N' d' i j := by
  cases it with
  | u8 v => exact hs.octets a b h
  | u16 v => exact hs.octets a b h
  | u32 v => exact hs.octets a b h
  | num k v => obtain ⟨x, h1, h2⟩ := h; exact ⟨x, hs.octets a b h1, h2⟩
  | name n => exact absurd rfl (hn n)
  | raw x => exact hs.octets a b h
  | str x => exact ⟨h.1, hs.octets a b h.2⟩
  | str16 x => exact ⟨h.1, hs.octets a b h.2⟩
  | rest x => exact ⟨hs.octets a b h.1, by rw [(ho.resolve_left (by simp [Item.Open])), ← h.2]⟩
  | eof => exact ⟨by rw [(ho.resolve_left (by simp [Item.Open])), ← h.1], h.2⟩

theorem item_le {d : Bytes} {it : Item} (hn : ∀ n, it ≠ .name n) {N : NameRel} {i j : Nat} (h : it.At N d i j) : i ≤ j := by
  have ho : ∀ {x : Bytes}, Octets d i x j → i ≤ j := fun h => by have := h.end_eq; omega
  cases it with
  | name n => exact absurd rfl (hn n)
  | eof => exact Nat.le_of_eq h.2.symm
  | u8 v => exact ho h
  | u16 v => exact ho h
  | u32 v => exact ho h
  | raw v => exact ho h
  | num k v => exact ho h.choose_spec.1
  | str v => exact ho h.2
  | str16 v => exact ho h.2
  | rest v => exact ho h.1

theorem placed_cons {d : Bytes} {known known' : Places} {i j : Nat} {it : Item} {its : List Item} (hn : ∀ n, it ≠ .name n) :
    Items.Placed d known i (it :: its) j known' ↔ ∃ k, it.At PlainName d i k ∧ Items.Placed d known k its j known' := by
  cases it <;> first | exact Iff.rfl | exact absurd rfl (hn _)

theorem placed_forth {d : Bytes} : ∀ {its : List Item} {known known' : Places} {i j : Nat},
    Items.Placed d known i its j known' → i ≤ j := by
  intro its
  induction its with
  | nil => rintro known known' i j ⟨h, _⟩; omega
  | cons it its ih =>
    intro known known' i j h
    by_cases hn : ∃ n, it = .name n
    · obtain ⟨n, rfl⟩ := hn
      obtain ⟨k, new, h1, h2⟩ := h
      have := namePlaced_lt h1
      have := ih h2
      omega
    · have hn' : ∀ n, it ≠ .name n := fun n e => hn ⟨n, e⟩
      obtain ⟨k, h1, h2⟩ := (placed_cons hn').mp h
      exact Nat.le_trans (item_le hn' h1) (ih h2)

theorem Shared.items {lo hi : Nat} {d d' : Bytes} (hs : Shared lo hi d d') : ∀ {its : List Item} {known known' : Places}
    {i j : Nat}, ((∀ it ∈ its, it.Open) ∨ d'.length = d.length) → lo ≤ i → j ≤ hi → Items.Placed d known i its j known' →
      Items.Placed d' known i its j known' := by
  intro its
  induction its with
  | nil => intro known known' i j _ _ _ h; exact h
  | cons it its ih =>
    intro known known' i j ho a b h
    have ho' := ho.imp_left fun h x hx => h x (List.mem_cons_of_mem _ hx)
    have ho1 := ho.imp_left fun h => h it List.mem_cons_self
    by_cases hn : ∃ n, it = .name n
    · obtain ⟨n, rfl⟩ := hn
      obtain ⟨k, new, h1, h2⟩ := h
      have := namePlaced_lt h1
      have := placed_forth h2
      exact ⟨k, new, hs.name a (by omega) h1, ih ho' (by omega) b h2⟩
    · have hn' : ∀ n, it ≠ .name n := fun n e => hn ⟨n, e⟩
      obtain ⟨k, h1, h2⟩ := (placed_cons hn').mp h
      have := item_le hn' h1
      have := placed_forth h2
      exact (placed_cons hn').mpr ⟨k, hs.item ho1 hn' a (by omega) h1, ih ho' (by omega) b h2⟩

theorem plainName_lt {d : Bytes} {i j : Nat} {n : Fqdn} (h : PlainName d i n j) : i < j := legal_lt (plain_legal h)

theorem Shared.plainName {lo hi : Nat} {d d' : Bytes} (hs : Shared lo hi d d') {i j : Nat} {n : Fqdn} (a : lo ≤ i) (b : j ≤ hi)
    (h : PlainName d i n j) : PlainName d' i n j := by
  have key : ∀ {x : UInt8} {i : Nat}, lo ≤ i → i < hi → d[i]? = some x → d'[i]? = some x := fun a b h => by
    rw [hs.same _ a b]; exact h
  unfold PlainName at h
  induction h with
  | root h => exact .root (key a (by omega) h)
  | label h1 h2 h3 h4 h5 ih =>
    have e := h4.end_eq
    have := plainName_lt h5
    simp only [List.length_cons] at e
    exact .label h1 h2 h3 (hs.octets a (by omega) h4) (ih (by omega) b)
  | pointer _ _ h => exact absurd h not_false

theorem plainItems_forth {d : Bytes} : ∀ {its : List Item} {i j : Nat}, Items.At PlainName d i its j → i ≤ j := by
  intro its
  induction its with
  | nil => intro i j h; exact Nat.le_of_eq h
  | cons it its ih =>
    rintro i j ⟨k, h1, h2⟩
    refine Nat.le_trans ?_ (ih h2)
    by_cases hn : ∃ n, it = .name n
    · obtain ⟨n, rfl⟩ := hn
      exact Nat.le_of_lt (plainName_lt h1)
    · exact item_le (fun n e => hn ⟨n, e⟩) h1

theorem Shared.plainItems {lo hi : Nat} {d d' : Bytes} (hs : Shared lo hi d d') (hl : d'.length = d.length) :
    ∀ {its : List Item} {i j : Nat}, lo ≤ i → j ≤ hi → Items.At PlainName d i its j → Items.At PlainName d' i its j := by
  intro its
  induction its with
  | nil => intro i j _ _ h; exact h
  | cons it its ih =>
    rintro i j a b ⟨k, h1, h2⟩
    have g2 := plainItems_forth h2
    by_cases hn : ∃ n, it = .name n
    · obtain ⟨n, rfl⟩ := hn
      have := plainName_lt h1
      exact ⟨k, hs.plainName a (by omega) h1, ih (by omega) b h2⟩
    · have hn' : ∀ n, it ≠ .name n := fun n e => hn ⟨n, e⟩
      have := item_le hn' h1
      exact ⟨k, hs.item (.inr hl) hn' a (by omega) h1, ih (by omega) b h2⟩

theorem Shared.question {lo hi : Nat} {d d' : Bytes} (hs : Shared lo hi d d') {cfg : Cfg} {known known' : Places} {i j : Nat}
    {q : Question} (a : lo ≤ i) (b : j ≤ hi) (h : QuestionPlaced cfg d known i q j known') :
    QuestionPlaced cfg d' known i q j known' := by
  obtain ⟨h1, v, h2, h3⟩ := h
  exact ⟨h1, v, h2, hs.items (.inl (by simp [Item.Open, o16])) a b h3⟩

theorem question_forth {d : Bytes} {cfg : Cfg} {known known' : Places} {i j : Nat} {q : Question}
    (h : QuestionPlaced cfg d known i q j known') : i ≤ j := by
  obtain ⟨h1, v, h2, h3⟩ := h
  exact placed_forth h3

theorem head_open (r : ResourceRecord) (v len : UInt16) : ∀ it ∈ recordHead r v len, it.Open := by
  simp [recordHead, Item.Open, o16]

/-- The data of a record. -/
theorem Shared.data {lo j : Nat} {T : Bool} {d d' : Bytes} (hs : Shared lo j d d') {known known' : Places} {k : Nat}
    {its : List Item} (a : lo ≤ k)
    (h : if T then Items.Placed (d.take j) known k its j known' else Items.At PlainName (d.take j) k its j ∧ known = known') :
    if T then Items.Placed (d'.take j) known k its j known' else Items.At PlainName (d'.take j) k its j ∧ known = known' := by
  have hl : (d'.take j).length = (d.take j).length := by have := hs.left; have := hs.right; simp; omega
  cases T
  · exact ⟨hs.take.plainItems hl a (Nat.le_refl _) h.1, h.2⟩
  · exact hs.take.items (.inr hl) a (Nat.le_refl _) h

theorem record_forth {d : Bytes} {T : RecordType → Bool} {cfg : Cfg} {known known' : Places} {i j : Nat}
    {r : ResourceRecord} (h : RecordPlaced T cfg d known i r j known') : i ≤ j := by
  obtain ⟨h1, h2, h3, v, len, k, known1, its, h4, h5, rfl, _⟩ := h
  have := placed_forth h5
  omega

theorem Shared.record {lo hi : Nat} {d d' : Bytes} (hs : Shared lo hi d d') {T : RecordType → Bool} {cfg : Cfg}
    {known known' : Places} {i j : Nat} {r : ResourceRecord} (a : lo ≤ i) (b : j ≤ hi)
    (h : RecordPlaced T cfg d known i r j known') : RecordPlaced T cfg d' known i r j known' := by
  obtain ⟨h1, h2, h3, v, len, k, known1, its, h4, h5, h6, h7, h8, h9⟩ := h
  have hk := placed_forth h5
  exact ⟨h1, h2, h3, v, len, k, known1, its, h4, hs.items (.inl (head_open _ _ _)) a (by omega) h5, h6,
    Nat.le_trans b hs.right, h8, (hs.mono (Nat.le_refl _) b).data (by omega) h9⟩

theorem listPlaced_forth {α : Type} {R : Places → Nat → α → Nat → Places → Prop}
    (hR : ∀ {k k' i j x}, R k i x j k' → i ≤ j) : ∀ {xs : List α} {k k' : Places} {i j : Nat},
      ListPlaced R k i xs j k' → i ≤ j := by
  intro xs
  induction xs with
  | nil => rintro k k' i j ⟨h, _⟩; omega
  | cons x xs ih =>
    rintro k k' i j ⟨m, k1, h1, h2⟩
    exact Nat.le_trans (hR h1) (ih h2)

theorem listPlaced_same {α : Type} {R S : Places → Nat → α → Nat → Places → Prop} {lo hi : Nat}
    (hR : ∀ {k k' i j x}, R k i x j k' → i ≤ j)
    (hS : ∀ {k k' i j x}, lo ≤ i → j ≤ hi → R k i x j k' → S k i x j k') :
    ∀ {xs : List α} {k k' : Places} {i j : Nat}, lo ≤ i → j ≤ hi → ListPlaced R k i xs j k' → ListPlaced S k i xs j k' := by
  intro xs
  induction xs with
  | nil => intro k k' i j _ _ h; exact h
  | cons x xs ih =>
    rintro k k' i j a b ⟨m, k1, h1, h2⟩
    have := hR h1
    have := listPlaced_forth hR h2
    exact ⟨m, k1, hS a (by omega) h1, ih (by omega) b h2⟩

theorem Shared.questions {lo hi : Nat} {d d' : Bytes} (hs : Shared lo hi d d') {cfg : Cfg} {qs : List Question}
    {known known' : Places} {i j : Nat} (a : lo ≤ i) (b : j ≤ hi) (h : ListPlaced (QuestionPlaced cfg d) known i qs j known') :
    ListPlaced (QuestionPlaced cfg d') known i qs j known' :=
  listPlaced_same question_forth hs.question a b h

theorem Shared.records {lo hi : Nat} {d d' : Bytes} (hs : Shared lo hi d d') {T : RecordType → Bool} {cfg : Cfg}
    {rs : List ResourceRecord} {known known' : Places} {i j : Nat} (a : lo ≤ i) (b : j ≤ hi)
    (h : ListPlaced (RecordPlaced T cfg d) known i rs j known') : ListPlaced (RecordPlaced T cfg d') known i rs j known' :=
  listPlaced_same record_forth hs.record a b h

/-! ### Records without pointers -/

theorem plainName_placed (known : Places) {d : Bytes} {i j : Nat} {n : Fqdn} (h : PlainName d i n j) :
    ∃ new, NamePlaced known d i n j new := by
  unfold PlainName at h
  induction h with
  | root h => exact ⟨[], octets_iff.mpr ⟨rfl, (List.getElem?_eq_some_iff.mp h).1, by
      rw [show ([0] : Bytes).length = 1 from rfl, List.take_one]; simp [h]⟩, rfl⟩
  | @label i j n len l h1 h2 h3 h4 h5 ih =>
    obtain ⟨new, ih⟩ := ih
    refine ⟨(i, l :: n) :: new, .inr ⟨by omega, by omega, _, new, ?_, ih, rfl⟩⟩
    rw [show UInt8.ofNat l.length = len by rw [h3, UInt8.ofNat_toNat]]
    exact h4
  | pointer _ _ h => exact absurd h not_false

theorem plainItems_placed {d : Bytes} : ∀ {its : List Item} (known : Places) {i j : Nat}, Items.At PlainName d i its j →
    ∃ known', Items.Placed d known i its j known' := by
  intro its
  induction its with
  | nil => intro known i j h; exact ⟨known, h, rfl⟩
  | cons it its ih =>
    rintro known i j ⟨k, h1, h2⟩
    by_cases hn : ∃ n, it = .name n
    · obtain ⟨n, rfl⟩ := hn
      obtain ⟨new, h3⟩ := plainName_placed known h1
      obtain ⟨known', h4⟩ := ih (known ++ new) h2
      exact ⟨known', k, new, h3, h4⟩
    · have hn' : ∀ n, it ≠ .name n := fun n e => hn ⟨n, e⟩
      obtain ⟨known', h4⟩ := ih known h2
      exact ⟨known', (placed_cons hn').mpr ⟨k, h1, h4⟩⟩

theorem plainRecord_placed {T : RecordType → Bool} {cfg : Cfg} {d : Bytes} {i j : Nat} {r : ResourceRecord}
    (h : RecordAtWith (RDataWritten PlainName cfg) PlainName cfg d i r j) (known : Places) :
    ∃ known', RecordPlaced T cfg d known i r j known' := by
  obtain ⟨h1, h2, v, len, k, h3, h4, h5, h6, h7, its, h8, h9⟩ := h
  obtain ⟨known1, g⟩ := plainItems_placed known h4
  have hl : (d.take j).length = j := by simp; omega
  rw [hl] at h9
  by_cases hT : T r.rdata.type = true
  · obtain ⟨known', g2⟩ := plainItems_placed known1 h9
    exact ⟨known', h1, h2, h7, v, len, k, known1, its, h3, g, h5, h6, h8, by rw [if_pos hT]; exact g2⟩
  · exact ⟨known1, h1, h2, h7, v, len, k, known1, its, h3, g, h5, h6, h8, by rw [if_neg hT]; exact ⟨h9, rfl⟩⟩

end Dns
