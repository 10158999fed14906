import Verif.Lemmas.RDataParse2
import Verif.Lemmas.NameWrite

/-! Written items are read again, with and without name compression. -/

namespace Dns
open Spec

/-- The parts of the item fit into its fields. -/
def Spec.Item.Fits (max : Nat) : Item → Prop
  | .num k v => v < 256 ^ k
  | .name n => Good max n
  | .str b => b.length < 256
  | .str16 b => b.length < 65536
  | _ => True

/-- The item does not extend to the end of the data. -/
def Spec.Item.Open : Item → Prop
  | .rest _ | .eof => False
  | _ => True

theorem toBE_value (k v : Nat) (h : v < 256 ^ k) : valueOf (toBE k v) = v := by
  rw [valueOf_eq, ofBE_toBE, Nat.mod_eq_of_lt h]

theorem octets_end (pre b : Bytes) : Octets (pre ++ b) pre.length b (pre ++ b).length :=
  ⟨pre, [], by simp, rfl, by simp⟩

/-- Items that are no names. -/
theorem item_plain {N : NameRel} {max : Nat} {it : Item} (hf : it.Fits max) (pre : Bytes)
    (hn : ∀ n, it = .name n → N (pre ++ it.octets) pre.length n (pre ++ it.octets).length) :
    it.At N (pre ++ it.octets) pre.length (pre ++ it.octets).length := by
  cases it with
  | u8 v => exact octets_end _ _
  | u16 v => exact octets_end _ _
  | u32 v => exact octets_end _ _
  | num k v =>
    refine ⟨_, octets_end _ _, by simp [Item.octets], ?_⟩
    rw [Item.octets, ← toBE_eq_map]
    exact toBE_value k v hf
  | name n => exact hn n rfl
  | raw b => exact octets_end _ _
  | str b => exact ⟨hf, octets_end _ _⟩
  | str16 b => exact ⟨hf, octets_end _ _⟩
  | rest b => exact ⟨octets_end _ _, rfl⟩
  | eof => simp [Item.At, Item.octets]

/-- A relation that does not depend on what follows. -/
def Extends (N : NameRel) : Prop := ∀ d e i n j, N d i n j → N (d ++ e) i n j

theorem item_extend {N : NameRel} (hN : Extends N) {it : Item} (ho : it.Open) {d : Bytes} {i j : Nat}
    (h : it.At N d i j) (e : Bytes) : it.At N (d ++ e) i j := by
  cases it with
  | u8 v => exact Octets.extend h e
  | u16 v => exact Octets.extend h e
  | u32 v => exact Octets.extend h e
  | num k v => obtain ⟨b, h1, h2⟩ := h; exact ⟨b, h1.extend e, h2⟩
  | name n => exact hN _ _ _ _ _ h
  | raw b => exact Octets.extend h e
  | str b => exact ⟨h.1, h.2.extend e⟩
  | str16 b => exact ⟨h.1, h.2.extend e⟩
  | rest b => exact ho.elim
  | eof => exact ho.elim

theorem items_extend {N : NameRel} (hN : Extends N) {its : List Item} (ho : ∀ it ∈ its, it.Open)
    {d : Bytes} {i j : Nat} (h : Items.At N d i its j) (e : Bytes) : Items.At N (d ++ e) i its j := by
  induction its generalizing i with
  | nil => exact h
  | cons it its ih =>
    obtain ⟨k, h1, h2⟩ := h
    exact ⟨k, item_extend hN (ho _ List.mem_cons_self) h1 e,
      ih (fun it hit => ho it (List.mem_cons_of_mem _ hit)) h2⟩

theorem octets_cons (it : Item) (its : List Item) :
    Items.octets (it :: its) = it.octets ++ Items.octets its := rfl

theorem octets_append_items (a b : List Item) :
    Items.octets (a ++ b) = Items.octets a ++ Items.octets b := by
  simp [Items.octets]

theorem dropLast_cons_of_ne {α : Type} {x : α} {xs : List α} (h : xs ≠ []) :
    (x :: xs).dropLast = x :: xs.dropLast := by
  cases xs with
  | nil => exact absurd rfl h
  | cons y ys => rfl

/-- Items written one after the other, names label by label. -/
theorem items_plain {N : NameRel} (hN : Extends N) {max : Nat}
    (hp : ∀ pre n, Good max n → N (pre ++ nameOctets n) pre.length n (pre ++ nameOctets n).length) :
    ∀ (its : List Item) (pre : Bytes), (∀ it ∈ its, it.Fits max) → (∀ it ∈ its.dropLast, it.Open) →
      Items.At N (pre ++ Items.octets its) pre.length its (pre ++ Items.octets its).length := by
  intro its
  induction its with
  | nil => intro pre _ _; simp [Items.At, Items.octets]
  | cons it its ih =>
    intro pre hf ho
    have h1 : it.At N (pre ++ it.octets) pre.length (pre ++ it.octets).length := by
      refine item_plain (hf _ List.mem_cons_self) pre ?_
      rintro n rfl
      exact hp pre n (hf _ List.mem_cons_self)
    rw [octets_cons, ← List.append_assoc]
    by_cases hne : its = []
    · subst hne
      simp only [Items.octets, List.map_nil, List.flatten_nil, List.append_nil]
      exact ⟨_, h1, rfl⟩
    · rw [dropLast_cons_of_ne hne] at ho
      exact ⟨_, item_extend hN (ho _ List.mem_cons_self) h1 _,
        ih (pre ++ it.octets) (fun it hit => hf it (List.mem_cons_of_mem _ hit))
          (fun it hit => ho it (List.mem_cons_of_mem _ hit))⟩

theorem decodes_extends : Extends Decodes := by
  intro d e i n j h
  exact extractFqdn_ok.mpr (codeName_extend (extractFqdn_ok.mp h) e)

theorem decodes_plain (pre : Bytes) (n : Fqdn) (h : Good 191 n) :
    Decodes (pre ++ nameOctets n) pre.length n (pre ++ nameOctets n).length := by
  have := codeName_plain pre [] n h
  rw [List.append_nil, ← List.length_append] at this
  exact extractFqdn_ok.mpr this

theorem items_decode {max : Nat} (hmax : max ≤ 191) (its : List Item) (pre : Bytes)
    (hf : ∀ it ∈ its, it.Fits max) (ho : ∀ it ∈ its.dropLast, it.Open) :
    Items.At Decodes (pre ++ Items.octets its) pre.length its (pre ++ Items.octets its).length :=
  items_plain decodes_extends (fun pre n h => decodes_plain pre n (h.mono hmax)) its pre hf ho

/-! ## Compression -/

/-- Octets of an item when names are compressed. -/
def Item.compress (h : Hash) (it : Item) (names : Names) (off : Nat) : Bytes × Names :=
  match it with
  | .name n => n.toBytesCompressed h names off
  | it => (it.octets, names)

/-- Octets of items when names are compressed. -/
def Items.compress (h : Hash) : List Item → Names → Nat → Bytes × Names
  | [], names, _ => ([], names)
  | it :: its, names, off =>
    let a := Item.compress h it names off
    let b := Items.compress h its a.2 (off + a.1.length)
    (a.1 ++ b.1, b.2)

theorem items_compress_append (h : Hash) (a b : List Item) (names : Names) (off : Nat) :
    Items.compress h (a ++ b) names off =
      ((Items.compress h a names off).1 ++
        (Items.compress h b (Items.compress h a names off).2
          (off + (Items.compress h a names off).1.length)).1,
       (Items.compress h b (Items.compress h a names off).2
          (off + (Items.compress h a names off).1.length)).2) := by
  induction a generalizing names off with
  | nil => simp [Items.compress]
  | cons x xs ih => simp [Items.compress, ih, Nat.add_assoc]

theorem items_compress_noname (h : Hash) (its : List Item) (names : Names) (off : Nat)
    (hn : ∀ n, .name n ∉ its) : Items.compress h its names off = (Items.octets its, names) := by
  induction its generalizing off with
  | nil => rfl
  | cons it its ih =>
    have h1 : Item.compress h it names off = (it.octets, names) := by
      cases it with
      | name n => exact absurd List.mem_cons_self (hn n)
      | _ => rfl
    rw [Items.compress]
    simp only [h1]
    rw [ih _ (fun n hm => hn n (List.mem_cons_of_mem _ hm))]
    rfl

theorem items_compress_le (h : Hash) (its : List Item) (names : Names) (off max : Nat)
    (hf : ∀ it ∈ its, it.Fits max) :
    (Items.compress h its names off).1.length ≤ (Items.octets its).length := by
  induction its generalizing names off with
  | nil => simp [Items.compress]
  | cons it its ih =>
    have h1 : (Item.compress h it names off).1.length ≤ it.octets.length := by
      cases it with
      | name n =>
        have hg : Good max n := hf _ List.mem_cons_self
        rw [Item.octets, ← Fqdn.toBytes_eq (fun l hl => (hg l hl).1)]
        exact compressed_le h n names off (fun l hl => (hg l hl).1)
      | _ => exact Nat.le_refl _
    have h2 := ih (Item.compress h it names off).2 (off + (Item.compress h it names off).1.length)
      (fun it hit => hf it (List.mem_cons_of_mem _ hit))
    rw [octets_cons]
    simp only [Items.compress, List.length_append]
    omega

/-- Items written one after the other with compression: they are read again, and the map of names
stays right. -/
theorem items_compressed {N : NameRel} (hN : Extends N) {max : Nat} (hmax : max ≤ 191) {h : Hash}
    {U : Fqdn → Prop} (hU : TailClosed U) (hinj : InjOn U h)
    (hp : ∀ (pre : Bytes) (n : Fqdn) (names : Names), U n → Good max n → MapOk max U h names pre →
      (pre ++ (n.toBytesCompressed h names pre.length).1).length ≤ 16384 →
      N (pre ++ (n.toBytesCompressed h names pre.length).1) pre.length n
        (pre ++ (n.toBytesCompressed h names pre.length).1).length) :
    ∀ (its : List Item) (names : Names) (pre : Bytes), (∀ it ∈ its, it.Fits max) →
      (∀ it ∈ its.dropLast, it.Open) → (∀ n, .name n ∈ its → U n) → MapOk max U h names pre →
      (pre ++ (Items.compress h its names pre.length).1).length ≤ 16384 →
      Items.At N (pre ++ (Items.compress h its names pre.length).1) pre.length its
        (pre ++ (Items.compress h its names pre.length).1).length ∧
      MapOk max U h (Items.compress h its names pre.length).2
        (pre ++ (Items.compress h its names pre.length).1) := by
  intro its
  induction its with
  | nil =>
    intro names pre _ _ _ hm _
    exact ⟨by simp [Items.At, Items.compress], by simpa [Items.compress] using hm⟩
  | cons it its ih =>
    intro names pre hf ho hu hm hlen
    set a := Item.compress h it names pre.length with ha
    have hc : Items.compress h (it :: its) names pre.length =
        (a.1 ++ (Items.compress h its a.2 (pre ++ a.1).length).1,
          (Items.compress h its a.2 (pre ++ a.1).length).2) := by
      rw [Items.compress, List.length_append]
    rw [hc] at hlen ⊢
    dsimp only at hlen ⊢
    rw [← List.append_assoc] at hlen ⊢
    have hlen1 : (pre ++ a.1).length ≤ 16384 := by
      rw [List.length_append] at hlen; omega
    have h1 : it.At N (pre ++ a.1) pre.length (pre ++ a.1).length ∧ MapOk max U h a.2 (pre ++ a.1) := by
      by_cases hn : ∃ n, it = .name n
      · obtain ⟨n, rfl⟩ := hn
        have hg : Good max n := hf _ List.mem_cons_self
        exact ⟨hp pre n names (hu n List.mem_cons_self) hg hm hlen1,
          compressed_mapOk hmax hU hinj (hu n List.mem_cons_self) hg hm hlen1⟩
      · have ha' : a = (it.octets, names) := by
          rw [ha]
          cases it with
          | name n => exact absurd ⟨n, rfl⟩ hn
          | _ => rfl
        rw [ha']
        refine ⟨item_plain (hf _ List.mem_cons_self) pre ?_, hm.extend _⟩
        rintro n rfl
        exact absurd ⟨n, rfl⟩ hn
    by_cases hne : its = []
    · subst hne
      simp only [Items.compress, List.append_nil]
      exact ⟨⟨_, h1.1, rfl⟩, h1.2⟩
    · rw [dropLast_cons_of_ne hne] at ho
      obtain ⟨h2, h3⟩ := ih a.2 (pre ++ a.1) (fun it hit => hf it (List.mem_cons_of_mem _ hit))
        (fun it hit => ho it (List.mem_cons_of_mem _ hit))
        (fun n hn => hu n (List.mem_cons_of_mem _ hn)) h1.2 hlen
      exact ⟨⟨_, item_extend hN (ho _ List.mem_cons_self) h1.1 _, h2⟩, h3⟩

end Dns
