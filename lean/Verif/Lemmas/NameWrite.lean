import Verif.Lemmas.NameRead

/-! Names written to messages, plain and compressed. -/

namespace Dns
open Spec Buf

/-- All labels have 1 to `max` octets. -/
def Good (max : Nat) (n : Fqdn) : Prop := ∀ l ∈ n, 1 ≤ l.length ∧ l.length ≤ max

instance (max : Nat) (n : Fqdn) : Decidable (Good max n) := by unfold Good; infer_instance

theorem Good.mono {a b : Nat} {n : Fqdn} (h : Good a n) (hab : a ≤ b) : Good b n :=
  fun l hl => ⟨(h l hl).1, (h l hl).2.trans hab⟩

theorem good_cons {max : Nat} {l : Bytes} {n : Fqdn} :
    Good max (l :: n) ↔ (1 ≤ l.length ∧ l.length ≤ max) ∧ Good max n := by
  simp [Good]

theorem byteSize_foldl (n : Fqdn) (a : Nat) :
    n.foldl (fun acc label => acc + if !label.isEmpty then 1 + label.length else 0) a
      = a + (Fqdn.labelBytes n).length := by
  induction n generalizing a with
  | nil => simp [Fqdn.labelBytes]
  | cons l n ih =>
    simp only [List.foldl_cons, ih, Fqdn.labelBytes, List.length_append]
    split <;> (simp; try omega)

theorem Fqdn.byteSize_eq (n : Fqdn) : n.byteSize = n.toBytes.length := by
  unfold Fqdn.byteSize Fqdn.toBytes
  rw [byteSize_foldl]
  simp [Nat.add_comm]

theorem Fqdn.toBytes_eq {n : Fqdn} (h : ∀ l ∈ n, 1 ≤ l.length) : n.toBytes = nameOctets n := by
  unfold Fqdn.toBytes nameOctets
  congr 1
  induction n with
  | nil => rfl
  | cons l n ih =>
    have hl := h l List.mem_cons_self
    have : l.isEmpty = false := by cases l <;> simp at hl ⊢
    simp [Fqdn.labelBytes, this, lenU8, ih (fun x hx => h x (List.mem_cons_of_mem _ hx))]

theorem nameWith_extend {max : Nat} {a : Nat → Nat → Prop} {d : Bytes} {i j : Nat} {n : Fqdn}
    (h : NameWith max a d i n j) (e : Bytes) : NameWith max a (d ++ e) i n j := by
  induction h with
  | @root i h => exact .root (by rw [List.getElem?_append_left (getElem?_lt h)]; exact h)
  | label h1 h2 h3 h4 _ ih => exact .label h1 h2 h3 (h4.extend e) ih
  | pointer h1 h2 h3 _ ih => exact .pointer h1 (h2.extend e) h3 ih

theorem codeName_extend {d : Bytes} {i j : Nat} {n : Fqdn}
    (h : CodeName d i n j) (e : Bytes) : CodeName (d ++ e) i n j := by
  induction h with
  | @root i h => exact .root (by rw [List.getElem?_append_left (getElem?_lt h)]; exact h)
  | label h1 h2 h3 h4 _ ih => exact .label h1 h2 h3 (h4.extend e) ih
  | pointer h1 h2 h3 h4 => exact .pointer h1 (h2.extend e) h3 (nameWith_extend h4 e)

theorem nameWith_end_le {max : Nat} {a : Nat → Nat → Prop} {d : Bytes} {i j : Nat} {n : Fqdn}
    (h : NameWith max a d i n j) : i < j ∧ j ≤ d.length := by
  induction h with
  | @root i h => have := getElem?_lt h; omega
  | label _ _ _ _ _ ih => omega
  | pointer _ h2 _ _ _ => have := h2.le; omega

theorem codeName_end_le {d : Bytes} {i j : Nat} {n : Fqdn}
    (h : CodeName d i n j) : i < j ∧ j ≤ d.length := nameWith_end_le (codeName_nameWith h)

theorem ofNat_len {max : Nat} (hmax : max ≤ 191) {l : Bytes} (h : l.length ≤ max) :
    (UInt8.ofNat l.length).toNat = l.length := by
  simp; omega

theorem nameWith_plain {max : Nat} (hmax : max ≤ 191) (a : Nat → Nat → Prop) (post : Bytes) :
    ∀ (n : Fqdn) (pre : Bytes), Good max n →
      NameWith max a (pre ++ nameOctets n ++ post) pre.length n (pre.length + (nameOctets n).length) := by
  intro n
  induction n with
  | nil => intro pre _; exact .root (by simp [nameOctets])
  | cons l n ih =>
    intro pre h
    obtain ⟨hl, hn⟩ := good_cons.mp h
    have hlen := ofNat_len hmax hl.2
    have key := ih (pre ++ UInt8.ofNat l.length :: l) hn
    have e1 : nameOctets (l :: n) = UInt8.ofNat l.length :: l ++ nameOctets n := by
      simp [nameOctets]
    rw [e1]
    refine .label (len := UInt8.ofNat l.length) (by omega) (by omega) hlen.symm ?_ ?_
    · exact ⟨pre, nameOctets n ++ post, by simp, rfl, by simp; omega⟩
    · have e2 : pre ++ UInt8.ofNat l.length :: l ++ nameOctets n ++ post
          = pre ++ (UInt8.ofNat l.length :: l ++ nameOctets n) ++ post := by simp
      rw [e2] at key
      convert key using 1 <;> simp <;> omega

theorem nameWith_codeName_of_none {d : Bytes} {i j : Nat} {n : Fqdn}
    (h : NameWith 191 (fun _ _ => False) d i n j) : CodeName d i n j := by
  induction h with
  | root h => exact .root h
  | label h1 h2 h3 h4 _ ih => exact .label h1 h2 h3 h4 ih
  | pointer _ _ h3 _ _ => exact h3.elim

theorem codeName_plain (pre post : Bytes) (n : Fqdn) (h : Good 191 n) :
    CodeName (pre ++ nameOctets n ++ post) pre.length n (pre.length + (nameOctets n).length) :=
  nameWith_codeName_of_none (nameWith_plain (Nat.le_refl _) _ post n pre h)

/-! ## Compression -/

/-- The offset `o` is the position of an encoding of the labels `s` within `d`, all of whose pointers
lead backwards and are in `d`. -/
def Written (max : Nat) (d : Bytes) (o : Nat) (s : Fqdn) : Prop :=
  ∃ j, NameWith max (fun p t => t < p ∧ p < d.length) d o s j

theorem Written.lt {max : Nat} {d : Bytes} {o : Nat} {s : Fqdn} (h : Written max d o s) :
    o < d.length := by
  obtain ⟨j, h⟩ := h; have := nameWith_end_le h; omega

theorem Written.extend {max : Nat} {d : Bytes} {o : Nat} {s : Fqdn} (h : Written max d o s)
    (e : Bytes) : Written max (d ++ e) o s := by
  obtain ⟨j, h⟩ := h
  refine ⟨j, nameWith_mono (Nat.le_refl _) ?_ (nameWith_extend h e)⟩
  intro p t hp
  simp; omega

/-- Every offset remembered for a suffix in `U` is one at which it was written. -/
def MapOk (max : Nat) (U : Fqdn → Prop) (h : Hash) (names : Names) (d : Bytes) : Prop :=
  ∀ s, U s → s ≠ [] → ∀ o, names (h s) = some o → Written max d o s

theorem MapOk.extend {max : Nat} {U : Fqdn → Prop} {h : Hash} {names : Names} {d : Bytes}
    (H : MapOk max U h names d) (e : Bytes) : MapOk max U h names (d ++ e) :=
  fun s hs hne o ho => (H s hs hne o ho).extend e

theorem mapOk_empty (max : Nat) (U : Fqdn → Prop) (h : Hash) (d : Bytes) :
    MapOk max U h Names.empty d := by
  intro s _ _ o ho; cases ho

/-- `U` contains the suffixes of its members. -/
def TailClosed (U : Fqdn → Prop) : Prop := ∀ l ls, U (l :: ls) → U ls

/-- The hash function has no collisions on `U`. -/
def InjOn (U : Fqdn → Prop) (h : Hash) : Prop := ∀ a b, U a → U b → h a = h b → a = b

theorem pointer_octets {o : Nat} (h : o < 16384) :
    u16be (UInt16.ofNat o ||| 0xC000) = [UInt8.ofNat (192 + o / 256), UInt8.ofNat (o % 256)] := by
  have e : (UInt16.ofNat o ||| 0xC000).toNat = 49152 + o := by
    rw [UInt16.toNat_or, UInt16.toNat_ofNat_of_lt' (by simp [UInt16.size]; omega)]
    have : o ||| 49152 = 49152 + o := by
      have h2 := Nat.two_pow_add_eq_or_of_lt (i := 14) (b := o) (by omega) 3
      rw [Nat.or_comm]
      simpa using h2.symm
    simpa using this
  unfold u16be
  rw [toBE_two, e]
  congr 1
  · congr 1; omega
  · congr 1
    apply UInt8.toNat_inj.mp
    simp

theorem nameWith_pointer {max : Nat} {a : Nat → Nat → Prop} {pre : Bytes} {o : Nat} {s : Fqdn} {j : Nat}
    (ho : o < 16384) (ha : a pre.length o)
    (h : NameWith max a (pre ++ u16be (UInt16.ofNat o ||| 0xC000)) o s j) :
    NameWith max a (pre ++ u16be (UInt16.ofNat o ||| 0xC000)) pre.length s (pre.length + 2) := by
  rw [pointer_octets ho] at h ⊢
  have e1 : (UInt8.ofNat (192 + o / 256)).toNat = 192 + o / 256 := by simp; omega
  have e2 : (UInt8.ofNat (o % 256)).toNat = o % 256 := by simp
  have e3 : ((UInt8.ofNat (192 + o / 256)).toNat - 192) * 256 + (UInt8.ofNat (o % 256)).toNat = o := by
    rw [e1, e2]; omega
  refine .pointer (hi := UInt8.ofNat (192 + o / 256)) (lo := UInt8.ofNat (o % 256)) (by rw [e1]; omega)
    ⟨pre, [], by simp, rfl, rfl⟩ ?_ ?_ (k := j)
  · rw [e3]; exact ha
  · rw [e3]; exact h

/-- Writing a name with compression. -/
theorem compressed_name {max : Nat} (hmax : max ≤ 191) {h : Hash} {U : Fqdn → Prop}
    (hU : TailClosed U) (hinj : InjOn U h) :
    ∀ (n : Fqdn) (names : Names) (pre : Bytes), U n → Good max n →
      (∀ s, s <:+ n → s ≠ [] → ∀ o, names (h s) = some o → Written max pre o s) →
      (pre ++ (n.toBytesCompressed h names pre.length).1).length ≤ 16384 →
      NameWith max (fun p t => t < p ∧ p < (pre ++ (n.toBytesCompressed h names pre.length).1).length)
        (pre ++ (n.toBytesCompressed h names pre.length).1) pre.length n
        (pre ++ (n.toBytesCompressed h names pre.length).1).length ∧
      CodeName (pre ++ (n.toBytesCompressed h names pre.length).1) pre.length n
        (pre ++ (n.toBytesCompressed h names pre.length).1).length ∧
      (∀ k o, (n.toBytesCompressed h names pre.length).2 k = some o → names k = some o ∨
        ∃ s, s <:+ n ∧ s ≠ [] ∧ k = h s ∧
          Written max (pre ++ (n.toBytesCompressed h names pre.length).1) o s) := by
  intro n
  induction n with
  | nil =>
    intro names pre _ _ _ _
    refine ⟨?_, ?_, fun k o hk => .inl hk⟩
    · have := NameWith.root (max := max) (allowed := fun p t => t < p ∧ p < (pre ++ [0]).length)
        (d := pre ++ [0]) (i := pre.length) (by simp)
      simpa [Fqdn.toBytesCompressed] using this
    · have := CodeName.root (d := pre ++ [0]) (i := pre.length) (by simp)
      simpa [Fqdn.toBytesCompressed] using this
  | cons l ls ih =>
    intro names pre hUn hgood hnames hlen
    obtain ⟨hl, hgood'⟩ := good_cons.mp hgood
    unfold Fqdn.toBytesCompressed at hlen ⊢
    rcases hm : names (h (l :: ls)) with _ | o
    · -- a new label
      rw [hm] at hlen
      simp only [] at hlen ⊢
      have hn8 := ofNat_len hmax hl.2
      have key := ih (names.insert (h (l :: ls)) pre.length) (pre ++ lenU8 l.length :: l) (hU _ _ hUn) hgood' ?_
      · have eoff : (pre ++ lenU8 l.length :: l).length = pre.length + (l.length + 1) := by simp
        rw [eoff] at key
        generalize hr : Fqdn.toBytesCompressed h ls (names.insert (h (l :: ls)) pre.length)
          (pre.length + (l.length + 1)) = r at key hlen ⊢
        have ed : pre ++ lenU8 l.length :: l ++ r.1 = pre ++ lenU8 l.length :: (l ++ r.1) := by simp
        rw [ed] at key
        obtain ⟨k1, k2, k3⟩ := key hlen
        have hoct : Octets (pre ++ lenU8 l.length :: (l ++ r.1)) pre.length (lenU8 l.length :: l)
            (pre.length + 1 + l.length) := ⟨pre, r.1, by simp, rfl, by simp; omega⟩
        have c1 : NameWith max (fun p t => t < p ∧ p < (pre ++ lenU8 l.length :: (l ++ r.1)).length)
            (pre ++ lenU8 l.length :: (l ++ r.1)) pre.length (l :: ls)
            (pre ++ lenU8 l.length :: (l ++ r.1)).length := by
          refine .label (len := lenU8 l.length) ?_ ?_ ?_ hoct ?_
          · unfold lenU8; omega
          · unfold lenU8; omega
          · unfold lenU8; omega
          · convert k1 using 1; omega
        refine ⟨c1, ?_, ?_⟩
        · refine .label (len := lenU8 l.length) ?_ ?_ ?_ hoct ?_
          · unfold lenU8; omega
          · unfold lenU8; omega
          · unfold lenU8; omega
          · convert k2 using 1; omega
        · intro k o hk
          rcases k3 k o hk with hk | ⟨s, hs, hne, rfl, hw⟩
          · unfold Names.insert at hk
            split at hk
            · rename_i hkk
              cases hk
              exact .inr ⟨l :: ls, List.suffix_refl _, by simp, hkk, _, c1⟩
            · exact .inl hk
          · exact .inr ⟨s, hs.trans (List.suffix_cons _ _), hne, rfl, hw⟩
      · intro s hs hne o ho
        unfold Names.insert at ho
        have hsU : U s := by
          have : ∀ t : Fqdn, U t → ∀ s, s <:+ t → U s := by
            intro t
            induction t with
            | nil => intro ht s hs; rw [List.suffix_nil.mp hs]; exact ht
            | cons a t iht =>
              intro ht s hs
              rcases List.suffix_cons_iff.mp hs with rfl | hs
              · exact ht
              · exact iht (hU _ _ ht) s hs
          exact this _ (hU _ _ hUn) s hs
        split at ho
        · rename_i hkk
          have := hinj _ _ hsU hUn hkk
          have hle := hs.length_le
          rw [this] at hle
          simp at hle
        · exact (hnames s (hs.trans (List.suffix_cons _ _)) hne o ho).extend _
    · -- a pointer
      rw [hm] at hlen
      simp only [] at hlen ⊢
      have hw := hnames (l :: ls) (List.suffix_refl _) (by simp) o hm
      have ho := hw.lt
      have ho' : o < 16384 := by simp at hlen; omega
      obtain ⟨j, hj⟩ := hw
      have hl2 : (u16be (UInt16.ofNat o ||| 0xC000)).length = 2 := by rw [pointer_octets ho']; rfl
      have hend : (pre ++ u16be (UInt16.ofNat o ||| 0xC000)).length = pre.length + 2 := by simp [hl2]
      refine ⟨?_, ?_, fun k o hk => .inl hk⟩
      · rw [hend]
        refine nameWith_pointer (j := j) ho' ?_ ?_
        · omega
        · refine nameWith_mono (Nat.le_refl _) ?_ (nameWith_extend hj _)
          intro p t hp; omega
      · rw [hend]
        have hnw : NameWith 191 (fun _ t => t < pre.length + 1)
            (pre ++ u16be (UInt16.ofNat o ||| 0xC000)) o (l :: ls) j :=
          nameWith_mono hmax (fun p t hp => by omega) (nameWith_extend hj _)
        have e1 : (UInt8.ofNat (192 + o / 256)).toNat = 192 + o / 256 := by simp; omega
        have e2 : (UInt8.ofNat (o % 256)).toNat = o % 256 := by simp
        have e3 : ((UInt8.ofNat (192 + o / 256)).toNat - 192) * 256 + (UInt8.ofNat (o % 256)).toNat
            = o := by rw [e1, e2]; omega
        rw [pointer_octets ho'] at hnw ⊢
        refine .pointer (hi := UInt8.ofNat (192 + o / 256)) (lo := UInt8.ofNat (o % 256)) (k := j)
          (by rw [e1]; omega) ⟨pre, [], by simp, rfl, rfl⟩ ?_ ?_
        · rw [e3]; omega
        · rw [e3]; exact hnw

theorem tailClosed_suffix {U : Fqdn → Prop} (hU : TailClosed U) : ∀ {t s : Fqdn}, U t → s <:+ t → U s := by
  intro t
  induction t with
  | nil => intro s ht hs; rw [List.suffix_nil.mp hs]; exact ht
  | cons a t iht =>
    intro s ht hs
    rcases List.suffix_cons_iff.mp hs with rfl | hs
    · exact ht
    · exact iht (hU _ _ ht) hs

/-- Writing a name with compression keeps the map right. -/
theorem compressed_mapOk {max : Nat} (hmax : max ≤ 191) {h : Hash} {U : Fqdn → Prop}
    (hU : TailClosed U) (hinj : InjOn U h) {n : Fqdn} {names : Names} {pre : Bytes} (hn : U n)
    (hg : Good max n) (hm : MapOk max U h names pre)
    (hlen : (pre ++ (n.toBytesCompressed h names pre.length).1).length ≤ 16384) :
    MapOk max U h (n.toBytesCompressed h names pre.length).2
      (pre ++ (n.toBytesCompressed h names pre.length).1) := by
  have key := (compressed_name hmax hU hinj n names pre hn hg
    (fun s hs hne o ho => hm s (tailClosed_suffix hU hn hs) hne o ho) hlen).2.2
  intro s hs hne o ho
  rcases key _ _ ho with h1 | ⟨s', h1, h2, h3, h4⟩
  · exact (hm s hs hne o h1).extend _
  · rw [hinj s s' hs (tailClosed_suffix hU hn h1) h3]; exact h4

theorem compressed_codeName {max : Nat} (hmax : max ≤ 191) {h : Hash} {U : Fqdn → Prop}
    (hU : TailClosed U) (hinj : InjOn U h) {n : Fqdn} {names : Names} {pre : Bytes} (hn : U n)
    (hg : Good max n) (hm : MapOk max U h names pre)
    (hlen : (pre ++ (n.toBytesCompressed h names pre.length).1).length ≤ 16384) :
    CodeName (pre ++ (n.toBytesCompressed h names pre.length).1) pre.length n
      (pre ++ (n.toBytesCompressed h names pre.length).1).length :=
  (compressed_name hmax hU hinj n names pre hn hg
    (fun s hs hne o ho => hm s (tailClosed_suffix hU hn hs) hne o ho) hlen).2.1

theorem compressed_nameWith {max : Nat} (hmax : max ≤ 191) {h : Hash} {U : Fqdn → Prop}
    (hU : TailClosed U) (hinj : InjOn U h) {n : Fqdn} {names : Names} {pre : Bytes} (hn : U n)
    (hg : Good max n) (hm : MapOk max U h names pre)
    (hlen : (pre ++ (n.toBytesCompressed h names pre.length).1).length ≤ 16384) :
    NameWith max (fun p t => t < p)
      (pre ++ (n.toBytesCompressed h names pre.length).1) pre.length n
      (pre ++ (n.toBytesCompressed h names pre.length).1).length :=
  nameWith_mono (Nat.le_refl _) (fun _ _ hp => hp.1)
    (compressed_name hmax hU hinj n names pre hn hg
      (fun s hs hne o ho => hm s (tailClosed_suffix hU hn hs) hne o ho) hlen).1

theorem compressed_le (h : Hash) : ∀ (n : Fqdn) (names : Names) (off : Nat), (∀ l ∈ n, 1 ≤ l.length) →
    (n.toBytesCompressed h names off).1.length ≤ n.toBytes.length := by
  intro n
  induction n with
  | nil => intro names off _; simp [Fqdn.toBytesCompressed, Fqdn.toBytes]
  | cons l n ih =>
    intro names off hn
    have hl := hn l List.mem_cons_self
    have hne : l.isEmpty = false := by cases l <;> simp at hl ⊢
    have hnil : l ≠ [] := by rintro rfl; simp at hl
    unfold Fqdn.toBytesCompressed
    split
    · simp [u16be, toBE, Fqdn.toBytes, Fqdn.labelBytes, hnil]; omega
    · have := ih (names.insert (h (l :: n)) off) (off + (l.length + 1))
        (fun x hx => hn x (List.mem_cons_of_mem _ hx))
      simp [Fqdn.toBytes, Fqdn.labelBytes, hnil] at this ⊢
      omega

theorem byteSizeCompressed_eq (h : Hash) : ∀ (n : Fqdn) (names : Names) (off : Nat),
    (n.byteSizeCompressed h names off).1 = (n.toBytesCompressed h names off).1.length ∧
    (n.byteSizeCompressed h names off).2 = (n.toBytesCompressed h names off).2 := by
  intro n
  induction n with
  | nil => intro names off; simp [Fqdn.byteSizeCompressed, Fqdn.toBytesCompressed]
  | cons l n ih =>
    intro names off
    unfold Fqdn.byteSizeCompressed Fqdn.toBytesCompressed
    split
    · simp [u16be, toBE]
    · simp only [List.length_cons, List.length_append, (ih _ _).1, (ih _ _).2, and_true]
      omega

end Dns
