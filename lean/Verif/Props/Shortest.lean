import Verif.Spec.Shortest
import Verif.Props.Repeat
import Verif.Props.PacketSize

/-
C107: no way to compress the names gives a shorter message.
-/

namespace Dns
open Spec

theorem plainSize_append (a b : List Fqdn) : plainSize (a ++ b) = plainSize a + plainSize b := by simp [plainSize]

theorem toBytes_nameSize (n : Fqdn) (hn : ∀ l ∈ n, 1 ≤ l.length) : n.toBytes.length = nameSize n + 1 := by
  have key : ∀ n : Fqdn, (∀ l ∈ n, 1 ≤ l.length) → (Fqdn.labelBytes n).length = nameSize n := by
    intro n
    induction n with
    | nil => intro _; rfl
    | cons l n ih =>
      intro hn
      have h1 := hn l (by simp)
      have h2 := ih (fun m hm => hn m (by simp [hm]))
      have h3 : (!l.isEmpty) = true := by cases l <;> simp_all
      simp only [Fqdn.labelBytes, h3, if_true, nameSize, List.map_cons, List.sum_cons, List.length_append,
        List.length_cons] at h2 ⊢
      omega
  simp [Fqdn.toBytes, key n hn]

theorem encodings_append : ∀ {a b : List Fqdn} {seen : List Fqdn} {ks : List Nat}, Encodings seen (a ++ b) ks →
    ∃ xs ys, ks = xs ++ ys ∧ Encodings seen a xs ∧ Encodings (seen ++ a) b ys := by
  intro a
  induction a with
  | nil => intro b seen ks h; exact ⟨[], ks, rfl, rfl, by simpa using h⟩
  | cons n a ih =>
    rintro b seen ks ⟨k, ks', rfl, h1, h2⟩
    obtain ⟨xs, ys, rfl, h3, h4⟩ := ih h2
    exact ⟨k :: xs, ys, rfl, ⟨k, xs, rfl, h1, h3⟩, by simpa using h4⟩

/-- No name has an empty label. -/
def Part.Full : Part → Prop
  | .question q => ∀ l ∈ q.qName, 1 ≤ l.length
  | .record r => (∀ l ∈ r.name, 1 ≤ l.length) ∧ ∀ n ∈ rdataNames r.rdata, ∀ l ∈ n, 1 ≤ l.length

section
variable {U : Fqdn → Prop} {h : Hash}

theorem Seen.best {seen : List Fqdn} {m : Names} (hs : Seen h U seen m) {n : Fqdn} (hn : ∀ l ∈ n, 1 ≤ l.length)
    (off : Nat) {k : Nat} (hk : EncodedIn seen n k) :
    (n.toBytesCompressed h m off).1.length + (nameSize n + 1) ≤ n.toBytes.length + k := by
  have he := toBytes_nameSize n hn
  rcases hk with rfl | ⟨front, rest, h1, h2, h3, rfl⟩
  · have := compressed_le h n m off hn
    omega
  · have := hs.knows.short n m off (fun _ hk => hk) front rest h1 h2 h3
    simp only [nameSize] at he ⊢
    omega

variable (hU : TailClosed U) (hi : InjOn U h)
include hU hi

theorem Seen.bestData {seen : List Fqdn} {m : Names} (hs : Seen h U seen m) (cfg : Cfg) (r : RecordData)
    (hr : ∀ n ∈ rdataNames r, U n) (hl : ∀ n ∈ rdataNames r, ∀ l ∈ n, 1 ≤ l.length) (off : Nat) (b : Bytes × Names)
    (hb : r.toBytesCompressed cfg h m off = .ok b) (a : Bytes) (ha : r.toBytes cfg = .ok a) (ks : List Nat)
    (hk : Encodings seen (if mayCompress r.type then rdataNames r else []) ks) :
    b.1.length + plainSize (if mayCompress r.type then rdataNames r else []) ≤ a.length + ks.sum := by
  have hle := rdata_compressed_le hl ha (show r.toBytesCompressed cfg h m off = .ok (b.1, b.2) from hb)
  by_cases hm : mayCompress r.type = true
  · rw [if_pos hm] at hk ⊢
    cases r <;> first | exact absurd hm Bool.false_ne_true | skip
    case NS r =>
      cases hb; cases ha
      obtain ⟨k, ks', rfl, h1, rfl⟩ := hk
      have := hs.best (hl r.nsdname (by simp [rdataNames])) off h1
      exact (show plainSize [r.nsdname] = nameSize r.nsdname + 1 by simp [plainSize]) ▸
        (show [k].sum = k by simp) ▸ this
    case CNAME r =>
      cases hb; cases ha
      obtain ⟨k, ks', rfl, h1, rfl⟩ := hk
      have := hs.best (hl r.cname (by simp [rdataNames])) off h1
      exact (show plainSize [r.cname] = nameSize r.cname + 1 by simp [plainSize]) ▸
        (show [k].sum = k by simp) ▸ this
    case PTR r =>
      cases hb; cases ha
      obtain ⟨k, ks', rfl, h1, rfl⟩ := hk
      have := hs.best (hl r.ptrdname (by simp [rdataNames])) off h1
      exact (show plainSize [r.ptrdname] = nameSize r.ptrdname + 1 by simp [plainSize]) ▸
        (show [k].sum = k by simp) ▸ this
    case MX r =>
      cases hb; cases ha
      obtain ⟨k, ks', rfl, h1, rfl⟩ := hk
      have := hs.best (hl r.exchange (by simp [rdataNames])) (off + 2) h1
      simp only [plainSize, rdataNames, Mx.toBytesCompressed, Mx.toBytes, List.length_append, List.map_cons,
        List.map_nil, List.sum_cons, List.sum_nil]
      omega
    case SOA r =>
      cases hb; cases ha
      obtain ⟨k, ks', rfl, h1, k', ks'', rfl, h2, rfl⟩ := hk
      have e1 := hs.best (hl r.mname (by simp [rdataNames])) off h1
      have e2 := (hs.name hU hi r.mname (hr _ (by simp [rdataNames])) off).2.best
        (hl r.rname (by simp [rdataNames])) (off + (r.mname.toBytesCompressed h m off).1.length) h2
      simp only [plainSize, rdataNames, Soa.toBytesCompressed, Soa.toBytes, List.length_append, List.map_cons,
        List.map_nil, List.sum_cons, List.sum_nil]
      omega
    case MINFO r =>
      cases hb; cases ha
      obtain ⟨k, ks', rfl, h1, k', ks'', rfl, h2, rfl⟩ := hk
      have e1 := hs.best (hl r.rmailbx (by simp [rdataNames])) off h1
      have e2 := (hs.name hU hi r.rmailbx (hr _ (by simp [rdataNames])) off).2.best
        (hl r.emailbx (by simp [rdataNames])) (off + (r.rmailbx.toBytesCompressed h m off).1.length) h2
      simp only [plainSize, rdataNames, Minfo.toBytesCompressed, Minfo.toBytes, List.length_append, List.map_cons,
        List.map_nil, List.sum_cons, List.sum_nil]
      omega
  · rw [if_neg hm] at hk ⊢
    cases hk
    simpa [plainSize] using hle

theorem Seen.bestPart {seen : List Fqdn} {m : Names} (hs : Seen h U seen m) (cfg : Cfg) (x : Part)
    (hx : match x with | .question q => U q.qName | .record r => U r.name ∧ ∀ n ∈ rdataNames r.rdata, U n)
    (hl : x.Full)
    (off : Nat) (b : Bytes × Names) (hb : x.toBytesCompressed cfg h m off = .ok b) (a : Bytes)
    (ha : x.toBytes cfg = .ok a) (ks : List Nat) (hk : Encodings seen x.names ks) :
    b.1.length + plainSize x.names ≤ a.length + ks.sum := by
  cases x with
  | question q =>
    cases hb; cases ha
    obtain ⟨k, ks', rfl, h1, rfl⟩ := hk
    have := hs.best hl off h1
    simp only [plainSize, Part.names, Question.toBytesCompressed, Question.toBytes, List.length_append, List.map_cons,
        List.map_nil, List.sum_cons, List.sum_nil]
    omega
  | record r =>
    simp only [Part.toBytesCompressed, ResourceRecord.toBytesCompressed, Res.bind_eq_ok, Res.pure_eq,
      Res.ok.injEq] at hb
    obtain ⟨d, hd, rfl⟩ := hb
    simp only [Part.toBytes, ResourceRecord.toBytes, Res.bind_eq_ok, Res.pure_eq, Res.ok.injEq] at ha
    obtain ⟨size, _, e, he, rfl⟩ := ha
    obtain ⟨k, ks', rfl, h1, h2⟩ := hk
    have e1 := hs.best hl.1 off h1
    have e2 := (hs.name hU hi r.name hx.1 off).2.bestData hU hi cfg r.rdata hx.2 hl.2 _ d hd e he ks' h2
    simp only [plainSize, Part.names, ResourceRecord.headCompressed, List.length_append, List.map_cons,
        List.sum_cons] at e2 ⊢
    simp [u16be, u32be, toBE] at e2 ⊢
    omega

theorem Seen.bestParts (cfg : Cfg) : ∀ (xs : List Part) {seen : List Fqdn} {m : Names}, Seen h U seen m →
    (∀ x ∈ xs, match x with | .question q => U q.qName | .record r => U r.name ∧ ∀ n ∈ rdataNames r.rdata, U n) →
    (∀ x ∈ xs, x.Full) →
    ∀ (off : Nat) (b : Bytes × Names), partsCompressed cfg h xs m off = .ok b → ∀ a, partsBytes cfg xs = .ok a →
      ∀ ks, Encodings seen (xs.flatMap Part.names) ks →
      b.1.length + plainSize (xs.flatMap Part.names) ≤ a.length + ks.sum := by
  intro xs
  induction xs with
  | nil => intro seen m hs _ _ off b hb a ha ks hk; cases hb; cases ha; cases hk; simp [plainSize]
  | cons x xs ih =>
    intro seen m hs hx hl off b hb a ha ks hk
    simp only [partsCompressed, Res.bind_eq_ok, Res.pure_eq, Res.ok.injEq] at hb
    obtain ⟨y, hy, z, hz, rfl⟩ := hb
    simp only [partsBytes, Res.bind_eq_ok, Res.pure_eq, Res.ok.injEq] at ha
    obtain ⟨u, hu, v, hv, rfl⟩ := ha
    rw [List.flatMap_cons] at hk
    obtain ⟨k1, k2, rfl, hk1, hk2⟩ := encodings_append hk
    have e1 := hs.bestPart hU hi cfg x (hx x (by simp)) (hl x (by simp)) off y hy u hu k1 hk1
    have h1 := hs.part hU hi cfg x (hx x (by simp)) off y hy
    have e2 := ih h1.2 (fun x' hx' => hx x' (by simp [hx'])) (fun x' hx' => hl x' (by simp [hx'])) _ z hz v hv k2 hk2
    simp only [List.flatMap_cons, plainSize_append, List.length_append, List.sum_append]
    omega

end

theorem parts_suffix (p : Packet) : ∀ x ∈ parts p, match x with
    | .question q' => SuffixOf (packetNames p) q'.qName
    | .record r => SuffixOf (packetNames p) r.name ∧ ∀ n ∈ rdataNames r.rdata, SuffixOf (packetNames p) n := by
  intro x hx
  unfold parts at hx
  rcases List.mem_append.mp hx with hx | hx <;> obtain ⟨y, hy, rfl⟩ := List.mem_map.mp hx
  · exact ⟨_, by simp only [packetNames, List.mem_append, List.mem_map]; exact .inl ⟨y, hy, rfl⟩, List.suffix_refl _⟩
  · refine ⟨⟨_, ?_, List.suffix_refl _⟩, fun n hn => ⟨_, ?_, List.suffix_refl _⟩⟩ <;>
      simp only [packetNames, List.mem_append, List.mem_flatMap]
    · exact .inr ⟨y, by simpa [records] using hy, by simp⟩
    · exact .inr ⟨y, by simpa [records] using hy, by simp [hn]⟩

theorem parts_full {p : Packet} (hn : ∀ n ∈ packetNames p, ∀ l ∈ n, l ≠ []) : ∀ x ∈ parts p, x.Full := by
  have hn' : ∀ n ∈ packetNames p, ∀ l ∈ n, 1 ≤ l.length :=
    fun n h1 l h2 => List.length_pos_of_ne_nil (hn n h1 l h2)
  intro x hx
  unfold parts at hx
  rcases List.mem_append.mp hx with hx | hx <;> obtain ⟨y, hy, rfl⟩ := List.mem_map.mp hx
  · exact hn' _ (by simp only [packetNames, List.mem_append, List.mem_map]; exact .inl ⟨y, hy, rfl⟩)
  · refine ⟨hn' _ ?_, fun n hm => hn' _ ?_⟩ <;>
      simp only [packetNames, List.mem_append, List.mem_flatMap]
    · exact .inr ⟨y, by simpa [records] using hy, by simp⟩
    · exact .inr ⟨y, by simpa [records] using hy, by simp [hm]⟩

/-- C107: no other way to compress the names gives a shorter message.  However the names of the questions, the owner
names and the names in the data of the types of RFC 1035 are encoded (`ks` are the numbers of octets), each written out or
ending with a pointer to an end of an earlier one of them: the message with this encoding, which is that without
compression (`a`) with the octets of `ks` in place of those of the names, is at least as long as the compressed form
(`b`). -/
theorem C107_shortest (cfg : Cfg) (h : Hash) (p : Packet) (a b : Bytes) (ks : List Nat)
    (hn : ∀ n ∈ packetNames p, ∀ l ∈ n, l ≠ []) (hc : NoCollision h (packetNames p))
    (ha : p.toBytes cfg = .ok a) (hb : p.toBytesCompressed cfg h = .ok b)
    (hk : Encodings [] ((parts p).flatMap Part.names) ks) :
    (b.length : Int) ≤ a.length - plainSize ((parts p).flatMap Part.names) + ks.sum := by
  rw [toBytes_parts] at ha
  rw [toBytesCompressed_parts] at hb
  simp only [Res.bind_eq_ok, Res.pure_eq, Res.ok.injEq] at ha hb
  obtain ⟨u, h1, rfl⟩ := ha
  obtain ⟨v, h2, rfl⟩ := hb
  have := (Seen.empty h (SuffixOf (packetNames p))).bestParts (suffixOf_tailClosed _) hc cfg (parts p)
    (parts_suffix p) (parts_full hn) 12 v h2 u h1 ks hk
  have l1 : p.header.toBytes.length = 12 := rfl
  have l2 : p.headerBytes.length = 12 := by
    rw [headerBytes_eq]; simp [headerItems, Items.octets, Item.octets, octets16]
  simp only [List.length_append]
  omega

/-! ### The least number of octets is reached -/

/-- The types in whose data names are compressed. -/
def compressedType (t : RecordType) : Bool := mayCompress t || t == .SRV || t == .NAPTR || t == .NSEC

/-- All names that are compressed: also those in the data of SRV, NAPTR and NSEC records. -/
def Part.allNames : Part → List Fqdn
  | .question q => [q.qName]
  | .record r => r.name :: if compressedType r.rdata.type then rdataNames r.rdata else []

/-- `k` octets are the least for `n`. -/
def BestIn (seen : List Fqdn) (n : Fqdn) (k : Nat) : Prop :=
  EncodedIn seen n k ∧ ∀ k', EncodedIn seen n k' → k ≤ k'

/-- The numbers of octets are the least, name by name. -/
def BestEncodings (seen : List Fqdn) : List Fqdn → List Nat → Prop
  | [], ks => ks = []
  | n :: ns, ks => ∃ k ks', ks = k :: ks' ∧ BestIn seen n k ∧ BestEncodings (seen ++ [n]) ns ks'

theorem BestEncodings.encodings : ∀ {ns seen : List Fqdn} {ks : List Nat}, BestEncodings seen ns ks →
    Encodings seen ns ks ∧ ∀ ks', Encodings seen ns ks' → ks.sum ≤ ks'.sum := by
  intro ns
  induction ns with
  | nil => rintro seen ks rfl; exact ⟨rfl, fun ks' _ => by simp⟩
  | cons n ns ih =>
    rintro seen ks ⟨k, ks, rfl, h1, h2⟩
    obtain ⟨h3, h4⟩ := ih h2
    refine ⟨⟨k, ks, rfl, h1.1, h3⟩, ?_⟩
    rintro _ ⟨k', ks', rfl, h5, h6⟩
    have e1 := h1.2 _ h5
    have e2 := h4 _ h6
    simp only [List.sum_cons]; omega

theorem bestEncodings_append : ∀ {a b seen : List Fqdn} {xs ys : List Nat}, BestEncodings seen a xs →
    BestEncodings (seen ++ a) b ys → BestEncodings seen (a ++ b) (xs ++ ys) := by
  intro a
  induction a with
  | nil => rintro b seen xs ys rfl h2; simpa using h2
  | cons n a ih =>
    rintro b seen _ ys ⟨k, xs, rfl, h1, h2⟩ h3
    exact ⟨k, xs ++ ys, rfl, h1, ih h2 (by simpa using h3)⟩

/-- The map has exactly the endings of the names `seen`. -/
structure Known (h : Hash) (U : Fqdn → Prop) (seen : List Fqdn) (m : Names) : Prop where
  has : Seen h U seen m
  only : ∀ s, U s → s ≠ [] → m (h s) ≠ none → ∃ x ∈ seen, s <:+ x

section
variable {U : Fqdn → Prop} {h : Hash} (hU : TailClosed U) (hi : InjOn U h)
include hU hi

theorem name_encoded {seen : List Fqdn} : ∀ (n : Fqdn) (m : Names) (off : Nat), U n →
    (∀ s, s <:+ n → s ≠ [] → m (h s) ≠ none → ∃ x ∈ seen, s <:+ x) →
    EncodedIn seen n (n.toBytesCompressed h m off).1.length := by
  intro n
  induction n with
  | nil => intro m off _ _; exact .inl rfl
  | cons l n ih =>
    intro m off hn hm
    unfold Fqdn.toBytesCompressed
    cases hx : m (h (l :: n)) with
    | some o =>
      exact .inr ⟨[], l :: n, rfl, by simp, hm _ (List.suffix_refl _) (by simp) (by rw [hx]; simp), rfl⟩
    | none =>
      have := ih (m.insert (h (l :: n)) off) (off + (l.length + 1)) (hU _ _ hn) (by
        intro s hs hne h1
        refine hm s (hs.trans (List.suffix_cons _ _)) hne ?_
        have hUs : U s := by
          clear ih hm hx h1
          obtain ⟨t, rfl⟩ := hs
          have : ∀ t : Fqdn, U (t ++ s) → U s := by
            intro t
            induction t with
            | nil => exact id
            | cons x t iht => intro hu; exact iht (hU _ _ hu)
          exact this t (hU _ _ hn)
        have hd : h s ≠ h (l :: n) := by
          intro he
          have := hi _ _ hUs hn he
          have := hs.length_le
          simp_all
        rwa [Names.insert, if_neg hd] at h1)
      rcases this with h1 | ⟨front, rest, h1, h2, h3, h4⟩
      · refine .inl ?_
        simp only [List.length_cons, List.length_append, h1, nameSize, List.map_cons, List.sum_cons]; omega
      · refine .inr ⟨l :: front, rest, by simp [h1], h2, h3, ?_⟩
        simp only [List.length_cons, List.length_append, h4, nameSize, List.map_cons, List.sum_cons]; omega

omit hU hi in
theorem name_adds : ∀ (n : Fqdn) (m : Names) (off : Nat) (k : UInt64), (n.toBytesCompressed h m off).2 k ≠ none →
    m k ≠ none ∨ ∃ s, s <:+ n ∧ s ≠ [] ∧ k = h s := by
  intro n
  induction n with
  | nil => intro m off k hk; exact .inl hk
  | cons l n ih =>
    intro m off k hk
    unfold Fqdn.toBytesCompressed at hk
    split at hk
    · exact .inl hk
    · rcases ih _ _ _ hk with h1 | ⟨s, h1, h2, h3⟩
      · unfold Names.insert at h1
        split at h1
        · rename_i e
          exact .inr ⟨_, List.suffix_refl _, by simp, e⟩
        · exact .inl h1
      · exact .inr ⟨s, h1.trans (List.suffix_cons _ _), h2, h3⟩

omit hi in
theorem suffix_closed {n s : Fqdn} (hn : U n) (hs : s <:+ n) : U s := by
  obtain ⟨t, rfl⟩ := hs
  induction t with
  | nil => exact hn
  | cons x t iht => exact iht (hU _ _ hn)

theorem Known.name {seen : List Fqdn} {m : Names} (hs : Known h U seen m) (n : Fqdn) (hn : U n) (off : Nat) :
    BestIn seen n (n.toBytesCompressed h m off).1.length ∧
      Known h U (seen ++ [n]) (n.toBytesCompressed h m off).2 := by
  refine ⟨⟨name_encoded hU hi n m off hn fun s h1 h2 h3 =>
    hs.only s (suffix_closed hU hn h1) h2 h3, ?_⟩, (hs.has.name hU hi n hn off).2, ?_⟩
  · rintro k (rfl | ⟨front, rest, h1, h2, h3, rfl⟩)
    · rcases name_encoded hU hi (seen := seen) n m off hn (fun s h1 h2 h3 =>
        hs.only s (suffix_closed hU hn h1) h2 h3) with h1 | ⟨front, rest, rfl, h2, _, h4⟩
      · omega
      · rw [h4]
        cases rest with
        | nil => exact absurd rfl h2
        | cons l rest =>
          simp only [nameSize, List.map_append, List.map_cons, List.sum_append, List.sum_cons]; omega
    · exact hs.has.knows.short n m off (fun _ hk => hk) front rest h1 h2 h3
  · intro s h1 h2 h3
    rcases name_adds n m off _ h3 with h4 | ⟨t, h4, h5, h6⟩
    · obtain ⟨x, hx, hsx⟩ := hs.only s h1 h2 h4
      exact ⟨x, by simp [hx], hsx⟩
    · have := hi _ _ h1 (suffix_closed hU hn h4) h6
      exact ⟨n, by simp, this ▸ h4⟩

theorem Known.data {seen : List Fqdn} {m : Names} (hs : Known h U seen m) (cfg : Cfg) (r : RecordData)
    (hr : ∀ n ∈ rdataNames r, U n) (hl : ∀ n ∈ rdataNames r, ∀ l ∈ n, 1 ≤ l.length) (off : Nat) (b : Bytes × Names)
    (hb : r.toBytesCompressed cfg h m off = .ok b) (a : Bytes) (ha : r.toBytes cfg = .ok a) :
    Known h U (seen ++ if compressedType r.type then rdataNames r else []) b.2 ∧
    ∃ ks, BestEncodings seen (if compressedType r.type then rdataNames r else []) ks ∧
      b.1.length + plainSize (if compressedType r.type then rdataNames r else []) = a.length + ks.sum := by
  have one : ∀ (n : Fqdn) (o : Nat) (x y : Nat), U n → (∀ l ∈ n, 1 ≤ l.length) →
      x = (n.toBytesCompressed h m o).1.length + y →
      ∃ ks, BestEncodings seen [n] ks ∧ x + plainSize [n] = n.toBytes.length + y + ks.sum := by
    intro n o x y hn hl hx
    refine ⟨_, ⟨_, [], rfl, (hs.name hU hi n hn o).1, rfl⟩, ?_⟩
    rw [toBytes_nameSize n hl, hx]
    simp only [plainSize, List.map_cons, List.map_nil, List.sum_cons, List.sum_nil]
    omega
  have two : ∀ (n n' : Fqdn) (o o' : Nat) (x y : Nat), U n → U n' → (∀ l ∈ n, 1 ≤ l.length) → 
      (∀ l ∈ n', 1 ≤ l.length) →
      x = (n.toBytesCompressed h m o).1.length + 
        (n'.toBytesCompressed h (n.toBytesCompressed h m o).2 o').1.length + y →
      ∃ ks, BestEncodings seen [n, n'] ks ∧
        x + plainSize [n, n'] = n.toBytes.length + n'.toBytes.length + y + ks.sum := by
    intro n n' o o' x y hn hn' hl hl' hx
    have h1 := hs.name hU hi n hn o
    refine ⟨_, ⟨_, _, rfl, h1.1, _, [], rfl, (h1.2.name hU hi n' hn' o').1, rfl⟩, ?_⟩
    rw [toBytes_nameSize n hl, toBytes_nameSize n' hl', hx]
    simp only [plainSize, List.map_cons, List.map_nil, List.sum_cons, List.sum_nil]
    omega
  cases r
  case NS r =>
    cases hb; cases ha
    exact ⟨(hs.name hU hi r.nsdname (hr _ (by simp [rdataNames])) off).2,
      one r.nsdname off _ 0 (hr _ (by simp [rdataNames])) (hl _ (by simp [rdataNames])) rfl⟩
  case CNAME r =>
    cases hb; cases ha
    exact ⟨(hs.name hU hi r.cname (hr _ (by simp [rdataNames])) off).2,
      one r.cname off _ 0 (hr _ (by simp [rdataNames])) (hl _ (by simp [rdataNames])) rfl⟩
  case PTR r =>
    cases hb; cases ha
    exact ⟨(hs.name hU hi r.ptrdname (hr _ (by simp [rdataNames])) off).2,
      one r.ptrdname off _ 0 (hr _ (by simp [rdataNames])) (hl _ (by simp [rdataNames])) rfl⟩
  case MX r =>
    cases hb; cases ha
    refine ⟨(hs.name hU hi r.exchange (hr _ (by simp [rdataNames])) (off + 2)).2, ?_⟩
    obtain ⟨ks, h1, h2⟩ := one r.exchange (off + 2) _ 2 (hr _ (by simp [rdataNames])) (hl _ (by simp [rdataNames])) rfl
    refine ⟨ks, h1, ?_⟩
    rw [show (if compressedType (RecordData.MX r).type then rdataNames (.MX r) else []) = [r.exchange] from rfl]
    simp only [Mx.toBytesCompressed, Mx.toBytes, List.length_append, u16be_length] at h2 ⊢
    omega
  case SRV r =>
    cases hb; cases ha
    refine ⟨(hs.name hU hi r.target (hr _ (by simp [rdataNames])) (off + 6)).2, ?_⟩
    obtain ⟨ks, h1, h2⟩ := one r.target (off + 6) _ 6 (hr _ (by simp [rdataNames])) (hl _ (by simp [rdataNames])) rfl
    refine ⟨ks, h1, ?_⟩
    rw [show (if compressedType (RecordData.SRV r).type then rdataNames (.SRV r) else []) = [r.target] from rfl]
    simp only [Srv.toBytesCompressed, Srv.toBytes, List.length_append, u16be_length] at h2 ⊢
    omega
  case NAPTR r =>
    cases hb; cases ha
    refine ⟨(hs.name hU hi r.replacement (hr _ (by simp [rdataNames])) (off + r.headBytes.length)).2, ?_⟩
    obtain ⟨ks, h1, h2⟩ := one r.replacement (off + r.headBytes.length) _ r.headBytes.length
      (hr _ (by simp [rdataNames])) (hl _ (by simp [rdataNames])) rfl
    refine ⟨ks, h1, ?_⟩
    rw [show (if compressedType (RecordData.NAPTR r).type then rdataNames (.NAPTR r) else []) = [r.replacement] from rfl]
    simp only [Naptr.toBytesCompressed, Naptr.toBytes, List.length_append] at h2 ⊢
    omega
  case NSEC r =>
    simp only [RecordData.toBytesCompressed, Nsec.toBytesCompressed, Res.bind_eq_ok, Res.pure_eq, Res.ok.injEq] at hb
    obtain ⟨x, hx, rfl⟩ := hb
    simp only [RecordData.toBytes, Nsec.toBytes, Res.bind_eq_ok, Res.pure_eq, Res.ok.injEq, hx] at ha
    obtain ⟨_, _, _, rfl, rfl⟩ := ha
    refine ⟨(hs.name hU hi r.nextDomainName (hr _ (by simp [rdataNames])) off).2, ?_⟩
    obtain ⟨ks, h1, h2⟩ := one r.nextDomainName off _ x.length
      (hr _ (by simp [rdataNames])) (hl _ (by simp [rdataNames])) rfl
    refine ⟨ks, h1, ?_⟩
    rw [show (if compressedType (RecordData.NSEC r).type then rdataNames (.NSEC r) else []) = [r.nextDomainName] from rfl]
    simp only [List.length_append] at h2 ⊢
    omega
  case SOA r =>
    cases hb; cases ha
    have k1 := hs.name hU hi r.mname (hr _ (by simp [rdataNames])) off
    have k2 := k1.2.name hU hi r.rname (hr _ (by simp [rdataNames]))
      (off + (r.mname.toBytesCompressed h m off).1.length)
    rw [show (if compressedType (RecordData.SOA r).type then rdataNames (.SOA r) else []) = [r.mname, r.rname] from rfl]
    refine ⟨by simpa [Soa.toBytesCompressed] using k2.2, ?_⟩
    obtain ⟨ks, h1, h2⟩ := two r.mname r.rname off (off + (r.mname.toBytesCompressed h m off).1.length) _ 20
      (hr _ (by simp [rdataNames])) (hr _ (by simp [rdataNames])) (hl _ (by simp [rdataNames]))
      (hl _ (by simp [rdataNames])) rfl
    refine ⟨ks, h1, ?_⟩
    simp only [Soa.toBytesCompressed, Soa.toBytes, List.length_append, u32be_length] at h2 ⊢
    omega
  case MINFO r =>
    cases hb; cases ha
    have k1 := hs.name hU hi r.rmailbx (hr _ (by simp [rdataNames])) off
    have k2 := k1.2.name hU hi r.emailbx (hr _ (by simp [rdataNames]))
      (off + (r.rmailbx.toBytesCompressed h m off).1.length)
    rw [show (if compressedType (RecordData.MINFO r).type then rdataNames (.MINFO r) else []) =
      [r.rmailbx, r.emailbx] from rfl]
    refine ⟨by simpa [Minfo.toBytesCompressed] using k2.2, ?_⟩
    obtain ⟨ks, h1, h2⟩ := two r.rmailbx r.emailbx off (off + (r.rmailbx.toBytesCompressed h m off).1.length) _ 0
      (hr _ (by simp [rdataNames])) (hr _ (by simp [rdataNames])) (hl _ (by simp [rdataNames]))
      (hl _ (by simp [rdataNames])) rfl
    refine ⟨ks, h1, ?_⟩
    simp only [Minfo.toBytesCompressed, Minfo.toBytes, List.length_append] at h2 ⊢
    omega
  case CSYNC r =>
    simp only [RecordData.toBytesCompressed, Res.bind_eq_ok, Res.pure_eq, Res.ok.injEq] at hb
    obtain ⟨x, hx, rfl⟩ := hb
    cases hx.symm.trans ha
    exact ⟨by simpa [compressedType, mayCompress, RecordData.type] using hs, [], rfl, rfl⟩
  case SVCB r =>
    simp only [RecordData.toBytesCompressed, Res.bind_eq_ok, Res.pure_eq, Res.ok.injEq] at hb
    obtain ⟨x, hx, rfl⟩ := hb
    cases hx.symm.trans ha
    exact ⟨by simpa [compressedType, mayCompress, RecordData.type] using hs, [], rfl, rfl⟩
  all_goals
    cases hb; cases ha
    exact ⟨by simpa [compressedType, mayCompress, RecordData.type] using hs, [], rfl, rfl⟩

theorem Known.part {seen : List Fqdn} {m : Names} (hs : Known h U seen m) (cfg : Cfg) (x : Part)
    (hx : match x with | .question q => U q.qName | .record r => U r.name ∧ ∀ n ∈ rdataNames r.rdata, U n)
    (hl : x.Full)
    (off : Nat) (b : Bytes × Names) (hb : x.toBytesCompressed cfg h m off = .ok b) (a : Bytes)
    (ha : x.toBytes cfg = .ok a) :
    Known h U (seen ++ x.allNames) b.2 ∧
    ∃ ks, BestEncodings seen x.allNames ks ∧ b.1.length + plainSize x.allNames = a.length + ks.sum := by
  cases x with
  | question q =>
    cases hb; cases ha
    have h1 := hs.name hU hi q.qName hx off
    refine ⟨h1.2, _, ⟨_, [], rfl, h1.1, rfl⟩, ?_⟩
    have := toBytes_nameSize q.qName hl
    simp only [plainSize, Part.allNames, Question.toBytesCompressed, Question.toBytes, List.length_append,
      List.map_cons, List.map_nil, List.sum_cons, List.sum_nil]
    omega
  | record r =>
    simp only [Part.toBytesCompressed, ResourceRecord.toBytesCompressed, Res.bind_eq_ok, Res.pure_eq,
      Res.ok.injEq] at hb
    obtain ⟨d, hd, rfl⟩ := hb
    simp only [Part.toBytes, ResourceRecord.toBytes, Res.bind_eq_ok, Res.pure_eq, Res.ok.injEq] at ha
    obtain ⟨size, _, e, he, rfl⟩ := ha
    have h1 := hs.name hU hi r.name hx.1 off
    obtain ⟨h2, ks, h3, h4⟩ := h1.2.data hU hi cfg r.rdata hx.2 hl.2 _ d hd e he
    refine ⟨by simpa [Part.allNames] using h2, _, ⟨_, ks, rfl, h1.1, h3⟩, ?_⟩
    have := toBytes_nameSize r.name hl.1
    simp only [plainSize, Part.allNames, ResourceRecord.headCompressed, List.length_append, List.map_cons,
        List.sum_cons, u16be_length, u32be_length] at h4 ⊢
    omega

theorem Known.parts (cfg : Cfg) : ∀ (xs : List Part) {seen : List Fqdn} {m : Names}, Known h U seen m →
    (∀ x ∈ xs, match x with | .question q => U q.qName | .record r => U r.name ∧ ∀ n ∈ rdataNames r.rdata, U n) →
    (∀ x ∈ xs, x.Full) →
    ∀ (off : Nat) (b : Bytes × Names), partsCompressed cfg h xs m off = .ok b → ∀ a, partsBytes cfg xs = .ok a →
      ∃ ks, BestEncodings seen (xs.flatMap Part.allNames) ks ∧
        b.1.length + plainSize (xs.flatMap Part.allNames) = a.length + ks.sum := by
  intro xs
  induction xs with
  | nil => intro seen m hs _ _ off b hb a ha; cases hb; cases ha; exact ⟨[], rfl, rfl⟩
  | cons x xs ih =>
    intro seen m hs hx hl off b hb a ha
    simp only [partsCompressed, Res.bind_eq_ok, Res.pure_eq, Res.ok.injEq] at hb
    obtain ⟨y, hy, z, hz, rfl⟩ := hb
    simp only [partsBytes, Res.bind_eq_ok, Res.pure_eq, Res.ok.injEq] at ha
    obtain ⟨u, hu, v, hv, rfl⟩ := ha
    obtain ⟨h1, ks, h2, h3⟩ := hs.part hU hi cfg x (hx x (by simp)) (hl x (by simp)) off y hy u hu
    obtain ⟨ks', h4, h5⟩ := ih h1 (fun x' hx' => hx x' (by simp [hx'])) (fun x' hx' => hl x' (by simp [hx'])) _ z hz v hv
    refine ⟨ks ++ ks', bestEncodings_append h2 h4, ?_⟩
    simp only [List.flatMap_cons, plainSize_append, List.length_append, List.sum_append]
    omega

end

/-- C107: with the names in the data of SRV, NAPTR and NSEC records, which are compressed too, the compressed form has
exactly the least number of octets of all ways to encode the names. -/
theorem C107_least (cfg : Cfg) (h : Hash) (p : Packet) (a b : Bytes)
    (hn : ∀ n ∈ packetNames p, ∀ l ∈ n, l ≠ []) (hc : NoCollision h (packetNames p))
    (ha : p.toBytes cfg = .ok a) (hb : p.toBytesCompressed cfg h = .ok b) :
    ∃ ks, Encodings [] ((parts p).flatMap Part.allNames) ks ∧
      (∀ ks', Encodings [] ((parts p).flatMap Part.allNames) ks' → ks.sum ≤ ks'.sum) ∧
      (b.length : Int) = a.length - plainSize ((parts p).flatMap Part.allNames) + ks.sum := by
  rw [toBytes_parts] at ha
  rw [toBytesCompressed_parts] at hb
  simp only [Res.bind_eq_ok, Res.pure_eq, Res.ok.injEq] at ha hb
  obtain ⟨u, h1, rfl⟩ := ha
  obtain ⟨v, h2, rfl⟩ := hb
  obtain ⟨ks, h3, h4⟩ := Known.parts (suffixOf_tailClosed (packetNames p)) hc cfg (parts p)
    ⟨Seen.empty h _, fun _ _ _ hm => absurd rfl hm⟩ (parts_suffix p) (parts_full hn) 12 v h2 u h1
  refine ⟨ks, h3.encodings.1, h3.encodings.2, ?_⟩
  have l1 : p.header.toBytes.length = 12 := rfl
  have l2 : p.headerBytes.length = 12 := by
    rw [headerBytes_eq]; simp [headerItems, Items.octets, Item.octets, octets16]
  simp only [List.length_append]
  omega

/-- The hypotheses are met: in the packet of the example the names have 29 octets if written out and 19 if compressed. -/
example : (∀ n ∈ packetNames exPacket, ∀ l ∈ n, l ≠ []) ∧ NoCollision exHash (packetNames exPacket) ∧
    (parts exPacket).flatMap Part.allNames =
      [[[97], [98]], [[97], [98]], [[97]], [[98]], [[97], [98]], [], [[109], [97], [98]]] ∧
    Encodings [] ((parts exPacket).flatMap Part.allNames) [5, 2, 3, 2, 2, 1, 4] ∧
    plainSize ((parts exPacket).flatMap Part.allNames) = 29 ∧
    ∃ a b, exPacket.toBytes ⟨true, true, true⟩ = .ok a ∧ exPacket.toBytesCompressed ⟨true, true, true⟩ exHash = .ok b ∧
      a.length = 102 ∧ b.length = 92 := by
  refine ⟨by decide +kernel, ?_, by decide +kernel, ?_, by decide +kernel, _, _, rfl, rfl, by decide +kernel,
    by decide +kernel⟩
  · have key : ∀ a ∈ (packetNames exPacket).flatMap List.tails, ∀ b ∈ (packetNames exPacket).flatMap List.tails,
        exHash a = exHash b → a = b := by decide +kernel
    rintro a b ⟨n, hn, ha⟩ ⟨m, hm, hb⟩ h
    exact key a (List.mem_flatMap.mpr ⟨n, hn, (List.mem_tails _ _).mpr ha⟩) b
      (List.mem_flatMap.mpr ⟨m, hm, (List.mem_tails _ _).mpr hb⟩) h
  · exact ⟨5, _, rfl, .inl rfl, 2, _, rfl, .inr ⟨[], _, rfl, by decide, ⟨_, by simp; rfl, by decide⟩, rfl⟩,
      3, _, rfl, .inl rfl, 2, _, rfl, .inr ⟨[], _, rfl, by decide, ⟨[[97], [98]], by simp [exQuestion], by decide⟩, rfl⟩,
      2, _, rfl, .inr ⟨[], _, rfl, by decide, ⟨[[97], [98]], by simp [exQuestion], by decide⟩, rfl⟩, 1, _, rfl, .inl rfl,
      4, _, rfl, .inr ⟨[[109]], [[97], [98]], rfl, by decide, ⟨[[97], [98]], by simp [exQuestion], by decide⟩, rfl⟩, rfl⟩

/-- The names in the data of the other types are neither compressed nor pointed to.  A pointer to such a name would make
the message shorter: here the owner name of the second record is the target name of the first, an SVCB record; the octets
`c` with a pointer to it are read as the same packet and are three octets shorter. -/
theorem C107_other_data : ∃ (p : Packet) (b c : Bytes), (∀ n ∈ packetNames p, ∀ l ∈ n, l ≠ []) ∧
    p.toBytesCompressed ⟨true, true, true⟩ exHash = .ok b ∧ Packet.parse ⟨true, true, true⟩ b = .ok p ∧
    Packet.parse ⟨true, true, true⟩ c = .ok p ∧ c.length + 3 = b.length :=
  ⟨⟨⟨1, ⟨0x80, 0⟩, 0, 2, 0, 0⟩, [], [⟨[], .SVCB, false, .IN, 5, .SVCB ⟨1, [[97], [98]], []⟩⟩,
      ⟨[[97], [98]], .A, false, .IN, 5, .A ⟨1⟩⟩], [], []⟩,
    [0, 1, 128, 0, 0, 0, 0, 2, 0, 0, 0, 0, 0, 0, 64, 0, 1, 0, 0, 0, 5, 0, 7, 0, 1, 1, 97, 1, 98, 0, 1, 97, 1, 98, 0,
      0, 1, 0, 1, 0, 0, 0, 5, 0, 4, 0, 0, 0, 1],
    [0, 1, 128, 0, 0, 0, 0, 2, 0, 0, 0, 0, 0, 0, 64, 0, 1, 0, 0, 0, 5, 0, 7, 0, 1, 1, 97, 1, 98, 0, 192, 25,
      0, 1, 0, 1, 0, 0, 0, 5, 0, 4, 0, 0, 0, 1],
    by decide +kernel, by decide +kernel, by decide +kernel, by decide +kernel, by decide⟩

end Dns
