import Verif.Spec.Alias
import Verif.Props.PacketWire
import Verif.Props.Canonical
import Mathlib.Data.List.Perm.Subperm

/-
C140: a client that follows the aliases of an answer finds the records the answer gives.
-/

namespace Dns
open Spec Buf

/-- From `x` to `y` in `j` rounds of the program. -/
def AliasSteps (rs : List ResourceRecord) : Nat → Fqdn → Fqdn → Prop
  | 0, x, y => x = y
  | j + 1, x, y => ∃ z, aliasOf rs x = some z ∧ AliasSteps rs j z y

theorem aliasOf_some {rs : List ResourceRecord} {n m : Fqdn} (h : aliasOf rs n = some m) :
    ∃ r ∈ rs, r.name = n ∧ r.rdata = .CNAME ⟨m⟩ := by
  obtain ⟨r, h1, h2⟩ := List.exists_of_findSome?_eq_some h
  refine ⟨r, h1, ?_⟩
  split at h2
  · rename_i c hc
    split at h2
    · cases h2; exact ⟨by assumption, hc⟩
    · cases h2
  · cases h2

theorem aliasOf_none {rs : List ResourceRecord} {n : Fqdn} (h : aliasOf rs n = none) {r : ResourceRecord} (hr : r ∈ rs)
    (hn : r.name = n) (c : Cname) : r.rdata ≠ .CNAME c := by
  intro hc
  have := List.findSome?_eq_none_iff.mp h r hr
  rw [hc] at this
  simp [hn] at this

theorem follow_steps (rs : List ResourceRecord) (k : Nat) : ∀ n, ∃ j, AliasSteps rs j n (follow rs k n) := by
  induction k with
  | zero => exact fun n => ⟨0, rfl⟩
  | succ k ih =>
    intro n
    unfold follow
    split
    · rename_i m hm
      obtain ⟨j, hj⟩ := ih m
      exact ⟨j + 1, m, hm, hj⟩
    · exact ⟨0, rfl⟩

theorem steps_follow {rs : List ResourceRecord} {y : Fqdn} (hy : aliasOf rs y = none) (j : Nat) :
    ∀ k x, j ≤ k → AliasSteps rs j x y → follow rs k x = y := by
  induction j with
  | zero =>
    intro k x _ h
    obtain rfl : x = y := h
    cases k with
    | zero => rfl
    | succ k => unfold follow; rw [hy]
  | succ j ih =>
    intro k x hk ⟨z, h1, h2⟩
    obtain ⟨k, rfl⟩ : ∃ k', k = k' + 1 := ⟨k - 1, by omega⟩
    unfold follow
    rw [h1]
    exact ih k z (by omega) h2

theorem steps_leads {rs : List ResourceRecord} {y : Fqdn} (j : Nat) : ∀ {x}, AliasSteps rs j x y → Leads rs x y := by
  induction j with
  | zero => intro x h; obtain rfl : x = y := h; exact .same rfl
  | succ j ih =>
    intro x ⟨z, h1, h2⟩
    obtain ⟨r, h3, h4, h5⟩ := aliasOf_some h1
    exact .next h3 (by rw [h4]; rfl) h5 (ih h2)

theorem steps_path {rs : List ResourceRecord} {y : Fqdn} (j : Nat) : ∀ {x}, AliasSteps rs j x y →
    (∃ z i, AliasSteps rs (i + 1) z z) ∨ ∃ l : List Fqdn, l.length = j ∧ l.Nodup ∧
      ∀ z ∈ l, z ∈ rs.map ResourceRecord.name ∧ ∃ i, AliasSteps rs i x z := by
  induction j with
  | zero => exact fun _ => .inr ⟨[], rfl, List.nodup_nil, by simp⟩
  | succ j ih =>
    intro x ⟨z, h1, h2⟩
    obtain ⟨r, h3, h4, -⟩ := aliasOf_some h1
    rcases ih h2 with h | ⟨l, hl, hn, hz⟩
    · exact .inl h
    · by_cases hx : x ∈ l
      · obtain ⟨-, i, hi⟩ := hz x hx
        exact .inl ⟨x, i, z, h1, hi⟩
      · refine .inr ⟨x :: l, by simp [hl], List.nodup_cons.mpr ⟨hx, hn⟩, fun w hw => ?_⟩
        rcases List.mem_cons.mp hw with rfl | hw
        · exact ⟨List.mem_map.mpr ⟨r, h3, h4⟩, 0, rfl⟩
        · obtain ⟨h5, i, hi⟩ := hz w hw
          exact ⟨h5, i + 1, z, h1, hi⟩

theorem steps_bound {rs : List ResourceRecord} {t : RecordType} (hp : ProperAliases rs t) {x y : Fqdn} {j : Nat}
    (h : AliasSteps rs j x y) : j ≤ rs.length := by
  rcases steps_path j h with ⟨z, i, w, h1, h2⟩ | ⟨l, hl, hn, hz⟩
  · obtain ⟨r, h3, h4, h5⟩ := aliasOf_some h1
    exact absurd (h4 ▸ steps_leads i h2) (hp r h3 ⟨w⟩ h5).2
  · have := (List.subperm_of_subset hn fun z h => (hz z h).1).length_le
    rw [List.length_map] at this
    omega

theorem owner_mem {rs : List ResourceRecord} {r : ResourceRecord} (h : r ∈ rs) (n : Fqdn) : r.name ∈ aliasNames rs n :=
  List.mem_cons_of_mem _ (List.mem_flatMap.mpr ⟨r, h, List.mem_cons_self⟩)

theorem target_mem {rs : List ResourceRecord} {r : ResourceRecord} {c : Cname} (h : r ∈ rs) (hc : r.rdata = .CNAME c)
    (n : Fqdn) : c.cname ∈ aliasNames rs n :=
  List.mem_cons_of_mem _ (List.mem_flatMap.mpr ⟨r, h, by rw [hc]; simp [rdataNames]⟩)

theorem leads_steps {rs : List ResourceRecord} {t : RecordType} {n : Fqdn} (hp : ProperAliases rs t)
    (hs : OneSpelling rs n) {r : ResourceRecord} (hr : r ∈ rs) {x y : Fqdn} (h : Leads rs x y) (hy : y = r.name) :
    x ∈ aliasNames rs n → ∃ j, AliasSteps rs j x y := by
  induction h with
  | same h => intro hx; exact ⟨0, hs _ hx _ (hy ▸ owner_mem hr n) h⟩
  | @next x y r1 c h1 h2 h3 _ ih =>
    intro hx
    have e := hs _ (owner_mem h1 n) _ hx h2
    obtain ⟨j, hj⟩ := ih hy (target_mem h1 h3 n)
    cases ha : aliasOf rs x with
    | none => exact absurd h3 (aliasOf_none ha h1 e c)
    | some z =>
      obtain ⟨r2, h4, h5, h6⟩ := aliasOf_some ha
      have := ((hp r1 h1 c h3).1 r2 h4 (by rw [h5, e]; rfl)).2 ⟨z⟩ h6
      have := hs _ (target_mem h1 h3 n) _ (target_mem h4 h6 n) this
      change c.cname = z at this
      exact ⟨j + 1, z, ha, this ▸ hj⟩

/-- C140: whatever octets the client has received, the records it finds are records of the type it asked for, and the
answer that was read leads from the name it asked for to their owner. -/
theorem C140_sound (cfg : Cfg) (t : RecordType) (n : Fqdn) (d : Bytes) (found : List ResourceRecord)
    (h : lookUp cfg t n d = .ok found) : ∃ p, Packet.parse cfg d = .ok p ∧ ∀ r ∈ found, Answers p.answers t n r := by
  unfold lookUp at h
  obtain ⟨p, h1, h2⟩ := Res.bind_ok.mp h
  cases h2
  refine ⟨p, h1, fun r hr => ?_⟩
  simp only [List.mem_filter, Bool.and_eq_true, decide_eq_true_eq] at hr
  obtain ⟨j, hj⟩ := follow_steps p.answers p.answers.length n
  exact ⟨hr.1, hr.2.2, hr.2.1 ▸ steps_leads j hj⟩

/-- C140 (partial): if in the packet that was read the aliases are as RFC 1034 demands and every name has one spelling, the
client finds exactly the records the answer gives, however many aliases there are and in whatever order.  What is missing:
names with several spellings, for which it is false (`C140_counterexample`). -/
theorem C140_found_partial (cfg : Cfg) (t : RecordType) (n : Fqdn) (d : Bytes) (p : Packet)
    (h : Packet.parse cfg d = .ok p) (hp : ProperAliases p.answers t) (hs : OneSpelling p.answers n) :
    ∃ found, lookUp cfg t n d = .ok found ∧ ∀ r, r ∈ found ↔ Answers p.answers t n r := by
  have hl : lookUp cfg t n d = .ok (p.answers.filter fun r =>
      decide (r.name = follow p.answers p.answers.length n) && decide (r.type = t)) := by
    unfold lookUp; rw [h]; rfl
  refine ⟨_, hl, fun r => ⟨fun hr => ?_, fun ⟨h1, h2, h3⟩ => ?_⟩⟩
  · obtain ⟨p', h4, h5⟩ := C140_sound cfg t n d _ hl
    rw [h] at h4; cases h4
    exact h5 r hr
  · obtain ⟨j, hj⟩ := leads_steps hp hs h1 h3 rfl List.mem_cons_self
    have hn : aliasOf p.answers r.name = none := by
      cases ha : aliasOf p.answers r.name with
      | none => rfl
      | some z =>
        obtain ⟨r2, h4, h5, h6⟩ := aliasOf_some ha
        exact absurd h2 ((hp r2 h4 _ h6).1 r h1 (by rw [h5]; rfl)).1
    simp only [List.mem_filter, Bool.and_eq_true, decide_eq_true_eq]
    exact ⟨h1, (steps_follow hn j _ n (steps_bound hp hj) hj).symm, h2⟩

/-- C140 (partial): the same between a server and a client with the crate: every packet the server writes with
`to_bytes_compressed()`. -/
theorem C140_sent_partial (cfg : Cfg) (hash : Hash) (t : RecordType) (n : Fqdn) (p : Packet) (hok : PacketOk cfg 191 p)
    (hc : CountsOk p) (hss : ∀ r ∈ records p, r.rdata.type ≠ .SSHFP) (hh : NoCollision hash (packetNames p))
    (hp : ProperAliases p.answers t) (hs : OneSpelling p.answers n) :
    ∃ b, p.toBytesCompressed cfg hash = .ok b ∧ (b.length ≤ 16384 → ∀ rest,
      ∃ found, lookUp cfg t n (b ++ rest) = .ok found ∧ ∀ r, r ∈ found ↔ Answers p.answers t n r) := by
  obtain ⟨b, h1, h2⟩ := C28_compressed_round_trip_partial cfg hash p hok hc hss hh
  exact ⟨b, h1, fun hl rest => C140_found_partial cfg t n _ p (h2 hl rest).1 hp hs⟩

/-- An answer for `w.a`, which is an alias of `x`, which is an alias of `y`; the aliases are not in this order. -/
def aliasPacket : Packet :=
  ⟨⟨7, ⟨0x80, 0⟩, 0, 4, 0, 0⟩, [],
    [⟨[[121]], .A, false, .IN, 60, .A ⟨0x01020304⟩⟩, ⟨[[120]], .CNAME, false, .IN, 60, .CNAME ⟨[[121]]⟩⟩,
      ⟨[[119], [97]], .CNAME, false, .IN, 60, .CNAME ⟨[[120]]⟩⟩, ⟨[[121]], .A, false, .IN, 60, .A ⟨0x01020305⟩⟩], [], []⟩

/-- C140: both addresses are found behind the two aliases. -/
example : ∃ b, aliasPacket.toBytesCompressed ⟨true, true, true⟩ exHash = .ok b ∧
    lookUp ⟨true, true, true⟩ .A [[119], [97]] b = .ok
      [⟨[[121]], .A, false, .IN, 60, .A ⟨0x01020304⟩⟩, ⟨[[121]], .A, false, .IN, 60, .A ⟨0x01020305⟩⟩] :=
  ⟨_, rfl, by decide +kernel⟩

theorem leads_y {m : Fqdn} (h : Leads aliasPacket.answers [[121]] m) : lowerName m = [[121]] := by
  generalize hx : ([[121]] : Fqdn) = x at h
  cases h with
  | same h => subst hx; exact h.symm
  | next h1 h2 h3 _ =>
    subst hx
    simp only [aliasPacket, List.mem_cons, List.not_mem_nil, or_false] at h1
    rcases h1 with rfl | rfl | rfl | rfl
    · cases h3
    · exact absurd h2 (by decide)
    · exact absurd h2 (by decide)
    · cases h3

theorem leads_x {m : Fqdn} (h : Leads aliasPacket.answers [[120]] m) : lowerName m = [[120]] ∨ lowerName m = [[121]] := by
  generalize hx : ([[120]] : Fqdn) = x at h
  cases h with
  | same h => subst hx; exact .inl h.symm
  | next h1 h2 h3 h4 =>
    subst hx
    simp only [aliasPacket, List.mem_cons, List.not_mem_nil, or_false] at h1
    rcases h1 with rfl | rfl | rfl | rfl
    · cases h3
    · cases h3; exact .inr (leads_y h4)
    · exact absurd h2 (by decide)
    · cases h3

/-- C140: the packet of the example meets the conditions. -/
example : ProperAliases aliasPacket.answers .A ∧ OneSpelling aliasPacket.answers [[119], [97]] := by
  constructor
  · intro r hr c hc
    simp only [aliasPacket, List.mem_cons, List.not_mem_nil, or_false] at hr
    rcases hr with rfl | rfl | rfl | rfl
    · cases hc
    · cases hc
      refine ⟨fun r' hr' hs => ?_, fun h => absurd (leads_y h) (by decide)⟩
      simp only [aliasPacket, List.mem_cons, List.not_mem_nil, or_false] at hr'
      rcases hr' with rfl | rfl | rfl | rfl
      · exact absurd hs (by decide)
      · exact ⟨by decide, fun c' h' => by cases h'; rfl⟩
      · exact absurd hs (by decide)
      · exact absurd hs (by decide)
    · cases hc
      refine ⟨fun r' hr' hs => ?_, fun h => absurd (leads_x h) (by decide)⟩
      simp only [aliasPacket, List.mem_cons, List.not_mem_nil, or_false] at hr'
      rcases hr' with rfl | rfl | rfl | rfl
      · exact absurd hs (by decide)
      · exact absurd hs (by decide)
      · exact ⟨by decide, fun c' h' => by cases h'; rfl⟩
      · exact absurd hs (by decide)
    · cases hc
  · unfold OneSpelling
    decide +kernel

/-- C140: aliases in a circle end the search after as many rounds as there are records, and nothing is found. -/
example : ∃ b, Packet.toBytes ⟨true, true, true⟩ ⟨⟨7, ⟨0x80, 0⟩, 0, 2, 0, 0⟩, [],
      [⟨[[120]], .CNAME, false, .IN, 60, .CNAME ⟨[[121]]⟩⟩, ⟨[[121]], .CNAME, false, .IN, 60, .CNAME ⟨[[120]]⟩⟩], [], []⟩ =
      .ok b ∧ lookUp ⟨true, true, true⟩ .A [[120]] b = .ok [] := ⟨_, rfl, by decide +kernel⟩

/-- C140 is false for names with several spellings: for every name with a letter there is an answer that gives an address
for the name, with the owner in another spelling, and the client finds nothing. -/
theorem C140_counterexample (cfg : Cfg) (n : Fqdn) (hn : NameOk 191 n)
    (hl : ∃ l ∈ n, ∃ b ∈ l, (0x41 ≤ b.toNat ∧ b.toNat ≤ 0x5A) ∨ (0x61 ≤ b.toNat ∧ b.toNat ≤ 0x7A)) :
    ∃ p b r, p.toBytes cfg = .ok b ∧ Packet.parse cfg b = .ok p ∧ ProperAliases p.answers .A ∧ Answers p.answers .A n r ∧
      lookUp cfg .A n b = .ok [] := by
  have h1 : ¬ ∀ m, SameName n m → n = m := by
    simp only [← C74_octets]
    rw [C74_equality_exact]
    obtain ⟨l, h1, b, h2, h3⟩ := hl
    intro h
    have := h l h1 b h2
    omega
  simp only [not_forall] at h1
  obtain ⟨m, hm, hne⟩ := h1
  have hmok : NameOk 191 m := by
    have e : n.map List.length = m.map List.length := by
      have := congrArg (List.map List.length) hm
      simpa [lowerName, List.map_map, Function.comp_def] using this
    intro l hl'
    have : l.length ∈ n.map List.length := e ▸ List.mem_map_of_mem hl'
    obtain ⟨k, hk, hkl⟩ := List.mem_map.mp this
    have := hn k hk
    omega
  let r : ResourceRecord := ⟨m, .A, false, .IN, 60, .A ⟨0x01020304⟩⟩
  have hok : PacketOk cfg 191 (onePacket r) := by
    refine ⟨by simp [onePacket], fun r' hr' => ?_, by simp [onePacket], by simp [onePacket], by simp [onePacket], by simp [onePacket]⟩
    simp only [records, onePacket, List.append_nil, List.mem_singleton] at hr'
    subst hr'
    exact ⟨hmok, by simp [Readable, dnssecTypes, r], rfl, trivial, (by decide : 1 < 32768), by simp [r], trivial,
      fun b hb => by cases hb; exact (by decide : 4 < 65536)⟩
  obtain ⟨b, h2, h3⟩ := C27_packet_round_trip_partial cfg (onePacket r) hok (by
    intro r' hr'
    simp only [records, onePacket, List.append_nil, List.mem_singleton] at hr'
    subst hr'
    exact ⟨by simp [r, RecordData.type], rfl⟩)
  have h4 : Packet.parse cfg b = .ok (onePacket r) := by
    have := (h3 []).1
    rw [List.append_nil, C27_counts _ ⟨rfl, rfl, rfl, rfl⟩] at this
    exact this
  refine ⟨onePacket r, b, r, h2, h4, ?_, ⟨by simp [onePacket], rfl, .same hm⟩, ?_⟩
  · intro r' hr' c hc
    simp only [onePacket, List.mem_singleton] at hr'
    subst hr'
    cases hc
  · unfold lookUp
    rw [h4]
    have : ¬ m = n := fun h => hne h.symm
    simp [Res.ok_bind, onePacket, r, follow, aliasOf, this]

/-- The name `w`, asked with a small and answered with a capital letter. -/
example : NameOk 191 [[119]] ∧ ∃ l ∈ ([[119]] : Fqdn), ∃ b ∈ l, (0x41 ≤ b.toNat ∧ b.toNat ≤ 0x5A) ∨
    (0x61 ≤ b.toNat ∧ b.toNat ≤ 0x7A) := by decide

end Dns
