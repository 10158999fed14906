import Verif.Props.RData
import Verif.Lemmas.Bounded

/-! C45 to C47: SVCB parameters and OPT options. -/

namespace Dns
open Spec Buf

/-! ## C45 -/

/-- Elements inserted one after the other into an empty `BTreeSet<Param>`. -/
def insertParams (ps : List Param) : List Param := ps.foldl (fun acc p => btInsert Param.ord p acc) []

theorem insertParams_snoc (ps : List Param) (p : Param) :
    insertParams (ps ++ [p]) = btInsert Param.ord p (insertParams ps) := by
  simp [insertParams]

theorem mem_btInsert_key {α : Type} {key : α → Nat} (x y : α) (l : List α)
    (h : l.Pairwise (fun a b => key a < key b)) :
    y ∈ btInsert key x l ↔ y ∈ l ∨ (y = x ∧ ∀ z ∈ l, key z ≠ key x) := by
  induction l with
  | nil => simp [btInsert]
  | cons z zs ih =>
    rw [List.pairwise_cons] at h
    rw [btInsert]
    split
    · rename_i hlt
      have : ∀ w ∈ z :: zs, key w ≠ key x := by
        intro w hw
        rcases List.mem_cons.mp hw with rfl | hw
        · omega
        · have := h.1 w hw; omega
      constructor
      · intro hy
        rcases List.mem_cons.mp hy with rfl | hy
        · exact .inr ⟨rfl, this⟩
        · exact .inl hy
      · rintro (hy | ⟨rfl, _⟩)
        · exact List.mem_cons_of_mem _ hy
        · exact List.mem_cons_self
    · split
      · rename_i h1 h2
        rw [List.mem_cons, ih h.2, List.mem_cons, List.forall_mem_cons, or_assoc]
        have : key z ≠ key x := by omega
        simp [this]
      · rename_i h1 h2
        have : key z = key x := by omega
        rw [List.forall_mem_cons]
        simp [this]

theorem insertParams_spec (ps : List Param) :
    (insertParams ps).Pairwise (fun a b => a.ord < b.ord) ∧
    (∀ p, p ∈ insertParams ps ↔ ps.find? (fun q => q.ord == p.ord) = some p) := by
  induction ps using List.reverseRecOn with
  | nil => simp [insertParams]
  | append_singleton ps x ih =>
    obtain ⟨ih1, ih2⟩ := ih
    rw [insertParams_snoc]
    refine ⟨sorted_btInsert x ih1, ?_⟩
    intro p
    rw [mem_btInsert_key x p _ ih1, ih2, List.find?_append]
    constructor
    · rintro (h | ⟨rfl, h⟩)
      · rw [h]; rfl
      · have : ps.find? (fun q => q.ord == p.ord) = none := by
          rcases hf : ps.find? (fun q => q.ord == p.ord) with _ | q
          · exact hf
          · exfalso
            have hq := List.find?_some hf
            simp only [beq_iff_eq] at hq
            refine h q ((ih2 q).mpr ?_) hq
            rw [← hf]; congr 1; funext z; rw [hq]
        rw [this]; simp
    · intro h
      rcases hf : ps.find? (fun q => q.ord == p.ord) with _ | q
      · rw [hf] at h
        simp only [Option.none_or, List.find?_singleton] at h
        split at h
        · have := Option.some.inj h
          subst this
          refine .inr ⟨rfl, ?_⟩
          intro z hz he
          have h1 := (ih2 z).mp hz
          have h2 : ps.find? (fun q => q.ord == x.ord) = some z := by
            rw [← h1]; congr 1; funext w; rw [he]
          rw [h2] at hf; cases hf
        · cases h
      · rw [hf] at h
        rw [← h, ← hf]
        exact .inl (by rw [hf]; rfl)

theorem Param.ord_eq (p : Param) : p.ord = paramKeyNumber p.key := ParamKey.ord_eq _

theorem insertParams_key (ps : List Param) (p : Param) :
    p ∈ insertParams ps ↔ ps.find? (fun q => paramKeyNumber q.key == paramKeyNumber p.key) = some p := by
  simpa only [Param.ord_eq] using (insertParams_spec ps).2 p

/-- C45: whatever is inserted in whatever order, the parameters are strictly increasing in key, and of
several with the same key the first is the one that is there. -/
theorem C45_insertions (ps : List Param) :
    (insertParams ps).Pairwise (fun a b => paramKeyNumber a.key < paramKeyNumber b.key) ∧
    ∀ p, p ∈ insertParams ps ↔
      ps.find? (fun q => paramKeyNumber q.key == paramKeyNumber p.key) = some p := by
  refine ⟨?_, insertParams_key ps⟩
  simpa only [Param.ord_eq] using (insertParams_spec ps).1

theorem svcb_loop {cfg : Cfg} {d : Bytes} {s s' : List Param} {i j : Nat}
    (h : Loop (Svcb.step cfg) d s i s' j) :
    j = d.length ∧ ∃ ps, Seq (Param.parse cfg) d i ps d.length ∧
      s' = ps.foldl (fun acc p => btInsert Param.ord p acc) s := by
  induction h with
  | done => exact ⟨rfl, [], rfl, rfl⟩
  | step hi hb _ ih =>
    obtain ⟨rfl, ps, h1, h2⟩ := ih
    obtain ⟨_, _, p, h3, rfl⟩ := Svcb.step_ok.mp hb
    exact ⟨rfl, p :: ps, ⟨_, h3, h1⟩, h2⟩

/-- C45: a SVCB record that was read: the parameters `ps` follow one after the other up to the end of the
data, and the record has exactly the first one of each key, in increasing order. -/
theorem C45_parsed (cfg : Cfg) (d : Bytes) (i j : Nat) (r : Svcb) (h : Svcb.parse cfg d i = (.ok r, j)) :
    r.params.Pairwise (fun a b => paramKeyNumber a.key < paramKeyNumber b.key) ∧
    ∃ (k : Nat) (ps : List Param), extractFqdn d (i + 2) = (.ok r.targetName, k) ∧
      ListAt (fun a p b => Param.parse cfg d a = (.ok p, b)) k ps d.length ∧
      ∀ p, p ∈ r.params ↔
        ps.find? (fun q => paramKeyNumber q.key == paramKeyNumber p.key) = some p := by
  unfold Svcb.parse at h
  simp only [Parser.bind_ok, Parser.pure_ok] at h
  obtain ⟨p, k1, h1, n, k2, h2, l, k3, h3, rfl, rfl⟩ := h
  have e1 := (extractU16_ok.mp h1).end_eq
  rw [octets16_length] at e1
  subst e1
  obtain ⟨rfl, ps, h4, h5⟩ := svcb_loop (loop_of_fuel _ _ _ _ _ h3)
  have h5 : l = insertParams ps := h5
  subst h5
  exact ⟨(C45_insertions ps).1, k2, ps, h2, (seq_listAt (fun _ _ _ => Iff.rfl)).mp h4, insertParams_key ps⟩
example := C45_parsed ⟨true, true, true⟩ [0, 1, 0, 0, 5, 0, 1, 7, 0, 3, 0, 2, 0, 53] 0 14 ⟨1, [], [.port 53, .ech [7]]⟩
  (by decide +kernel)

/-- C45: `to_bytes` writes the parameters in the order of the set, one after the other. -/
theorem C45_written (cfg : Cfg) (r : Svcb) (b : Bytes) (h : r.toBytes cfg = .ok b) :
    ∃ bs : List Bytes, b = octets16 r.priority ++ r.targetName.toBytes ++ bs.flatten ∧
      List.Forall₂ (fun p x => Param.toBytes cfg p = .ok x) r.params bs := by
  have key : ∀ ps x, Svcb.paramBytes cfg ps = .ok x →
      ∃ bs : List Bytes, x = bs.flatten ∧ List.Forall₂ (fun p x => Param.toBytes cfg p = .ok x) ps bs := by
    intro ps
    induction ps with
    | nil => intro x hx; cases hx; exact ⟨[], rfl, .nil⟩
    | cons p ps ih =>
      intro x hx
      rw [Svcb.paramBytes, Res.bind_ok] at hx
      obtain ⟨a, h1, hx⟩ := hx
      rw [Res.bind_ok] at hx
      obtain ⟨c, h2, hx⟩ := hx
      cases hx
      obtain ⟨bs, rfl, h3⟩ := ih c h2
      exact ⟨a :: bs, rfl, .cons h1 h3⟩
  unfold Svcb.toBytes at h
  rw [Res.bind_ok] at h
  obtain ⟨x, h1, h2⟩ := h
  cases h2
  obtain ⟨bs, rfl, h3⟩ := key _ _ h1
  exact ⟨bs, by rw [u16be_eq], h3⟩

/-- C45: port 80 comes first, port 81 is ignored; the keys are sorted. -/
example : Svcb.parse ⟨true, true, true⟩
    ([0, 1, 0, 0, 3, 0, 2, 0, 80, 0, 2, 0, 0, 0, 3, 0, 2, 0, 81] : Bytes) 0 =
    (.ok ⟨1, [], [.noDefaultAlpn, .port 80]⟩, 19) := by decide +kernel

/-! ## C46 -/

theorem frame_eq {a b N j l : Nat} (h : j = a + b ∨ a + N ≤ j) (h1 : j ≤ l) (h2 : l < N) : j = a + b := by
  omega

theorem mandatory_frame {cfg : Cfg} {d : Bytes} : ∀ (fuel len : Nat) (acc keys : List ParamKey) (i j : Nat),
    Param.mandatoryLoop cfg fuel len acc d i = (.ok keys, j) → j = i + len ∨ i + 2 ^ 63 ≤ j := by
  intro fuel
  induction fuel with
  | zero => intro len acc keys i j h; simp [Param.mandatoryLoop, Parser.lift] at h
  | succ fuel ih =>
    intro len acc keys i j h
    rw [Param.mandatoryLoop] at h
    split at h
    · simp only [Parser.bind_ok, Parser.lift_ok] at h
      obtain ⟨k, m, h1, k', m', ⟨h2, rfl⟩, len', m', ⟨h3, rfl⟩, h4⟩ := h
      have e1 := (extractU16_ok.mp h1).end_eq
      rw [octets16_length] at e1
      have := ih _ _ _ _ _ h4
      unfold subUsize at h3
      split at h3
      · cases h3; omega
      · split at h3
        · cases h3
        · cases h3; omega
    · simp only [Parser.pure_ok] at h
      omega

theorem alpn_frame {cfg : Cfg} {d : Bytes} : ∀ (fuel len : Nat) (acc ids : List Bytes) (i j : Nat),
    Param.alpnLoop cfg fuel len acc d i = (.ok ids, j) → j = i + len ∨ i + 2 ^ 63 ≤ j := by
  intro fuel
  induction fuel with
  | zero => intro len acc keys i j h; simp [Param.alpnLoop, Parser.lift] at h
  | succ fuel ih =>
    intro len acc keys i j h
    rw [Param.alpnLoop] at h
    split at h
    · simp only [Parser.bind_ok, Parser.lift_ok] at h
      obtain ⟨k, m, h1, b, m2, h2, len', m3, ⟨h3, rfl⟩, h4⟩ := h
      have e1 := (extractU8_ok.mp h1).end_eq
      obtain ⟨e2, h2⟩ := extractBytes_ok.mp h2
      have e3 := h2.end_eq
      simp only [List.length_cons, List.length_nil] at e1
      have hk := k.toNat_lt
      have := ih _ _ _ _ _ h4
      unfold subUsize at h3
      split at h3
      · cases h3; omega
      · split at h3
        · cases h3
        · cases h3; omega
    · simp only [Parser.pure_ok] at h
      omega

theorem ParamKey.ofU16_sound {v : UInt16} {k : ParamKey} (h : ParamKey.ofU16 v = .ok k) :
    v = UInt16.ofNat (paramKeyNumber k) ∧ keyOk k := by
  unfold ParamKey.ofU16 at h
  split at h
  all_goals first
    | (cases h; exact ⟨rfl, trivial⟩)
    | (split at h
       · rename_i hv
         cases h
         exact ⟨by simp [paramKeyNumber], UInt16.le_iff_toNat_le.mp hv.1, UInt16.le_iff_toNat_le.mp hv.2⟩
       · cases h)

theorem Param.bounded_value (cfg : Cfg) (key : ParamKey) (len : Nat) :
    Bounded (Param.parseValue cfg key len) := by
  cases key with
  | mandatory =>
    exact Bounded.bind .dataLen (fun _ => .bind (Param.bounded_mandatory _ _ _ _) (fun _ => .pure _))
  | alpn => exact Bounded.bind .dataLen (fun _ => .bind (Param.bounded_alpn _ _ _ _) (fun _ => .pure _))
  | noDefaultAlpn => exact .pure _
  | invalid => exact .pure _
  | port => exact .bind .extractU16 (fun _ => .pure _)
  | ipV4Hint => exact .bind .extractU32 (fun _ => .pure _)
  | ipV6Hint => exact .bind .extractU128 (fun _ => .pure _)
  | ech => exact .bind (.extractBytes _) (fun _ => .pure _)
  | «private» n => exact .bind (.extractBytes _) (fun _ => .pure _)

/-- Octets of the value that are read when the length field is `len`. -/
def valueRead (p : Param) (len : Nat) : Nat :=
  match p with
  | .port _ => 2
  | .ipV4Hint _ => 4
  | .ipV6Hint _ => 16
  | .noDefaultAlpn => 0
  | .invalid => 0
  | _ => len

/-- C46 (partial): a parameter starts with its key and the length; exactly that many octets are read for
mandatory keys, ALPN identifiers, ECH and private parameters.  What is missing: ports and address hints
have a fixed size and no-default-alpn and the invalid key no value, whatever the length says (see the
counterexample).  Messages have less than 2^63 octets in every execution. -/
theorem C46_read_partial (cfg : Cfg) (d : Bytes) (i j : Nat) (p : Param) (hd : d.length < 2 ^ 63)
    (h : Param.parse cfg d i = (.ok p, j)) :
    ∃ len : UInt16, Octets d i (octets16 (UInt16.ofNat (paramKeyNumber p.key)) ++ octets16 len) (i + 4) ∧
      j = i + 4 + valueRead p len.toNat := by
  unfold Param.parse at h
  simp only [Parser.bind_ok, Parser.lift_ok] at h
  obtain ⟨k, m1, h1, key, m2, ⟨h2, hm⟩, len, m3, h3, h4⟩ := h
  subst hm
  have h1 := extractU16_ok.mp h1
  have h3 := extractU16_ok.mp h3
  have e1 := h1.end_eq
  have e3 := h3.end_eq
  have l3 := h3.le
  rw [octets16_length] at e1 e3
  have hj := Param.bounded_value cfg key len.toNat d m3 l3
  rw [h4] at hj
  have hj : j ≤ d.length := hj
  obtain ⟨rfl, hok⟩ := ParamKey.ofU16_sound h2
  have e : m3 = i + 4 := by omega
  subst e
  have hpre : Octets d i (octets16 (UInt16.ofNat (paramKeyNumber key)) ++ octets16 len) (i + 4) :=
    octets_append.mpr ⟨_, h1, h3⟩
  refine ⟨len, ?_⟩
  cases key <;> simp only [Param.parseValue, Parser.bind_ok, Parser.pure_ok] at h4
  case mandatory =>
    obtain ⟨f, m, h5, keys, m2, h6, rfl, rfl⟩ := h4
    cases h5
    exact ⟨hpre, frame_eq (mandatory_frame _ _ _ _ _ _ h6) hj hd⟩
  case alpn =>
    obtain ⟨f, m, h5, keys, m2, h6, rfl, rfl⟩ := h4
    cases h5
    exact ⟨hpre, frame_eq (alpn_frame _ _ _ _ _ _ h6) hj hd⟩
  case noDefaultAlpn =>
    obtain ⟨rfl, rfl⟩ := h4
    exact ⟨hpre, rfl⟩
  case invalid =>
    obtain ⟨rfl, rfl⟩ := h4
    exact ⟨hpre, rfl⟩
  case port =>
    obtain ⟨x, m, h5, rfl, rfl⟩ := h4
    exact ⟨hpre, (extractU16_ok.mp h5).end_eq⟩
  case ipV4Hint =>
    obtain ⟨x, m, h5, rfl, rfl⟩ := h4
    exact ⟨hpre, (extractU32_ok.mp h5).end_eq⟩
  case ipV6Hint =>
    obtain ⟨x, m, h5, rfl, rfl⟩ := h4
    obtain ⟨b, h6, h7, _⟩ := (extractU128_ok (N := Decodes)).mp h5
    exact ⟨hpre, by rw [h6.end_eq, h7]; rfl⟩
  case ech =>
    obtain ⟨x, m, h5, rfl, rfl⟩ := h4
    obtain ⟨h6, h7⟩ := extractBytes_ok.mp h5
    exact ⟨hpre, by rw [h7.end_eq, h6]; rfl⟩
  case «private» =>
    obtain ⟨x, m, h5, rfl, rfl⟩ := h4
    obtain ⟨h6, h7⟩ := extractBytes_ok.mp h5
    exact ⟨hpre, by rw [h7.end_eq, h6]; rfl⟩
example := C46_read_partial ⟨true, true, true⟩ [0, 3, 0, 2, 0, 53] 0 6 (.port 53) (by decide) (by decide +kernel)

/-- C46 is false for ports: the value of a port parameter with length 4 ends after two octets. -/
theorem C46_counterexample (cfg : Cfg) :
    Param.parse cfg ([0, 3, 0, 4, 0, 80, 9, 9] : Bytes) 0 = (.ok (.port 80), 6) := by
  show Param.parse ⟨true, true, true⟩ ([0, 3, 0, 4, 0, 80, 9, 9] : Bytes) 0 = _
  decide +kernel

/-- C46: the length field written is the number of octets of the value, for values up to 65535 octets
without overflow checks, and up to 65531 with them. -/
theorem C46_written (cfg : Cfg) (p : Param)
    (hl : (Items.octets (paramValue p)).length < if cfg.overflowChecks then 65532 else 65536) :
    p.toBytes cfg = .ok (octets16 (UInt16.ofNat (paramKeyNumber p.key)) ++
      octets16 (UInt16.ofNat (Items.octets (paramValue p)).length) ++ Items.octets (paramValue p)) := by
  have hs := p.byteSize_eq
  rw [Param.toBytes, hs, Param.valueBytes_eq, u16be_eq, ParamKey.toU16_eq]
  generalize (Items.octets (paramValue p)).length = n at hl
  have : subU16 cfg ((4 + n) % 65536) 4 = .ok n := by
    unfold subU16
    split at hl
    · rw [Nat.mod_eq_of_lt (by omega), if_pos (by omega)]; congr 1; omega
    · split
      · congr 1; omega
      · congr 1; omega
  rw [this]
  simp [bind, Res.bind, pure, u16be_eq]
example (cfg : Cfg) : Param.toBytes cfg (.ech [7, 8]) = .ok [0, 5, 0, 2, 7, 8] :=
  C46_written cfg (.ech [7, 8]) (by cases cfg.overflowChecks <;> decide)

/-- C46: with overflow checks, longer values (up to 65535 octets) panic. -/
theorem C46_written_counterexample (cfg : Cfg) (hc : cfg.overflowChecks = true) (b : Bytes)
    (hl : 65532 ≤ b.length ∧ b.length < 65536) : Param.toBytes cfg (.ech b) = .panic .overflow := by
  have : subU16 cfg ((4 + b.length) % 65536) 4 = .panic .overflow := by
    unfold subU16
    rw [if_neg (by omega), if_pos hc]
  unfold Param.toBytes
  rw [show (Param.ech b).byteSize = 4 + b.length from rfl, this]
  rfl
example : Param.toBytes ⟨true, true, true⟩ (.ech (List.replicate 65532 7)) = .panic .overflow :=
  C46_written_counterexample ⟨true, true, true⟩ rfl _ (by rw [List.length_replicate]; decide)

/-! ## C47 -/

theorem mem_mapOf {kvs : List (UInt16 × Bytes)} {k : UInt16} {v : Bytes} :
    (k, v) ∈ mapOf kvs ↔ kvs.reverse.lookup k = some v := by
  unfold mapOf
  simp only [List.mem_map, Prod.mk.injEq]
  constructor
  · rintro ⟨k', h1, rfl, rfl⟩
    have h2 := List.mem_eraseDups.mp h1
    obtain ⟨kv, h3, rfl⟩ := List.mem_map.mp h2
    unfold lastValue
    rcases hl : kvs.reverse.lookup kv.1 with _ | w
    · exfalso
      rw [List.lookup_eq_none_iff] at hl
      have := hl kv (List.mem_reverse.mpr h3)
      simp at this
    · rfl
  · intro h
    refine ⟨k, ?_, rfl, by unfold lastValue; rw [h]; rfl⟩
    rw [List.mem_eraseDups]
    obtain ⟨l1, l2, h1, _⟩ := List.lookup_eq_some_iff.mp h
    have : (k, v) ∈ kvs := by
      rw [← List.mem_reverse, h1]; simp
    exact List.mem_map.mpr ⟨_, this, rfl⟩

theorem items_noname {N M : NameRel} {d : Bytes} {its : List Item} (hn : ∀ n, .name n ∉ its) :
    ∀ {i j : Nat}, Items.At N d i its j → Items.At M d i its j := by
  induction its with
  | nil => intro i j h; exact h
  | cons it its ih =>
    rintro i j ⟨k, h1, h2⟩
    refine ⟨k, ?_, ih (fun n hm => hn n (List.mem_cons_of_mem _ hm)) h2⟩
    cases it with
    | name n => exact absurd List.mem_cons_self (hn n)
    | _ => exact h1

/-- C47: an OPT record that was read: the data are options `kvs`, one after the other up to the end, the
codes of the map are pairwise different, and a code is mapped to a value exactly if this is the value of
its last occurrence. -/
theorem C47_parsed (cfg : Cfg) (d : Bytes) (i j : Nat) (r : Opt)
    (h : RecordData.parse cfg .OPT d i = (.ok (.OPT r), j)) :
    (r.options.map Prod.fst).Nodup ∧ ∃ kvs : List (UInt16 × Bytes),
      Items.At LegalName d i (optionItems kvs ++ [.eof]) j ∧
      ∀ k v, (k, v) ∈ r.options ↔ kvs.reverse.lookup k = some v := by
  obtain ⟨_, its, ⟨kvs, rfl, h1⟩, h2⟩ := (RecordData.parse_ok (r := .OPT r) (by trivial)).mp h
  have hn : ∀ n, .name n ∉ optionItems kvs ++ [.eof] := by simp [optionItems]
  refine ⟨?_, kvs, items_noname hn h2, ?_⟩
  · rw [h1]; unfold mapOf; rw [List.map_map]
    simpa [Function.comp_def] using nodup_eraseDups _
  · intro k v; rw [h1]; exact mem_mapOf
example := C47_parsed ⟨true, true, true⟩ [0, 3, 0, 1, 7, 0, 10, 0, 1, 8] 0 10 ⟨[(3, [7]), (10, [8])]⟩ (by decide +kernel)

/-- C47: every sequence of options is read (with the value of the last occurrence, by `C47_parsed`). -/
theorem C47_read_complete (cfg : Cfg) (d : Bytes) (i j : Nat) (kvs : List (UInt16 × Bytes))
    (h : Items.At LegalName d i (optionItems kvs ++ [.eof]) j) :
    ∃ r, RecordData.parse cfg .OPT d i = (.ok (.OPT r), j) ∧
      ∀ k v, (k, v) ∈ r.options ↔ kvs.reverse.lookup k = some v :=
  ⟨⟨mapOf kvs⟩, C37_parse_complete_partial cfg d i j (.OPT ⟨mapOf kvs⟩) _ (by simp) (by simp) (by simp)
    ⟨kvs, rfl, rfl⟩ h, fun _ _ => mem_mapOf⟩

/-- C47: written in any iteration order (`o` is any arrangement of the entries) and read, the map is the
same. -/
theorem C47_any_order (cfg : Cfg) (r : Opt) (hk : (r.options.map Prod.fst).Nodup)
    (hl : ∀ o ∈ r.options, o.2.length < 65536) (o : List (UInt16 × Bytes)) (ho : o.Perm r.options) (pre : Bytes) :
    ∃ r', RecordData.parse cfg .OPT (pre ++ Opt.toBytes ⟨o⟩) pre.length =
        (.ok (.OPT r'), (pre ++ Opt.toBytes ⟨o⟩).length) ∧ r'.options.Perm r.options := by
  have hw : Writable cfg 191 (.OPT ⟨o⟩) :=
    ⟨(List.Perm.nodup_iff (ho.map _)).mpr hk, fun x hx => hl x (ho.mem_iff.mp hx)⟩
  obtain ⟨b, h1, h2⟩ := RecordData.read_back (Nat.le_refl _) hw (by simp) pre
  cases h1
  exact ⟨⟨o⟩, h2, ho⟩

example : RecordData.parse ⟨true, true, true⟩ .OPT ([0, 8, 0, 1, 5, 0, 3, 0, 0, 0, 8, 0, 2, 6, 7] : Bytes) 0 =
    (.ok (.OPT ⟨[(8, [6, 7]), (3, [])]⟩), 15) := by decide +kernel

end Dns
