import Verif.Spec.Flush
import Verif.Props.Known

/-!
C136: the caches of multicast hosts.
-/

namespace Dns
open Spec Buf

theorem mem_hear {cache m : List ResourceRecord} {r : ResourceRecord} :
    r ∈ hear cache m ↔ (r ∈ cache ∧ ∀ a ∈ m, ¬ Replaces a r) ∨ (r ∈ m ∧ r.ttl ≠ 0) := by
  simp only [hear, List.mem_append, List.mem_filter, Bool.not_eq_true', List.any_eq_false, decide_eq_true_eq]

theorem stillValid_nil {r : ResourceRecord} : ¬ StillValid [] r := by
  rintro ⟨past, m, later, h, _⟩
  exact absurd h (by simp)

theorem stillValid_cons {m : List ResourceRecord} {said : List (List ResourceRecord)} {r : ResourceRecord} :
    StillValid (m :: said) r ↔
      StillValid said r ∨ (r ∈ m ∧ r.ttl ≠ 0 ∧ ∀ m' ∈ said, ∀ a ∈ m', ¬ Replaces a r) := by
  constructor
  · rintro ⟨past, x, later, h, h1, h2, h3⟩
    cases past with
    | nil => injection h with e1 e2; subst e1 e2; exact .inr ⟨h1, h2, h3⟩
    | cons y past => injection h with e1 e2; exact .inl ⟨past, x, later, e2, h1, h2, h3⟩
  · rintro (⟨past, x, later, h, h1⟩ | ⟨h1, h2⟩)
    · exact ⟨m :: past, x, later, by rw [h]; rfl, h1⟩
    · exact ⟨[], m, said, rfl, h1, h2⟩

theorem mem_listen {cfg : Cfg} {r : ResourceRecord} {ds : List Bytes} {said : List (List ResourceRecord)}
    (hd : List.Forall₂ (fun d m => (∃ p, Packet.parse cfg d = .ok p ∧ p.answers = m) ∨
      ((∀ p, Packet.parse cfg d ≠ .ok p) ∧ m = [])) ds said) : ∀ cache : List ResourceRecord,
    r ∈ listen cfg cache ds ↔ (r ∈ cache ∧ ∀ m ∈ said, ∀ a ∈ m, ¬ Replaces a r) ∨ StillValid said r := by
  induction hd with
  | nil => intro cache; simp [listen, stillValid_nil]
  | @cons d m ds said h _ ih =>
    intro cache
    rw [stillValid_cons]
    rcases h with ⟨p, hp, rfl⟩ | ⟨hp, rfl⟩
    · rw [listen, hp]
      simp only
      rw [ih, mem_hear]
      simp only [List.forall_mem_cons]
      tauto
    · have : listen cfg cache (d :: ds) = listen cfg cache ds := by
        rw [listen]
        split
        · rename_i p h; exact absurd h (hp p)
        · rfl
      rw [this, ih]
      simp

/-- C136: a listener has in its cache exactly the records that are valid, after any number of messages of any hosts, in any
order; messages that are not read change nothing.  The messages have to be read as what they say. -/
theorem C136_cache (cfg : Cfg) (ds : List Bytes) (said : List (List ResourceRecord))
    (hd : List.Forall₂ (fun d m => (∃ p, Packet.parse cfg d = .ok p ∧ p.answers = m) ∨
      ((∀ p, Packet.parse cfg d ≠ .ok p) ∧ m = [])) ds said) (r : ResourceRecord) :
    r ∈ listen cfg [] ds ↔ StillValid said r := by
  rw [mem_listen hd]
  simp

/-- An announcement that arrives (C27, C28). -/
theorem announce_arrives {cfg : Cfg} {how : Option Hash} {m : List ResourceRecord} (hl : m.length < 65536)
    (hr : ∀ r ∈ m, RecordOk cfg 191 r ∧ r.rdata.type ≠ .SSHFP)
    (hn : how = none → ∀ r ∈ m, sizeError r.rdata = 0)
    (hh : ∀ h, how = some h → NoCollision h (packetNames (announce m)) ∧
      ∀ b, (announce m).toBytesCompressed cfg h = .ok b → b.length ≤ 16384) :
    ∃ d, writeWith cfg how (announce m) = .ok d ∧ ∃ p, Packet.parse cfg d = .ok p ∧ p.answers = m := by
  obtain ⟨b1, b2, b3⟩ := announce_ok (fun r h => (hr r h).1) hl
  cases how with
  | none => exact answers_arrive_plain b1 (by rw [b2]; exact fun r h => ⟨(hr r h).2, hn rfl r h⟩)
  | some h =>
    obtain ⟨a0, a3⟩ := hh h rfl
    obtain ⟨b, c1, c2⟩ := C28_compressed_round_trip_partial cfg h _ b1 b3 (by rw [b2]; exact fun r h => (hr r h).2) a0
    have := (c2 (a3 b c1) []).1
    rw [List.append_nil] at this
    exact ⟨b, c1, _, this, rfl⟩

/-- C136 (partial), hosts with the crate: they announce records one after the other, each message with `to_bytes` or with
`to_bytes_compressed`, and a listener has in its cache exactly the records that are valid.  What is missing: SSHFP, data that
`to_bytes` does not write as they should be (C27), and names with the same hash and messages of more than 16384 octets with
`to_bytes_compressed` (C28). -/
theorem C136_listen_partial (cfg : Cfg) (said : List (Option Hash × List ResourceRecord))
    (hr : ∀ x ∈ said, x.2.length < 65536 ∧ (∀ r ∈ x.2, RecordOk cfg 191 r ∧ r.rdata.type ≠ .SSHFP) ∧
      (x.1 = none → ∀ r ∈ x.2, sizeError r.rdata = 0) ∧
      ∀ h, x.1 = some h → NoCollision h (packetNames (announce x.2)) ∧
        ∀ b, (announce x.2).toBytesCompressed cfg h = .ok b → b.length ≤ 16384) :
    ∃ ds, List.Forall₂ (fun d x => writeWith cfg x.1 (announce x.2) = .ok d) ds said ∧
      ∀ r, r ∈ listen cfg [] ds ↔ StillValid (said.map fun x => x.2) r := by
  obtain ⟨ds, h1⟩ := forall₂_of_forall (R := fun (d : Bytes) (x : Option Hash × List ResourceRecord) =>
      writeWith cfg x.1 (announce x.2) = .ok d ∧ ∃ p, Packet.parse cfg d = .ok p ∧ p.answers = x.2) (f := id) said (by
    intro x hx
    obtain ⟨a1, a2, a3, a4⟩ := hr x hx
    exact announce_arrives a1 a2 a3 a4)
  rw [List.map_id] at h1
  refine ⟨ds, h1.imp fun _ _ h => h.1, fun r => C136_cache cfg ds _ ?_ r⟩
  rw [List.forall₂_map_right_iff]
  exact h1.imp fun _ _ h => .inl h.2

/-- C136: if all records have the bit for the cache, the valid records of a name, type and class are those of the last
announcement that has any of them (but those with the TTL 0). -/
theorem C136_last (said : List (List ResourceRecord)) (hf : ∀ m ∈ said, ∀ r ∈ m, r.cacheFlush = true) (r : ResourceRecord) :
    StillValid said r ↔ ∃ past m later, said = past ++ m :: later ∧ r ∈ m ∧ r.ttl ≠ 0 ∧
      ∀ m' ∈ later, ∀ a ∈ m', ¬ SameSet a r := by
  constructor
  · rintro ⟨past, m, later, h, h1, h2, h3⟩
    exact ⟨past, m, later, h, h1, h2, fun m' hm a ha hs => h3 m' hm a ha (.inr
      ⟨hf m' (by rw [h]; exact List.mem_append_right _ (List.mem_cons_of_mem _ hm)) a ha, hs⟩)⟩
  · rintro ⟨past, m, later, h, h1, h2, h3⟩
    refine ⟨past, m, later, h, h1, h2, fun m' hm a ha hs => h3 m' hm a ha ?_⟩
    rcases hs with hs | hs
    · exact ⟨hs.1, hs.2.1, hs.2.2.1⟩
    · exact hs.2
example := C136_last [hostRecords, hostRecords] (by decide)

/-- C136: after a host has said that a record is no longer valid, it is not, whoever had announced it and however often. -/
theorem C136_goodbye (said : List (List ResourceRecord)) (m : List ResourceRecord) (r : ResourceRecord) (hr : r ∈ m)
    (ht : ∀ a ∈ m, SameBesidesTtl a r → a.ttl = 0) (x : ResourceRecord) (hx : SameBesidesTtl x r) :
    ¬ StillValid (said ++ [m]) x := by
  rintro ⟨past, y, later, h, h1, h2, h3⟩
  rcases List.eq_nil_or_concat later with rfl | ⟨later, z, rfl⟩
  · obtain ⟨_, e⟩ := List.append_inj' h rfl
    injection e with e
    subst e
    exact h2 (ht x h1 hx)
  · rw [show past ++ y :: (later.concat z) = (past ++ y :: later) ++ [z] by simp] at h
    obtain ⟨_, e⟩ := List.append_inj' h rfl
    injection e with e
    subst e
    exact h3 m (by simp) r hr (.inl ⟨hx.1.symm, hx.2.1.symm, hx.2.2.1.symm, hx.2.2.2.symm⟩)
example := C136_goodbye [hostRecords, hostRecords] (hostRecords.map fun r => r.setTimeToLive 0)
  ⟨[[97]], .A, true, .IN, 0, .A ⟨0x0A000001⟩⟩ (by decide) (by decide)

/-- The address of a host, with the bit for the cache. -/
def hostAddress (n : Bytes) (ttl a : UInt32) : ResourceRecord := ⟨[n], .A, true, .IN, ttl, .A ⟨a⟩⟩

/-- What a listener has in its cache after announcements that are written by a build `cfg'` with `to_bytes`. -/
def heardPlain (cfg cfg' : Cfg) (said : List (List ResourceRecord)) : Res (List ResourceRecord) := do
  let ds ← said.mapM fun m => (announce m).toBytes cfg'
  return listen cfg [] ds

/-- C136 is false for SSHFP records: a record is in the cache that nobody has announced, and the one that is valid is not. -/
theorem C136_counterexample (cfg : Cfg) :
    heardPlain cfg cfg [[fingerprintRecord [4, 2, 0, 7, 7]]] = .ok [fingerprintRecord [2, 0, 7, 7]] ∧
    StillValid [[fingerprintRecord [4, 2, 0, 7, 7]]] (fingerprintRecord [4, 2, 0, 7, 7]) ∧
    ¬ StillValid [[fingerprintRecord [4, 2, 0, 7, 7]]] (fingerprintRecord [2, 0, 7, 7]) := by
  have : ∀ x y z : Bool, heardPlain ⟨x, y, z⟩ ⟨x, y, z⟩ [[fingerprintRecord [4, 2, 0, 7, 7]]] =
      .ok [fingerprintRecord [2, 0, 7, 7]] := by decide +kernel
  refine ⟨this cfg.overflowChecks cfg.mdns cfg.dnssec, ⟨[], _, [], rfl, by simp, by decide, by simp⟩, ?_⟩
  rw [stillValid_cons]
  rintro (h | h)
  · exact stillValid_nil h
  · exact absurd h.1 (by decide)

/-- C136: RFC 6762, section 16, compares names without regard to case.  The records do not: a host `a` that announces its new
address as `A` leaves the old one in the cache, with the bit for the cache. -/
theorem C136_case_counterexample (cfg : Cfg) (hm : cfg.mdns = true) :
    heardPlain cfg cfg [[hostAddress [97] 120 1], [hostAddress [65] 120 2]] =
      .ok [hostAddress [97] 120 1, hostAddress [65] 120 2] := by
  have : ∀ x z : Bool, heardPlain ⟨x, true, z⟩ ⟨x, true, z⟩ [[hostAddress [97] 120 1], [hostAddress [65] 120 2]] =
      .ok [hostAddress [97] 120 1, hostAddress [65] 120 2] := by decide +kernel
  obtain ⟨x, y, z⟩ := cfg
  subst hm
  exact this x z
example := C136_case_counterexample ⟨true, true, true⟩ rfl

/-- C136: a listener whose build is without the feature `mdns` reads the same messages without the bit, so that it keeps
addresses that are not valid any more. -/
theorem C136_feature_counterexample (cfg cfg' : Cfg) (hm : cfg.mdns = false) (hm' : cfg'.mdns = true) :
    heardPlain cfg cfg' [[hostAddress [97] 120 1], [hostAddress [97] 120 2]] =
      .ok [(hostAddress [97] 120 1).setCacheFlush false, (hostAddress [97] 120 2).setCacheFlush false] := by
  have : ∀ x z x' z' : Bool, heardPlain ⟨x, false, z⟩ ⟨x', true, z'⟩ [[hostAddress [97] 120 1], [hostAddress [97] 120 2]] =
      .ok [(hostAddress [97] 120 1).setCacheFlush false, (hostAddress [97] 120 2).setCacheFlush false] := by decide +kernel
  obtain ⟨x, y, z⟩ := cfg
  obtain ⟨x', y', z'⟩ := cfg'
  subst hm hm'
  exact this x z x' z'
example := C136_feature_counterexample ⟨true, false, true⟩ ⟨true, true, true⟩ rfl rfl

theorem hostAddress_ok {n : Bytes} {ttl a : UInt32} (hn : NameOk 191 [n]) :
    RecordOk ⟨true, true, true⟩ 191 (hostAddress n ttl a) ∧ (hostAddress n ttl a).rdata.type ≠ .SSHFP ∧
      sizeError (hostAddress n ttl a).rdata = 0 :=
  ⟨⟨hn, by simp [hostAddress, Readable, dnssecTypes], rfl, trivial, by simp [hostAddress, classNumber], by simp, trivial,
    by intro b hb; cases hb; show 4 < 65536; decide⟩, by simp [hostAddress, RecordData.type], rfl⟩

/-- A host announces an address, then another one, and says goodbye; another host is not concerned. -/
def exSaid : List (Option Hash × List ResourceRecord) :=
  [(none, [hostAddress [97] 120 1, hostAddress [98] 120 3]), (none, [hostAddress [97] 120 2]), (none, [hostAddress [97] 0 2])]

/-- C136: the hypotheses hold for these announcements. -/
example : ∃ ds, List.Forall₂ (fun d x => writeWith ⟨true, true, true⟩ x.1 (announce x.2) = .ok d) ds exSaid ∧
    ∀ r, r ∈ listen ⟨true, true, true⟩ [] ds ↔ StillValid (exSaid.map fun x => x.2) r := by
  refine C136_listen_partial _ exSaid ?_
  intro x hx
  simp only [exSaid, List.mem_cons, List.not_mem_nil, or_false] at hx
  have ha : ∀ ttl a, _ := fun ttl a => hostAddress_ok (n := [97]) (ttl := ttl) (a := a) (by decide)
  have hb : ∀ ttl a, _ := fun ttl a => hostAddress_ok (n := [98]) (ttl := ttl) (a := a) (by decide)
  rcases hx with rfl | rfl | rfl
  · refine ⟨by decide, ?_, fun _ => ?_, fun h hh => by cases hh⟩ <;>
    · simp only [List.mem_cons, List.not_mem_nil, or_false, forall_eq_or_imp, forall_eq]
      simp [ha, hb]
  all_goals
    refine ⟨by decide, ?_, fun _ => ?_, fun h hh => by cases hh⟩ <;>
    · simp only [List.mem_singleton, forall_eq]
      simp [ha]

/-- C136: what the listener has in its cache after each of them, and after a message that is not read. -/
example : heardPlain ⟨true, true, true⟩ ⟨true, true, true⟩ ((exSaid.map fun x => x.2).take 1) =
      .ok [hostAddress [97] 120 1, hostAddress [98] 120 3] ∧
    heardPlain ⟨true, true, true⟩ ⟨true, true, true⟩ ((exSaid.map fun x => x.2).take 2) =
      .ok [hostAddress [98] 120 3, hostAddress [97] 120 2] ∧
    heardPlain ⟨true, true, true⟩ ⟨true, true, true⟩ (exSaid.map fun x => x.2) = .ok [hostAddress [98] 120 3] ∧
    listen ⟨true, true, true⟩ [hostAddress [98] 120 3] [[1, 2, 3]] = [hostAddress [98] 120 3] := by decide +kernel

/-- C136: with compression. -/
example : (do let d ← writeWith ⟨true, true, true⟩ (some exHash) (announce [hostAddress [97] 120 1, hostAddress [97] 120 3])
              let e ← writeWith ⟨true, true, true⟩ none (announce [hostAddress [97] 120 2])
              return listen ⟨true, true, true⟩ [] [d, e]) = .ok [hostAddress [97] 120 2] := by decide +kernel

end Dns
