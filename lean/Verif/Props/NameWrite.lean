import Verif.Lemmas.NameWrite
import Verif.Spec.Compress

/-! C13, C14, C17, C18, C59, C62: writing names to messages. -/

namespace Dns
open Spec Buf

/-! ## C13 -/

/-- C13: a name with labels of 1 to 191 octets (in particular every legal one) is read back from its
`to_bytes()`, wherever it is in a message and whatever follows, and exactly its octets are consumed. -/
theorem C13_name_round_trip (n : Fqdn) (h : ∀ l ∈ n, 1 ≤ l.length ∧ l.length ≤ 191)
    (pre post : Bytes) :
    extractFqdn (pre ++ n.toBytes ++ post) pre.length = (.ok n, pre.length + n.toBytes.length) := by
  rw [Fqdn.toBytes_eq (fun l hl => (h l hl).1)]
  exact extractFqdn_ok.mpr (codeName_plain pre post n h)
example (pre post : Bytes) : extractFqdn (pre ++ [1, 97, 2, 98, 99, 0] ++ post) pre.length = (.ok [[97], [98, 99]], pre.length + 6) :=
  C13_name_round_trip [[97], [98, 99]] (by decide) pre post

/-- C13: the octets are the encoding of RFC 1035: every label preceded by its length, and a zero
octet. -/
theorem C13_name_octets (n : Fqdn) (h : ∀ l ∈ n, 1 ≤ l.length ∧ l.length ≤ 63) (pre post : Bytes) :
    n.toBytes = nameOctets n ∧
      NameWith 63 (fun _ _ => False) (pre ++ n.toBytes ++ post) pre.length n
        (pre.length + n.toBytes.length) := by
  rw [Fqdn.toBytes_eq (fun l hl => (h l hl).1)]
  exact ⟨rfl, nameWith_plain (by omega) _ post n pre h⟩

/-- C13: the root name (no labels) satisfies the hypotheses, and so does a name with labels of 63
octets. -/
example : ∀ l ∈ ([List.replicate 63 97, [98]] : Fqdn), 1 ≤ l.length ∧ l.length ≤ 191 := by decide
example : extractFqdn ([7, 7] ++ Fqdn.toBytes [[97], [98, 99]] ++ [9]) 2 = (.ok [[97], [98, 99]], 8) := by
  decide +kernel

/-- C13: the bound is sharp: a label of 192 octets is not read back. -/
theorem C13_bound_sharp : ∃ n : Fqdn, (∀ l ∈ n, l.length = 192) ∧
    extractFqdn n.toBytes 0 ≠ (.ok n, n.toBytes.length) :=
  ⟨[List.replicate 192 97], by decide +kernel, by decide +kernel⟩

/-! ## C14 -/

/-- C14: `byte_size()` and `len()` are the number of octets of `to_bytes()`. -/
theorem C14_byte_size (n : Fqdn) : n.byteSize = n.toBytes.length ∧ n.len = n.toBytes.length :=
  ⟨n.byteSize_eq, n.byteSize_eq⟩

example : Fqdn.byteSize [[97], [], [98, 99]] = 6 ∧ Fqdn.toBytes [[97], [], [98, 99]] = [1, 97, 2, 98, 99, 0] := by
  decide

/-! ## C17, C18 -/

theorem message_append (h : Hash) (a b : List (Bytes × Fqdn)) :
    writeAll h (a ++ b) = b.foldl (writeName h) (writeAll h a) := by
  simp [writeAll]

theorem foldl_prefix (h : Hash) (b : List (Bytes × Fqdn)) : ∀ st : Bytes × Names,
    ∃ e, (b.foldl (writeName h) st).1 = st.1 ++ e := by
  induction b with
  | nil => intro st; exact ⟨[], by simp⟩
  | cons w b ih =>
    intro st
    obtain ⟨e, he⟩ := ih (writeName h st w)
    refine ⟨w.1 ++ (Fqdn.toBytesCompressed h w.2 st.2 (st.1 ++ w.1).length).1 ++ e, ?_⟩
    rw [List.foldl_cons, he]
    simp only [writeName, List.append_assoc]

/-- The suffixes of some names. -/
def SuffixOf (names : List Fqdn) (s : Fqdn) : Prop := ∃ n ∈ names, s <:+ n

theorem suffixOf_tailClosed (names : List Fqdn) : TailClosed (SuffixOf names) := by
  rintro l ls ⟨n, hn, hs⟩
  exact ⟨n, hn, (List.suffix_cons l ls).trans hs⟩

theorem writeAll_mapOk {h : Hash} {names : List Fqdn} (hc : NoCollision h names) :
    ∀ hist : List (Bytes × Fqdn), (∀ w ∈ hist, w.2 ∈ names ∧ LegalLabels w.2) →
      (message h hist).length ≤ 16384 →
      MapOk 63 (SuffixOf names) h (writeAll h hist).2 (message h hist) := by
  intro hist
  induction hist using List.reverseRecOn with
  | nil => intro _ _; exact mapOk_empty _ _ _ _
  | append_singleton hist w ih =>
    intro hw hlen
    unfold message at hlen ⊢
    rw [message_append] at hlen ⊢
    simp only [List.foldl_cons, List.foldl_nil, writeName] at hlen ⊢
    have hw1 := hw w (by simp)
    have ih := ih (fun x hx => hw x (by simp [hx])) (by unfold message; simp at hlen; omega)
    exact compressed_mapOk (by omega) (suffixOf_tailClosed names) hc ⟨w.2, hw1.1, List.suffix_refl _⟩
      hw1.2 (ih.extend w.1) hlen

/-- C17: names written one after another with compression into one message (with any other octets in
between) are read back: each of them, read at its offset in the finished message, is the name that was
written, and exactly the octets written for it are consumed. -/
theorem C17_compressed_names_decode (h : Hash) (before after : List (Bytes × Fqdn)) (gap : Bytes)
    (n : Fqdn)
    (hlabels : ∀ w ∈ before ++ (gap, n) :: after, LegalLabels w.2)
    (hlen : (message h (before ++ (gap, n) :: after)).length ≤ 16384)
    (hc : NoCollision h ((before ++ (gap, n) :: after).map Prod.snd)) :
    extractFqdn (message h (before ++ (gap, n) :: after)) (message h before ++ gap).length
      = (.ok n, (message h (before ++ [(gap, n)])).length) := by
  have e1 : before ++ (gap, n) :: after = (before ++ [(gap, n)]) ++ after := by simp
  obtain ⟨e, he⟩ := foldl_prefix h after (writeAll h (before ++ [(gap, n)]))
  have hm : message h (before ++ (gap, n) :: after) = message h (before ++ [(gap, n)]) ++ e := by
    unfold message; rw [e1, message_append, he]
  have hm2 : message h (before ++ [(gap, n)]) = message h before ++ gap ++
      (n.toBytesCompressed h (writeAll h before).2 (message h before ++ gap).length).1 := by
    unfold message; rw [message_append]; rfl
  rw [hm] at hlen ⊢
  simp only [List.length_append] at hlen
  have hok := writeAll_mapOk hc before (fun w hw => ⟨List.mem_map_of_mem (by simp [hw]),
    hlabels w (by simp [hw])⟩) (by rw [hm2] at hlen; simp at hlen; omega)
  refine extractFqdn_ok.mpr (codeName_extend ?_ e)
  rw [hm2]
  exact compressed_codeName (by omega) (suffixOf_tailClosed _) hc
    ⟨n, List.mem_map.mpr ⟨(gap, n), by simp, rfl⟩, List.suffix_refl _⟩ (hlabels (gap, n) (by simp))
    (hok.extend gap) (by rw [← hm2]; omega)

/-- C18: what is written for a name is an RFC 1035 encoding of it in the finished message, in which
every pointer — those written here and those met behind their targets — leads to a smaller offset, where
the remaining labels are encoded. -/
theorem C18_pointers_backward (h : Hash) (before after : List (Bytes × Fqdn)) (gap : Bytes)
    (n : Fqdn)
    (hlabels : ∀ w ∈ before ++ (gap, n) :: after, LegalLabels w.2)
    (hlen : (message h (before ++ (gap, n) :: after)).length ≤ 16384)
    (hc : NoCollision h ((before ++ (gap, n) :: after).map Prod.snd)) :
    NameWith 63 (fun pointer target => target < pointer) (message h (before ++ (gap, n) :: after))
      (message h before ++ gap).length n (message h (before ++ [(gap, n)])).length := by
  have e1 : before ++ (gap, n) :: after = (before ++ [(gap, n)]) ++ after := by simp
  obtain ⟨e, he⟩ := foldl_prefix h after (writeAll h (before ++ [(gap, n)]))
  have hm : message h (before ++ (gap, n) :: after) = message h (before ++ [(gap, n)]) ++ e := by
    unfold message; rw [e1, message_append, he]
  have hm2 : message h (before ++ [(gap, n)]) = message h before ++ gap ++
      (n.toBytesCompressed h (writeAll h before).2 (message h before ++ gap).length).1 := by
    unfold message; rw [message_append]; rfl
  rw [hm] at hlen ⊢
  simp only [List.length_append] at hlen
  have hok := writeAll_mapOk hc before (fun w hw => ⟨List.mem_map_of_mem (by simp [hw]),
    hlabels w (by simp [hw])⟩) (by rw [hm2] at hlen; simp at hlen; omega)
  refine nameWith_extend ?_ e
  rw [hm2]
  exact compressed_nameWith (by omega) (suffixOf_tailClosed _) hc
    ⟨n, List.mem_map.mpr ⟨(gap, n), by simp, rfl⟩, List.suffix_refl _⟩ (hlabels (gap, n) (by simp))
    (hok.extend gap) (by rw [← hm2]; omega)

/-- A hash function for the examples: it has no collisions on lists with different numbers of labels
of one octet. -/
def sampleHash : Hash := fun n => n.foldl (fun a l => a * 256 + UInt64.ofNat (l.foldl (fun b c => b * 3 + c.toNat) 1)) 1

/-- C17, C18: the hypotheses hold for `a.b`, then `c.b` (which ends in a pointer), then `a.b` again
(which is one pointer). -/
example : message sampleHash [([0, 0], [[97], [98]]), ([5], [[99], [98]]), ([], [[97], [98]])]
    = [0, 0, 1, 97, 1, 98, 0, 5, 1, 99, 0xC0, 4, 0xC0, 2] := by decide +kernel

example : NoCollision sampleHash [[[97], [98]], [[99], [98]], [[97], [98]]] := by
  have hs : ∀ a : Fqdn, (∃ n ∈ ([[[97], [98]], [[99], [98]], [[97], [98]]] : List Fqdn), a <:+ n) →
      a ∈ ([[], [[98]], [[97], [98]], [[99], [98]]] : List Fqdn) := by
    rintro a ⟨n, hn, ha⟩
    simp only [List.mem_cons, List.not_mem_nil, or_false] at hn
    rcases hn with rfl | rfl | rfl <;>
    · simp only [List.suffix_cons_iff, List.suffix_nil] at ha
      rcases ha with rfl | rfl | rfl <;> simp
  intro a b ha hb
  have := hs a ha
  have := hs b hb
  revert a b
  have key : ∀ a ∈ ([[], [[98]], [[97], [98]], [[99], [98]]] : List Fqdn),
      ∀ b ∈ ([[], [[98]], [[97], [98]], [[99], [98]]] : List Fqdn),
      sampleHash a = sampleHash b → a = b := by decide +kernel
  intro a b ha hb h1 h2 h3
  exact key a h1 b h2 h3

/-! ## C59 -/

/-- C59: `byte_size_compressed` announces the number of octets `to_bytes_compressed` writes, and leaves
the map of the writer in the same state. -/
theorem C59_byte_size_compressed (h : Hash) (n : Fqdn) (names : Names) (offset : Nat) :
    (n.byteSizeCompressed h names offset).1 = (n.toBytesCompressed h names offset).1.length ∧
    (n.byteSizeCompressed h names offset).2 = (n.toBytesCompressed h names offset).2 :=
  byteSizeCompressed_eq h n names offset

/-- C59: it never exceeds the plain size, for names without empty labels. -/
theorem C59_compressed_le_plain (h : Hash) (n : Fqdn) (names : Names) (offset : Nat)
    (hn : ∀ l ∈ n, l ≠ []) : (n.byteSizeCompressed h names offset).1 ≤ n.byteSize := by
  rw [(byteSizeCompressed_eq h n names offset).1, n.byteSize_eq]
  exact compressed_le h n names offset (fun l hl => List.length_pos_iff.mpr (hn l hl))

example : (Fqdn.byteSizeCompressed sampleHash [[97], [98]]
    (Names.empty.insert (sampleHash [[98]]) 12) 20).1 = 4 := by
  decide +kernel

/-! ## C62 -/

/-- C62 is false: a name at offset 16384 or more is remembered, and the pointer to it loses the high
bits of the offset.  Whatever 16384 octets come first, if they start with a zero octet, the second `a`
is written as a pointer to offset 0 and is read as the root name. -/
theorem C62_offset_counterexample (h : Hash) (gap : Bytes) (hg : gap.length = 16384)
    (h0 : gap[0]? = some 0) :
    extractFqdn (message h [(gap, [[97]]), ([], [[97]])]) (message h [(gap, [[97]])]).length
        = (.ok [], (message h [(gap, [[97]]), ([], [[97]])]).length) := by
  have e : message h [(gap, [[97]])] = gap ++ [1, 97, 0] := by
    simp only [message, writeAll, List.foldl_cons, List.foldl_nil, writeName, Fqdn.toBytesCompressed,
      Names.empty]
    simp [lenU8]
  have e2 : message h [(gap, [[97]]), ([], [[97]])] = gap ++ [1, 97, 0] ++ [0xC0, 0] := by
    simp only [message, writeAll, List.foldl_cons, List.foldl_nil,
      writeName, Fqdn.toBytesCompressed, Names.empty, Names.insert, if_true, List.nil_append, hg]
    simp only [List.append_assoc]
    congr 1
  rw [e, e2]
  refine extractFqdn_ok.mpr ?_
  have hz : (gap ++ [1, 97, 0] ++ [0xC0, 0])[0]? = some 0 := by
    rw [List.append_assoc, List.getElem?_append_left (by omega), h0]
  have := CodeName.pointer (d := gap ++ [1, 97, 0] ++ [0xC0, 0])
    (i := (gap ++ [1, 97, 0]).length) (hi := 0xC0) (lo := 0) (ls := [])
    (k := 1) (by decide) ⟨gap ++ [1, 97, 0], [], by simp, rfl, rfl⟩ (by simp)
    (.root hz)
  have el : (gap ++ [1, 97, 0] ++ [0xC0, 0]).length = (gap ++ [1, 97, 0]).length + 2 := by
    simp
  rw [el]
  exact this

example : ∃ gap : Bytes, gap.length = 16384 ∧ gap[0]? = some 0 :=
  ⟨List.replicate 16384 0, List.length_replicate, by rw [List.getElem?_replicate]; rfl⟩

/-- C62: no such pointer is written as long as the message has at most 16384 octets; the map then only
holds offsets below 16384. -/
theorem C62_short_messages_partial (h : Hash) (hist : List (Bytes × Fqdn))
    (hlabels : ∀ w ∈ hist, LegalLabels w.2) (hlen : (message h hist).length ≤ 16384)
    (hc : NoCollision h (hist.map Prod.snd)) (n : Fqdn) (hn : n ∈ hist.map Prod.snd) (hne : n ≠ [])
    (o : Nat) (ho : (writeAll h hist).2 (h n) = some o) : o < 16384 := by
  have := writeAll_mapOk hc hist (fun w hw => ⟨List.mem_map_of_mem hw, hlabels w hw⟩) hlen n
    ⟨n, hn, List.suffix_refl _⟩ hne o ho
  have := this.lt
  omega

end Dns
