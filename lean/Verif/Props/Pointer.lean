import Verif.Props.NameWrite
namespace Dns
open Spec

theorem compressed_keeps (h : Hash) : ∀ (n : Fqdn) (m : Names) (o : Nat) (k : UInt64) (v : Nat), m k = some v →
    (n.toBytesCompressed h m o).2 k = some v
  | [], _, _, _, _, hk => hk
  | l :: ls, m, o, k, v, hk => by
    unfold Fqdn.toBytesCompressed
    cases hm : m (h (l :: ls)) with
    | some p => exact hk
    | none =>
      refine compressed_keeps h ls _ _ k v ?_
      unfold Names.insert
      rw [if_neg (by intro e; subst e; rw [hm] at hk; cases hk)]
      exact hk

theorem writeAll_append (h : Hash) (a b : List (Bytes × Fqdn)) :
    writeAll h (a ++ b) = b.foldl (writeName h) (writeAll h a) := List.foldl_append ..

theorem compressed_foldl_keeps (h : Hash) : ∀ (b : List (Bytes × Fqdn)) (st : Bytes × Names) (k : UInt64) (v : Nat), st.2 k = some v →
    (b.foldl (writeName h) st).2 k = some v
  | [], _, _, _, hk => hk
  | w :: b, st, k, v, hk => compressed_foldl_keeps h b _ k v (compressed_keeps h w.2 st.2 _ k v hk)

theorem compressed_keys (h : Hash) : ∀ (n : Fqdn) (m : Names) (o : Nat) (k : UInt64),
    (n.toBytesCompressed h m o).2 k ≠ none → m k ≠ none ∨ ∃ s, s <:+ n ∧ s ≠ [] ∧ k = h s
  | [], _, _, _, hk => .inl hk
  | l :: ls, m, o, k, hk => by
    unfold Fqdn.toBytesCompressed at hk
    cases hm : m (h (l :: ls)) with
    | some p => rw [hm] at hk; exact .inl hk
    | none =>
      rw [hm] at hk
      rcases compressed_keys h ls _ _ k hk with h1 | ⟨s, h1, h2, h3⟩
      · unfold Names.insert at h1
        split at h1
        · rename_i e; exact .inr ⟨l :: ls, List.suffix_refl _, by simp, e⟩
        · exact .inl h1
      · exact .inr ⟨s, h1.trans (List.suffix_cons ..), h2, h3⟩

theorem compressed_foldl_keys (h : Hash) : ∀ (b : List (Bytes × Fqdn)) (st : Bytes × Names) (k : UInt64),
    (b.foldl (writeName h) st).2 k ≠ none → st.2 k ≠ none ∨ ∃ m ∈ b.map Prod.snd, ∃ s, s <:+ m ∧ s ≠ [] ∧ k = h s
  | [], _, _, hk => .inl hk
  | w :: b, st, k, hk => by
    rcases compressed_foldl_keys h b _ k hk with h1 | ⟨m, h1, h2⟩
    · rcases compressed_keys h w.2 st.2 _ k h1 with h1 | h1
      · exact .inl h1
      · exact .inr ⟨w.2, by simp, h1⟩
    · exact .inr ⟨m, by simp only [List.map_cons, List.mem_cons]; exact .inr h1, h2⟩

theorem pointer_mod (o : Nat) :
    u16be (UInt16.ofNat o ||| 0xC000) = [UInt8.ofNat (192 + o % 16384 / 256), UInt8.ofNat (o % 16384 % 256)] ∧
      (UInt8.ofNat (192 + o % 16384 / 256)).toNat * 256 + (UInt8.ofNat (o % 16384 % 256)).toNat = 49152 + o % 16384 := by
  have e : UInt16.ofNat o ||| 0xC000 = UInt16.ofNat (o % 16384) ||| 0xC000 := by
    apply UInt16.toBitVec_inj.mp
    apply BitVec.eq_of_getLsbD_eq
    intro i hi
    have h16 : (16384 : Nat) = 2 ^ 14 := rfl
    simp only [UInt16.toBitVec_or, UInt16.toBitVec_ofNat', BitVec.getLsbD_or, BitVec.getLsbD_ofNat]
    rw [h16, Nat.testBit_mod_two_pow]
    by_cases h14 : i < 14
    · simp [h14]
    · have : i = 14 ∨ i = 15 := by omega
      rcases this with rfl | rfl <;> simp
  refine ⟨by rw [e, pointer_octets (by omega)], ?_⟩
  simp only [UInt8.toNat_ofNat']
  omega

/-- C62, exactly: when a name is written for the second time, whatever is written before, between and after, the two
octets that are written designate the offset of the first time modulo 16384.  So they lead to the name if and only if
that offset is below 16384. -/
theorem C62_pointer_exact (h : Hash) (before between : List (Bytes × Fqdn)) (gap gap2 : Bytes) (n : Fqdn) (hn : n ≠ [])
    (hc : NoCollision h (n :: before.map Prod.snd)) (hnew : ∀ m ∈ before.map Prod.snd, ¬ n <:+ m) :
    ∃ a b : UInt8, message h (before ++ (gap, n) :: between ++ [(gap2, n)]) =
        message h (before ++ (gap, n) :: between) ++ gap2 ++ [a, b] ∧
      a.toNat * 256 + b.toNat = 49152 + (message h before ++ gap).length % 16384 := by
  have h0 : (writeAll h before).2 (h n) = none := by
    by_contra hk
    rcases compressed_foldl_keys h before ([], Names.empty) _ hk with h1 | ⟨m, h1, s, h2, h3, h4⟩
    · exact h1 rfl
    · have := hc n s ⟨n, by simp, List.suffix_refl _⟩ ⟨m, by simp [h1], h2⟩ h4
      subst this
      exact hnew m h1 h2
  have h1 : (writeName h (writeAll h before) (gap, n)).2 (h n) = some (message h before ++ gap).length := by
    obtain ⟨l, ls, rfl⟩ := List.exists_cons_of_ne_nil hn
    unfold writeName Fqdn.toBytesCompressed
    simp only [h0]
    refine compressed_keeps h ls _ _ _ _ ?_
    unfold Names.insert
    rw [if_pos rfl]
    rfl
  have h2 : (writeAll h (before ++ (gap, n) :: between)).2 (h n) = some (message h before ++ gap).length := by
    rw [writeAll_append]
    exact compressed_foldl_keeps h between _ _ _ h1
  generalize hp : (message h before ++ gap).length = o at h2
  obtain ⟨he, hv⟩ := pointer_mod o
  refine ⟨_, _, ?_, hv⟩
  rw [← he]
  show (writeAll h _).1 = _
  rw [writeAll_append]
  show (writeName h _ _).1 = _
  obtain ⟨l, ls, rfl⟩ := List.exists_cons_of_ne_nil hn
  unfold writeName Fqdn.toBytesCompressed
  simp only [h2]
  rfl

/-- Non-vacuity: `a.b` after 20000 octets and the name `b`. -/
example : NoCollision (fun n => UInt64.ofNat n.length) ([[97], [98]] :: [[[98]]]) ∧
    ∀ m ∈ [[[98]]], ¬ ([[97], [98]] : Fqdn) <:+ m := by
  refine ⟨?_, by decide⟩
  rintro a b ⟨n, hn, ha⟩ ⟨m, hm, hb⟩ h
  have key : ∀ n ∈ ([[97], [98]] :: [[[98]]] : List Fqdn), n <:+ [[97], [98]] := by decide
  have ha := ha.trans (key n hn)
  have hb := hb.trans (key m hm)
  have h1 := ha.length_le
  have h2 := hb.length_le
  simp only [List.length_cons, List.length_nil] at h1 h2
  have he : a.length = b.length := by
    have := congrArg UInt64.toNat h
    simp only [UInt64.toNat_ofNat'] at this
    omega
  rw [List.suffix_iff_eq_drop] at ha hb
  rw [ha, hb, he]

end Dns
