import Verif.Props.Dnssec

/-! C50 for keys of any length. -/

namespace Dns
open Spec Buf

theorem tagPart_eq (b : UInt8) (i : Nat) : (if i % 2 ≠ 0 then b.toNat else b.toNat * 256) = tagPart (b, i) := by
  unfold tagPart
  by_cases hi : i % 2 = 0 <;> simp [hi]

theorem keyTagLoop_release (cfg : Cfg) (hc : cfg.overflowChecks = false) (l : Bytes) (i acc : Nat) (ha : acc < 2 ^ 32) :
    DnsKey.keyTagLoop cfg i acc l = .ok ((acc + ((l.zipIdx i).map tagPart).sum) % 2 ^ 32) := by
  induction l generalizing i acc with
  | nil => simp [DnsKey.keyTagLoop]; omega
  | cons b l ih =>
    simp only [List.zipIdx_cons, List.map_cons, List.sum_cons]
    rw [DnsKey.keyTagLoop, tagPart_eq]
    have : addU32 cfg acc (tagPart (b, i)) = .ok ((acc + tagPart (b, i)) % 2 ^ 32) := by
      unfold addU32
      split
      · rename_i h; rw [Nat.mod_eq_of_lt h]
      · rw [hc]; rfl
    rw [this]
    show DnsKey.keyTagLoop cfg (i + 1) _ l = _
    rw [ih _ _ (Nat.mod_lt _ (by decide))]
    congr 1; omega

theorem keyTagLoop_debug (cfg : Cfg) (hc : cfg.overflowChecks = true) (l : Bytes) (i acc : Nat) (ha : acc < 2 ^ 32)
    (h : 2 ^ 32 ≤ acc + ((l.zipIdx i).map tagPart).sum) :
    DnsKey.keyTagLoop cfg i acc l = .panic .overflow := by
  induction l generalizing i acc with
  | nil => simp at h; omega
  | cons b l ih =>
    simp only [List.zipIdx_cons, List.map_cons, List.sum_cons] at h
    rw [DnsKey.keyTagLoop, tagPart_eq]
    by_cases hs : acc + tagPart (b, i) < 2 ^ 32
    · have : addU32 cfg acc (tagPart (b, i)) = .ok (acc + tagPart (b, i)) := if_pos hs
      rw [this]
      exact ih _ _ hs (by omega)
    · have : addU32 cfg acc (tagPart (b, i)) = .panic .overflow := by
        unfold addU32; rw [if_neg hs, hc]; rfl
      rw [this]; rfl

/-- C50 for keys of any length: `compute_key_tag` returns the checksum of RFC 4034, appendix B (that of all
algorithms but RSA/MD5), unless the build checks for overflow and the sum of appendix B with its carry does not
fit 32 bits; then it panics.  (A key that a record can hold is too short for that, `C50_key_tag_partial`.) -/
theorem C50_key_tag_exact (cfg : Cfg) (k : DnsKey) :
    k.computeKeyTag cfg =
      if cfg.overflowChecks = true ∧
          2 ^ 32 ≤ keyTagSum (dnskeyOctets k) + keyTagSum (dnskeyOctets k) / 65536 % 65536 then .panic .overflow
      else .ok (UInt16.ofNat (keyTagOf (dnskeyOctets k))) := by
  have hs : ((dnskeyOctets k).zipIdx.map tagPart).sum = keyTagSum (dnskeyOctets k) := rfl
  unfold DnsKey.computeKeyTag
  rw [DnsKey.toBytes_eq]
  generalize hS : keyTagSum (dnskeyOctets k) = S at hs
  cases hc : cfg.overflowChecks with
  | false =>
    rw [if_neg (by simp), keyTagLoop_release cfg hc _ _ _ (by decide), hs, Nat.zero_add]
    show (do let t ← addU32 cfg _ _; _) = _
    have h2 : ∀ a b, addU32 cfg a b = .ok ((a + b) % 2 ^ 32) := by
      intro a b
      unfold addU32
      split
      · rename_i h; rw [Nat.mod_eq_of_lt h]
      · rw [hc]; rfl
    rw [h2]
    show Res.ok _ = Res.ok _
    unfold keyTagOf
    rw [hS]
    congr 2; omega
  | true =>
    by_cases hb : S < 2 ^ 32
    · rw [keyTagLoop_eq cfg _ _ _ (by rw [hs]; omega), hs, Nat.zero_add]
      show (do let t ← addU32 cfg _ _; _) = _
      by_cases hf : S + S / 65536 % 65536 < 2 ^ 32
      · have h2 : addU32 cfg S (S / 65536 % 65536) = .ok (S + S / 65536 % 65536) := if_pos hf
        rw [h2, if_neg (by omega)]
        show Res.ok _ = Res.ok _
        unfold keyTagOf
        rw [hS]
      · have h2 : addU32 cfg S (S / 65536 % 65536) = .panic .overflow := by
          unfold addU32; rw [if_neg hf, hc]; rfl
        rw [h2, if_pos ⟨rfl, by omega⟩]; rfl
    · rw [keyTagLoop_debug cfg hc _ _ _ (by decide) (by rw [hs]; omega), if_pos ⟨rfl, by omega⟩]; rfl

/-- C50: keys of 131080 or more octets, all 255, are such that builds with overflow checks panic (they do not fit
a record). -/
theorem C50_overflow_counterexample (e : Bytes) (he : ∀ b ∈ e, b = 255) (hl : 131080 ≤ e.length) (b c : Bool) :
    (⟨true, true, 3, .ED25519, e⟩ : DnsKey).computeKeyTag ⟨true, b, c⟩ = .panic .overflow := by
  rw [C50_key_tag_exact, if_pos]
  refine ⟨rfl, ?_⟩
  have key : ∀ (e : Bytes) (i : Nat), (∀ b ∈ e, b = 255) →
      65535 * e.length ≤ 2 * ((e.zipIdx i).map tagPart).sum + (if i % 2 = 0 then 0 else 65025) := by
    intro e
    induction e with
    | nil => intro i _; simp
    | cons x e ih =>
      intro i hx
      have := ih (i + 1) (fun b hb => hx b (List.mem_cons_of_mem _ hb))
      rw [hx x List.mem_cons_self]
      simp only [List.length_cons, List.zipIdx_cons, List.map_cons, List.sum_cons, tagPart]
      rw [show UInt8.toNat 255 = 255 from rfl]
      split at this <;> split <;> omega
  have h0 : dnskeyOctets ⟨true, true, 3, .ED25519, e⟩ = [1, 1, 3, 15] ++ e := by
    simp [dnskeyOctets, Items.octets, Item.octets, o16, o8, dnskeyFlags, secAlgorithmNumber]
    rw [show octets16 257 = [1, 1] from by decide]; rfl
  have hs : keyTagSum ([1, 1, 3, 15] ++ e) = (([1, 1, 3, 15] ++ e : Bytes).zipIdx.map tagPart).sum := rfl
  rw [h0, hs, List.zipIdx_append, List.map_append, List.sum_append]
  have := key e ([1, 1, 3, 15] : Bytes).length he
  have h4 : (if ([1, 1, 3, 15] : Bytes).length % 2 = 0 then 0 else 65025) = 0 := rfl
  rw [h4] at this
  simp only [Nat.zero_add]
  omega

example : ∃ e : Bytes, (∀ b ∈ e, b = 255) ∧ 131080 ≤ e.length :=
  ⟨List.replicate 131080 255, fun _ h => List.eq_of_mem_replicate h, by rw [List.length_replicate]⟩

/-- C50: both outcomes occur. -/
example : (⟨true, true, 3, .ED25519, [1, 2]⟩ : DnsKey).computeKeyTag ⟨true, true, true⟩ = .ok 1298 := by decide +kernel

end Dns
