import Verif.Model.Word
import Verif.Lemmas.Items

/-
The loops of SVCB on machines with different word sizes.
-/

namespace Dns
open Spec Buf
namespace Word

theorem bind_congr {α β : Type} (p : Parser α) (f g : α → Parser β) (d : Bytes) (i : Nat)
    (h : ∀ a j, p d i = (.ok a, j) → f a d j = g a d j) : (p >>= f) d i = (p >>= g) d i := by
  show Parser.bind p f d i = Parser.bind p g d i
  unfold Parser.bind
  split <;> first | rfl | (rename_i heq; exact h _ _ heq)

theorem octets_len {d : Bytes} {i j : Nat} {b : Bytes} (h : Octets d i b j) :
    j = i + b.length ∧ i + b.length ≤ d.length := by
  have := octets_iff.mp h
  omega

theorem lift_sub_ok {cfg : Cfg} {w a b : Nat} (h : b ≤ a) : subWord w cfg a b = .ok (a - b) := by
  simp [subWord, h]

theorem lift_bind {α β : Type} (a : α) (f : α → Parser β) (d : Bytes) (i : Nat) :
    (Parser.lift (.ok a) >>= f) d i = f a d i := rfl

/-- When the length is larger than the rest of the data, it does not matter how large it is. -/
theorem mandatoryLoop_long (w v : Nat) (cfg : Cfg) (d : Bytes) (fuel : Nat) :
    ∀ (l m : Nat) (keys : List ParamKey) (i : Nat), d.length - i < l → d.length - i < m →
      mandatoryLoop w cfg fuel l keys d i = mandatoryLoop v cfg fuel m keys d i := by
  induction fuel with
  | zero => intros; rfl
  | succ fuel ih =>
    intro l m keys i hl hm
    have hl0 : l > 0 := by omega
    have hm0 : m > 0 := by omega
    simp only [mandatoryLoop, if_pos hl0, if_pos hm0]
    refine bind_congr _ _ _ _ _ fun k j hk => ?_
    have := octets_len (extractU16_ok.mp hk)
    have h2 : (octets16 k).length = 2 := rfl
    refine bind_congr _ _ _ _ _ fun k' j' hk' => ?_
    obtain rfl : j = j' := congrArg Prod.snd hk'
    rw [lift_sub_ok (by omega), lift_sub_ok (by omega), lift_bind, lift_bind]
    exact ih _ _ _ _ (by omega) (by omega)

theorem alpnLoop_long (w v : Nat) (cfg : Cfg) (d : Bytes) (fuel : Nat) :
    ∀ (l m : Nat) (ids : List Bytes) (i : Nat), d.length - i < l → d.length - i < m →
      alpnLoop w cfg fuel l ids d i = alpnLoop v cfg fuel m ids d i := by
  induction fuel with
  | zero => intros; rfl
  | succ fuel ih =>
    intro l m ids i hl hm
    have hl0 : l > 0 := by omega
    have hm0 : m > 0 := by omega
    simp only [alpnLoop, if_pos hl0, if_pos hm0]
    refine bind_congr _ _ _ _ _ fun n j hk => ?_
    have := octets_len (extractU8_ok.mp hk)
    have h2 : [n].length = 1 := rfl
    refine bind_congr _ _ _ _ _ fun b j' hk' => ?_
    have h3 := extractBytes_ok.mp hk'
    have h4 := octets_len h3.2
    rw [lift_sub_ok (by omega), lift_sub_ok (by omega), lift_bind, lift_bind]
    exact ih _ _ _ _ (by omega) (by omega)

theorem half {w : Nat} (h : 32 ≤ w) : 2 ^ (w - 1) + 256 < 2 ^ w := by
  obtain ⟨k, rfl⟩ : ∃ k, w = k + 1 := ⟨w - 1, by omega⟩
  have : 2 ^ 31 ≤ 2 ^ k := Nat.pow_le_pow_right (by decide) (by omega)
  rw [Nat.pow_succ, Nat.add_sub_cancel]
  omega

theorem mandatoryLoop_word {w v : Nat} (hw : 32 ≤ w) (hv : 32 ≤ v) (cfg : Cfg) {d : Bytes}
    (hdw : d.length < 2 ^ (w - 1)) (hdv : d.length < 2 ^ (v - 1)) (fuel : Nat) :
    ∀ (l : Nat) (keys : List ParamKey) (i : Nat),
      mandatoryLoop w cfg fuel l keys d i = mandatoryLoop v cfg fuel l keys d i := by
  have h1 := half hw
  have h2 := half hv
  induction fuel with
  | zero => intros; rfl
  | succ fuel ih =>
    intro l keys i
    by_cases hl : l > 0
    · simp only [mandatoryLoop, if_pos hl]
      refine bind_congr _ _ _ _ _ fun k j _ => bind_congr _ _ _ _ _ fun k' j' _ => ?_
      by_cases h : 2 ≤ l
      · rw [lift_sub_ok h, lift_sub_ok h, lift_bind, lift_bind]
        exact ih _ _ _
      · unfold subWord
        rw [if_neg h, if_neg h]
        by_cases hc : cfg.overflowChecks = true
        · rw [if_pos hc, if_pos hc]; rfl
        · rw [if_neg hc, if_neg hc, lift_bind, lift_bind]
          exact mandatoryLoop_long _ _ _ _ _ _ _ _ _ (by omega) (by omega)
    · simp only [mandatoryLoop, if_neg hl]

theorem alpnLoop_word {w v : Nat} (hw : 32 ≤ w) (hv : 32 ≤ v) (cfg : Cfg) {d : Bytes}
    (hdw : d.length < 2 ^ (w - 1)) (hdv : d.length < 2 ^ (v - 1)) (fuel : Nat) :
    ∀ (l : Nat) (ids : List Bytes) (i : Nat),
      alpnLoop w cfg fuel l ids d i = alpnLoop v cfg fuel l ids d i := by
  have h1 := half hw
  have h2 := half hv
  induction fuel with
  | zero => intros; rfl
  | succ fuel ih =>
    intro l ids i
    by_cases hl : l > 0
    · simp only [alpnLoop, if_pos hl]
      refine bind_congr _ _ _ _ _ fun n j _ => bind_congr _ _ _ _ _ fun b j' _ => ?_
      by_cases h : n.toNat + 1 ≤ l
      · rw [lift_sub_ok h, lift_sub_ok h, lift_bind, lift_bind]
        exact ih _ _ _
      · have := n.toNat_lt
        unfold subWord
        rw [if_neg h, if_neg h]
        by_cases hc : cfg.overflowChecks = true
        · rw [if_pos hc, if_pos hc]; rfl
        · rw [if_neg hc, if_neg hc, lift_bind, lift_bind]
          exact alpnLoop_long _ _ _ _ _ _ _ _ _ (by omega) (by omega)
    · simp only [alpnLoop, if_neg hl]

theorem mandatoryLoop_64 (cfg : Cfg) (fuel : Nat) : ∀ (l : Nat) (keys : List ParamKey),
    mandatoryLoop 64 cfg fuel l keys = Param.mandatoryLoop cfg fuel l keys := by
  induction fuel with
  | zero => intros; rfl
  | succ fuel ih =>
    intro l keys
    simp only [mandatoryLoop, Param.mandatoryLoop, ih]
    rfl

theorem alpnLoop_64 (cfg : Cfg) (fuel : Nat) : ∀ (l : Nat) (ids : List Bytes),
    alpnLoop 64 cfg fuel l ids = Param.alpnLoop cfg fuel l ids := by
  induction fuel with
  | zero => intros; rfl
  | succ fuel ih =>
    intro l ids
    simp only [alpnLoop, Param.alpnLoop, ih]
    rfl

/-- Both parsers do the same on data of fewer than `n` octets. -/
def Same {α : Type} (n : Nat) (p q : Parser α) : Prop := ∀ d i, d.length < n → p d i = q d i

namespace Same
variable {α β : Type} {n : Nat}

theorem refl (p : Parser α) : Same n p p := fun _ _ _ => rfl

theorem bind {p q : Parser α} {f g : α → Parser β} (hp : Same n p q) (hf : ∀ a, Same n (f a) (g a)) :
    Same n (p >>= f) (q >>= g) := by
  intro d i hd
  have : (p >>= f) d i = (q >>= f) d i := by
    show Parser.bind p f d i = Parser.bind q f d i
    unfold Parser.bind
    rw [hp d i hd]
  rw [this]
  exact bind_congr _ _ _ _ _ fun a j _ => hf a d j hd

theorem withSubBuffer {p q : Parser α} (len : Nat) (h : Same n p q) :
    Same n (withSubBuffer len p) (withSubBuffer len q) := by
  intro d i hd
  unfold Buf.withSubBuffer
  rw [h (d.take (len + i)) i (by rw [List.length_take]; omega)]

theorem times {p q : Parser α} (k : Nat) (h : Same n p q) : Same n (Parser.times k p) (Parser.times k q) := by
  induction k with
  | zero => exact refl _
  | succ k ih => exact bind h fun a => bind ih fun as => refl _

theorem whileFuel {σ : Type} {f g : σ → Parser σ} (h : ∀ s, Same n (f s) (g s)) (fuel : Nat) :
    ∀ s, Same n (whileRemainingFuel f fuel s) (whileRemainingFuel g fuel s) := by
  induction fuel with
  | zero => exact fun _ => refl _
  | succ fuel ih =>
    intro s
    refine bind (refl _) fun r => ?_
    by_cases hr : r > 0
    · simp only [if_pos hr]; exact bind (h s) fun s' => ih s'
    · simp only [if_neg hr]; exact refl _

theorem whileRemaining {σ : Type} {f g : σ → Parser σ} (h : ∀ s, Same n (f s) (g s)) (s : σ) :
    Same n (whileRemaining s f) (whileRemaining s g) :=
  fun d i hd => whileFuel h (d.length + 1) s d i hd

end Same

theorem parseParam_same {w : Nat} (hw : 32 ≤ w) (h64 : w ≤ 64) (cfg : Cfg) :
    Same (2 ^ (w - 1)) (parseParam w cfg) (Param.parse cfg) := by
  refine Same.bind (Same.refl _) fun k => Same.bind (Same.refl _) fun key => Same.bind (Same.refl _) fun len => ?_
  have hle : 2 ^ (w - 1) ≤ 2 ^ 63 := Nat.pow_le_pow_right (by decide) (by omega)
  cases key <;> try exact Same.refl _
  · refine Same.bind (Same.refl _) fun fuel => Same.bind ?_ fun _ => Same.refl _
    intro d i hd
    rw [mandatoryLoop_word hw (by decide : 32 ≤ 64) cfg hd (by show _ < 2 ^ 63; omega), mandatoryLoop_64]
  · refine Same.bind (Same.refl _) fun fuel => Same.bind ?_ fun _ => Same.refl _
    intro d i hd
    rw [alpnLoop_word hw (by decide : 32 ≤ 64) cfg hd (by show _ < 2 ^ 63; omega), alpnLoop_64]

theorem parseData_same {w : Nat} (hw : 32 ≤ w) (h64 : w ≤ 64) (cfg : Cfg) (t : RecordType) :
    Same (2 ^ (w - 1)) (parseData w cfg t) (RecordData.parse cfg t) := by
  cases t <;> try exact Same.refl _
  refine Same.bind ?_ fun _ => Same.refl _
  refine Same.bind (Same.refl _) fun p => Same.bind (Same.refl _) fun m => Same.bind ?_ fun _ => Same.refl _
  exact Same.whileRemaining (fun s => Same.bind (Same.refl _) fun r =>
    Same.bind (Same.withSubBuffer r (parseParam_same hw h64 cfg)) fun _ => Same.refl _) _

theorem parseRecord_same {w : Nat} (hw : 32 ≤ w) (h64 : w ≤ 64) (cfg : Cfg) :
    Same (2 ^ (w - 1)) (parseRecord w cfg) (ResourceRecord.parse cfg) :=
  Same.bind (Same.refl _) fun _ => Same.bind (Same.refl _) fun _ => Same.bind (Same.refl _) fun t =>
  Same.bind (Same.refl _) fun _ => Same.bind (Same.refl _) fun _ => Same.bind (Same.refl _) fun _ =>
  Same.bind (Same.withSubBuffer _ (parseData_same hw h64 cfg t)) fun _ => Same.refl _

theorem parseBuf_same {w : Nat} (hw : 32 ≤ w) (h64 : w ≤ 64) (cfg : Cfg) :
    Same (2 ^ (w - 1)) (parseBuf w cfg) (Packet.parseBuf cfg) :=
  have h := parseRecord_same hw h64 cfg
  Same.bind (Same.refl _) fun _ => Same.bind (Same.refl _) fun _ =>
  Same.bind (Same.times _ h) fun _ => Same.bind (Same.times _ h) fun _ =>
  Same.bind (Same.times _ h) fun _ => Same.refl _

end Word
end Dns
