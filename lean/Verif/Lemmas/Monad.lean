import Mathlib.Tactic.Ring
import Mathlib.Tactic.NormNum
import Mathlib.Tactic.Positivity
import Verif.Model.Packet

/-! Basic lemmas about outcomes, the parser monad and big-endian numbers. -/

namespace Dns

namespace Res
variable {α β : Type}

@[simp] theorem pure_eq (a : α) : (pure a : Res α) = .ok a := rfl
@[simp] theorem ok_bind (a : α) (f : α → Res β) : ((Res.ok a) >>= f) = f a := rfl
@[simp] theorem err_bind (e : DnsError) (f : α → Res β) : ((Res.err e) >>= f) = .err e := rfl
@[simp] theorem panic_bind (e : PanicKind) (f : α → Res β) : ((Res.panic e) >>= f) = .panic e := rfl
@[simp] theorem hang_bind (f : α → Res β) : ((Res.hang) >>= f) = .hang := rfl

theorem bind_eq_ok {r : Res α} {f : α → Res β} {b : β} :
    (r >>= f) = .ok b ↔ ∃ a, r = .ok a ∧ f a = .ok b := by
  cases r <;> simp

instance : LawfulMonad Res := LawfulMonad.mk'
  (id_map := by intro α x; cases x <;> rfl)
  (pure_bind := by intros; rfl)
  (bind_assoc := by intro α β γ x f g; cases x <;> rfl)

end Res

namespace Parser
variable {α β γ : Type}

theorem pure_apply (a : α) (d : Bytes) (i : Nat) : (pure a : Parser α) d i = (.ok a, i) := rfl

theorem bind_apply (p : Parser α) (f : α → Parser β) (d : Bytes) (i : Nat) :
    (p >>= f) d i =
      match p d i with
      | (.ok a, j) => f a d j
      | (.err e, j) => (.err e, j)
      | (.panic k, j) => (.panic k, j)
      | (.hang, j) => (.hang, j) := rfl

theorem pure_ok {a b : α} {d : Bytes} {i j : Nat} :
    (pure a : Parser α) d i = (.ok b, j) ↔ a = b ∧ i = j := by
  simp [pure_apply]

theorem bind_ok {p : Parser α} {f : α → Parser β} {d : Bytes} {i k : Nat} {b : β} :
    (p >>= f) d i = (.ok b, k) ↔ ∃ a j, p d i = (.ok a, j) ∧ f a d j = (.ok b, k) := by
  rw [bind_apply]
  rcases h : p d i with ⟨r, j⟩
  cases r <;> simp

theorem lift_apply (r : Res α) (d : Bytes) (i : Nat) : lift r d i = (r, i) := rfl

theorem lift_ok {r : Res α} {d : Bytes} {i j : Nat} {a : α} :
    lift r d i = (.ok a, j) ↔ r = .ok a ∧ i = j := by
  simp [lift]

theorem fail_apply (e : DnsError) (d : Bytes) (i : Nat) :
    (fail e : Parser α) d i = (.err e, i) := rfl

theorem fail_ok {e : DnsError} {d : Bytes} {i j : Nat} {a : α} :
    (fail e : Parser α) d i = (.ok a, j) ↔ False := by
  simp [fail]

theorem ite_apply {c : Prop} [Decidable c] (p q : Parser α) (d : Bytes) (i : Nat) :
    (if c then p else q) d i = if c then p d i else q d i := by
  split <;> rfl

instance : LawfulMonad Parser := LawfulMonad.mk'
  (id_map := by
    intro α x; funext d i
    show (x >>= fun a => pure (id a)) d i = x d i
    rw [bind_apply]
    rcases x d i with ⟨r, j⟩
    cases r <;> rfl)
  (pure_bind := by intros; rfl)
  (bind_assoc := by
    intro α β γ x f g; funext d i
    simp only [bind_apply]
    rcases x d i with ⟨r, j⟩
    cases r <;> rfl)

end Parser

/-! ## Big-endian numbers -/

theorem foldlBE (bs : Bytes) (a : Nat) :
    bs.foldl (fun acc b => acc * 256 + b.toNat) a = a * 256 ^ bs.length + ofBE bs := by
  induction bs generalizing a with
  | nil => simp [ofBE]
  | cons b bs ih =>
    simp only [List.foldl_cons, List.length_cons, ofBE]
    rw [ih, ih (0 * 256 + b.toNat)]
    ring_nf

theorem ofBE_nil : ofBE [] = 0 := rfl

theorem ofBE_cons (b : UInt8) (bs : Bytes) : ofBE (b :: bs) = b.toNat * 256 ^ bs.length + ofBE bs := by
  rw [ofBE, List.foldl_cons, foldlBE]; simp

theorem ofBE_lt (bs : Bytes) : ofBE bs < 256 ^ bs.length := by
  induction bs with
  | nil => simp [ofBE]
  | cons b bs ih =>
    rw [ofBE_cons, List.length_cons, pow_succ]
    have := b.toNat_lt
    have h : b.toNat ≤ 255 := by omega
    calc b.toNat * 256 ^ bs.length + ofBE bs
        < b.toNat * 256 ^ bs.length + 256 ^ bs.length := by omega
      _ = (b.toNat + 1) * 256 ^ bs.length := by ring
      _ ≤ 256 * 256 ^ bs.length := Nat.mul_le_mul_right _ (by omega)
      _ = 256 ^ bs.length * 256 := by ring

@[simp] theorem toBE_length (n x : Nat) : (toBE n x).length = n := by
  induction n with
  | zero => rfl
  | succ n ih => simp [toBE, ih]

theorem ofBE_toBE (n x : Nat) : ofBE (toBE n x) = x % 256 ^ n := by
  induction n with
  | zero => simp [toBE, ofBE, Nat.mod_one]
  | succ n ih =>
    rw [toBE, ofBE_cons, toBE_length, ih, UInt8.toNat_ofNat', pow_succ 256 n, Nat.mod_mul]
    norm_num; ring

theorem toBE_mod (n x m : Nat) : toBE n (x + m * 256 ^ n) = toBE n x := by
  induction n generalizing m with
  | zero => rfl
  | succ n ih =>
    rw [toBE, toBE]
    have h1 : (x + m * 256 ^ (n + 1)) / 256 ^ n = x / 256 ^ n + m * 256 := by
      rw [pow_succ, show m * (256 ^ n * 256) = 256 ^ n * (m * 256) by ring,
        Nat.add_mul_div_left _ _ (by positivity)]
    have h2 : x + m * 256 ^ (n + 1) = x + (m * 256) * 256 ^ n := by rw [pow_succ]; ring
    rw [h2, ih, ← h2, h1]
    congr 1
    apply UInt8.toNat_inj.mp
    simp [UInt8.toNat_ofNat']

theorem toBE_ofBE (bs : Bytes) : toBE bs.length (ofBE bs) = bs := by
  induction bs with
  | nil => rfl
  | cons b bs ih =>
    rw [List.length_cons, toBE, ofBE_cons]
    have hlt := ofBE_lt bs
    have h1 : (b.toNat * 256 ^ bs.length + ofBE bs) / 256 ^ bs.length = b.toNat := by
      rw [Nat.mul_comm, Nat.mul_add_div (by positivity), Nat.div_eq_of_lt hlt]; simp
    rw [h1, Nat.add_comm, toBE_mod, ih]
    simp

theorem toBE_inj {n x y : Nat} (hx : x < 256 ^ n) (hy : y < 256 ^ n) (h : toBE n x = toBE n y) :
    x = y := by
  have := congrArg ofBE h
  rwa [ofBE_toBE, ofBE_toBE, Nat.mod_eq_of_lt hx, Nat.mod_eq_of_lt hy] at this

end Dns
