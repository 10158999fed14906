import Verif.Lemmas.Timed

/-!
Steps of the reader: the parsers.
-/

namespace Dns
namespace Timed
open Within

/-- Composes the bounds of the parts. -/
macro "within" : tactic => `(tactic| (
  apply Within.mono (ha := Nat.le_refl _)
  · repeat' (first
      | exact Within.extractU8 _ | exact Within.extractU16 _ | exact Within.extractU32 _ | exact Within.extractU128 _
      | exact Within.extractFqdn _ | exact Within.extractRest _ | exact Within.extractCharacterString _
      | exact Within.extractString _
      | exact Within.extractSome _ _ | exact Within.lift _ _ | exact Within.pure _ _ | exact Within.fail _ _
      | exact Within.remaining _
      | apply Within.bind
      | intro _
      | apply Within.ite)
  all_goals decide))

/-! ### Sub-buffers -/

instance : LawfulMonad Timed := LawfulMonad.mk'
  (id_map := fun x => by
    funext d i
    show Timed.bind x (fun a => Timed.pure a) d i = _
    unfold Timed.bind Timed.pure
    rcases x d i with ⟨⟨x, j⟩, t⟩
    cases x <;> rfl)
  (pure_bind := fun x f => by
    funext d i
    show Timed.bind (Timed.pure x) f d i = _
    unfold Timed.bind Timed.pure
    simp only [Nat.zero_add])
  (bind_assoc := fun x f g => by
    funext d i
    show Timed.bind (Timed.bind x f) g d i = Timed.bind x (fun y => Timed.bind (f y) g) d i
    unfold Timed.bind
    rcases x d i with ⟨⟨x, j⟩, t⟩
    cases x with
    | ok x =>
      simp only
      rcases f x d j with ⟨⟨y, k⟩, u⟩
      cases y <;> simp only [Nat.add_assoc]
    | err e => rfl
    | panic e => rfl
    | hang => rfl)

theorem weight_take (d : Bytes) (n : Nat) : weight (d.take n) ≤ weight d := by
  unfold weight
  have h : (d.take n).length ≤ d.length := List.length_take_le' ..
  split
  · split <;> omega
  · rename_i h1
    rw [if_neg fun h2 => h1 fun b hb => h2 b (List.mem_of_mem_take hb)]
    omega

theorem bind_same {α β : Type} {p : Timed α} {q : Parser α} {f : α → Timed β} {g : α → Parser β}
    (h : ∀ d i, (p d i).1 = q d i) (hf : ∀ x d i, (f x d i).1 = g x d i) (d : Bytes) (i : Nat) :
    ((p >>= f) d i).1 = (q >>= g) d i := by
  show (Timed.bind p f d i).1 = Parser.bind q g d i
  unfold Timed.bind Parser.bind
  rw [← h]
  rcases p d i with ⟨⟨x, j⟩, t⟩
  cases x with
  | ok x => exact hf x d j
  | err e => rfl
  | panic e => rfl
  | hang => rfl

theorem withSubBuffer_same {α : Type} {p : Timed α} {q : Parser α} (h : ∀ d i, (p d i).1 = q d i) (n : Nat)
    (d : Bytes) (i : Nat) : (withSubBuffer n p d i).1 = Buf.withSubBuffer n q d i := by
  unfold withSubBuffer Buf.withSubBuffer
  split
  · rfl
  · rw [← h]
    rcases p (d.take (n + i)) i with ⟨⟨x, j⟩, t⟩
    cases x <;> rfl

/-- The data of a record: a parser for the octets, which then are skipped. -/
theorem Within.framed {α β : Type} {a b e : Nat} {p : Timed α} {q : Parser α} (h : Within a b e 0 p q) (n : Nat)
    (f : α × Nat → β) :
    Within a (b + 2) (e + 1) 0 (withSubBuffer n p >>= fun x => advance n >>= fun _ => Pure.pure (f x))
      (Buf.withSubBuffer n q >>= fun x => Buf.advance n >>= fun _ => Pure.pure (f x)) := by
  refine ⟨bind_same (withSubBuffer_same h.same n) fun x => bind_same (fun _ _ => rfl) fun _ _ _ => rfl,
    fun d i hi => ?_⟩
  · show Bound _ _ _ _ _ _ (Timed.bind (withSubBuffer n p) _ d i)
    unfold Timed.bind withSubBuffer
    by_cases hn : n + i > d.length
    · rw [if_pos hn]
      show 1 ≤ _
      omega
    · rw [if_neg hn]
      have hl : (d.take (n + i)).length = n + i := by simp; omega
      have hb := h.bound (d.take (n + i)) i (by omega)
      have hw := weight_take d (n + i)
      have hm : ∀ k, (weight (d.take (n + i)) + a) * k ≤ (weight d + a) * k := fun k => Nat.mul_le_mul_right _ (by omega)
      rcases hp : p (d.take (n + i)) i with ⟨⟨x, j⟩, t⟩
      rw [hp] at hb
      cases x with
      | ok x =>
        obtain ⟨g1, g2, g3⟩ := hb
        show Bound _ _ _ _ _ _ (_, 1 + t + _)
        have ha : Buf.advance n d i = (.ok (), n + i) := if_neg hn
        have : (Timed.bind (advance n) (fun _ => Pure.pure (f (x, j))) d i : (Res β × Nat) × Nat) =
            ((.ok (f (x, j)), n + i), 1) := by
          unfold Timed.bind advance call
          rw [ha]
          rfl
        show Bound _ _ _ _ _ _ ((Timed.bind (advance n) (fun _ => Pure.pure (f (x, j))) d i).1,
          1 + t + (Timed.bind (advance n) (fun _ => Pure.pure (f (x, j))) d i).2)
        rw [this]
        have h1 := hm (j - i)
        have h2 : (weight d + a) * (j - i) ≤ (weight d + a) * (n + i - i) := Nat.mul_le_mul_left _ (by omega)
        exact ⟨by omega, by omega, by omega⟩
      | hang => trivial
      | err e' =>
        have hb' : t ≤ _ := hb
        have h1 := hm ((d.take (n + i)).length - i)
        have h2 : (weight d + a) * ((d.take (n + i)).length - i) ≤ (weight d + a) * (d.length - i) :=
          Nat.mul_le_mul_left _ (by omega)
        show 1 + t ≤ _
        omega
      | panic e' =>
        have hb' : t ≤ _ := hb
        have h1 := hm ((d.take (n + i)).length - i)
        have h2 : (weight d + a) * ((d.take (n + i)).length - i) ≤ (weight d + a) * (d.length - i) :=
          Nat.mul_le_mul_left _ (by omega)
        show 1 + t ≤ _
        omega

/-- A parser for the rest of the octets, which is continued where it ended. -/
theorem Within.continued {α β : Type} {a b e c : Nat} {p : Timed α} {q : Parser α} (h : Within a b e c p q) (f : α → β) :
    Within a (b + 3) (e + 2) c
      (Timed.remaining >>= fun r => withSubBuffer r p >>= fun x => setPosition x.2 >>= fun _ => Pure.pure (f x.1))
      (Buf.remaining >>= fun r => Buf.withSubBuffer r q >>= fun x => Buf.setPosition x.2 >>= fun _ =>
        Pure.pure (f x.1)) := by
  refine ⟨bind_same (fun _ _ => rfl) fun r => bind_same (withSubBuffer_same h.same r) fun x =>
    bind_same (fun _ _ => rfl) fun _ _ _ => rfl, fun d i hi => ?_⟩
  · have hr : Buf.remaining d i = (.ok (d.length - i), i) := if_pos hi
    have he : Timed.bind (fun d i => (Buf.remaining d i, 1))
        (fun r => withSubBuffer r p >>= fun x => setPosition x.2 >>= fun _ => Pure.pure (f x.1)) d i =
        ((Timed.bind (withSubBuffer (d.length - i) p)
          (fun x => setPosition x.2 >>= fun _ => Pure.pure (f x.1)) d i).1,
        1 + (Timed.bind (withSubBuffer (d.length - i) p)
          (fun x => setPosition x.2 >>= fun _ => Pure.pure (f x.1)) d i).2) := by
      unfold Timed.bind
      simp only [hr]
      rfl
    show Bound _ _ _ _ _ _ (Timed.bind (fun d i => (Buf.remaining d i, 1)) _ d i)
    rw [he]
    have hb := h.bound d i hi
    have ht : d.take (d.length - i + i) = d := List.take_of_length_le (by omega)
    have hw : withSubBuffer (d.length - i) p d i = match p d i with
        | ((.ok a, j), t) => ((.ok (a, j), i), 1 + t)
        | ((.err e, _), t) => ((.err e, i), 1 + t)
        | ((.panic k, _), t) => ((.panic k, i), 1 + t)
        | ((.hang, _), t) => ((.hang, i), 1 + t) := by
      unfold withSubBuffer
      rw [if_neg (by omega), ht]
      rcases p d i with ⟨⟨x, j⟩, t⟩
      cases x <;> rfl
    unfold Timed.bind
    rw [hw]
    rcases hp : p d i with ⟨⟨x, j⟩, t⟩
    rw [hp] at hb
    cases x with
    | ok x =>
      obtain ⟨g1, g2, g3⟩ := hb
      have ha : Buf.setPosition j d i = (.ok (), j) := if_neg (by omega)
      have : (Timed.bind (setPosition j) (fun _ => Pure.pure (f x)) d i : (Res β × Nat) × Nat) =
          ((.ok (f x), j), 1) := by
        unfold Timed.bind setPosition call
        rw [ha]
        rfl
      show Bound _ _ _ _ _ _ ((Timed.bind (setPosition j) (fun _ => Pure.pure (f x)) d i).1,
        1 + (1 + t + (Timed.bind (setPosition j) (fun _ => Pure.pure (f x)) d i).2))
      rw [this]
      exact ⟨by omega, by omega, by simp only; omega⟩
    | hang => trivial
    | err e' => have hb' : t ≤ _ := hb; show 1 + (1 + t) ≤ _; omega
    | panic e' => have hb' : t ≤ _ := hb; show 1 + (1 + t) ≤ _; omega

/-! ### The parsers -/

theorem header (a : Nat) : Within a 6 6 10 Header.parse Dns.Header.parse := by
  unfold Header.parse Dns.Header.parse; within
theorem A_within (a : Nat) : Within a 14 14 0 A.parse Dns.A.parse := by
  unfold A.parse Dns.A.parse; within
theorem Aaaa_within (a : Nat) : Within a 14 14 0 Aaaa.parse Dns.Aaaa.parse := by
  unfold Aaaa.parse Dns.Aaaa.parse; within
theorem Ns_within (a : Nat) : Within a 14 14 0 Ns.parse Dns.Ns.parse := by
  unfold Ns.parse Dns.Ns.parse; within
theorem Cname_within (a : Nat) : Within a 14 14 0 Cname.parse Dns.Cname.parse := by
  unfold Cname.parse Dns.Cname.parse; within
theorem Ptr_within (a : Nat) : Within a 14 14 0 Ptr.parse Dns.Ptr.parse := by
  unfold Ptr.parse Dns.Ptr.parse; within
theorem Mx_within (a : Nat) : Within a 14 14 0 Mx.parse Dns.Mx.parse := by
  unfold Mx.parse Dns.Mx.parse; within
theorem Soa_within (a : Nat) : Within a 14 14 0 Soa.parse Dns.Soa.parse := by
  unfold Soa.parse Dns.Soa.parse; within
theorem Minfo_within (a : Nat) : Within a 14 14 0 Minfo.parse Dns.Minfo.parse := by
  unfold Minfo.parse Dns.Minfo.parse; within
theorem Hinfo_within (a : Nat) : Within a 14 14 0 Hinfo.parse Dns.Hinfo.parse := by
  unfold Hinfo.parse Dns.Hinfo.parse; within
theorem Wks_within (a : Nat) : Within a 14 14 0 Wks.parse Dns.Wks.parse := by
  unfold Wks.parse Dns.Wks.parse; within
theorem Null_within (a : Nat) : Within a 14 14 0 Null.parse Dns.Null.parse := by
  unfold Null.parse Dns.Null.parse; within
theorem OpenPgpKey_within (a : Nat) : Within a 14 14 0 OpenPgpKey.parse Dns.OpenPgpKey.parse := by
  unfold OpenPgpKey.parse Dns.OpenPgpKey.parse; within
theorem Uri_within (a : Nat) : Within a 14 14 0 Uri.parse Dns.Uri.parse := by
  unfold Uri.parse Dns.Uri.parse; within
theorem Loc_within (a : Nat) : Within a 14 14 0 Loc.parse Dns.Loc.parse := by
  unfold Loc.parse Dns.Loc.parse; within
theorem Eui48_within (a : Nat) : Within a 14 14 0 Eui48.parse Dns.Eui48.parse := by
  unfold Eui48.parse Dns.Eui48.parse; within
theorem Eui64_within (a : Nat) : Within a 14 14 0 Eui64.parse Dns.Eui64.parse := by
  unfold Eui64.parse Dns.Eui64.parse; within
theorem Srv_within (a : Nat) : Within a 14 14 0 Srv.parse Dns.Srv.parse := by
  unfold Srv.parse Dns.Srv.parse; within
theorem Sshfp_within (a : Nat) : Within a 14 14 0 Sshfp.parse Dns.Sshfp.parse := by
  unfold Sshfp.parse Dns.Sshfp.parse; within
theorem Tlsa_within (a : Nat) : Within a 14 14 0 Tlsa.parse Dns.Tlsa.parse := by
  unfold Tlsa.parse Dns.Tlsa.parse; within
theorem Dhcid_within (a : Nat) : Within a 14 14 0 Dhcid.parse Dns.Dhcid.parse := by
  unfold Dhcid.parse Dns.Dhcid.parse; within
theorem Tkey_within (a : Nat) : Within a 14 14 0 Tkey.parse Dns.Tkey.parse := by
  unfold Tkey.parse Dns.Tkey.parse; within
theorem Tsig_within (a : Nat) : Within a 14 14 0 Tsig.parse Dns.Tsig.parse := by
  unfold Tsig.parse Dns.Tsig.parse; within
theorem DnsKey_within (a : Nat) : Within a 14 14 0 DnsKey.parse Dns.DnsKey.parse := by
  unfold DnsKey.parse Dns.DnsKey.parse; within
theorem Ds_within (a : Nat) : Within a 14 14 0 Ds.parse Dns.Ds.parse := by
  unfold Ds.parse Dns.Ds.parse; within
theorem Rrsig_within (a : Nat) (cfg : Cfg) : Within a 14 14 0 (Rrsig.parse cfg) (Dns.Rrsig.parse cfg) := by
  unfold Rrsig.parse Dns.Rrsig.parse; within
theorem Naptr_within (a : Nat) : Within (a + 1) 14 14 0 Naptr.parse Dns.Naptr.parse := by
  unfold Naptr.parse Dns.Naptr.parse; within

theorem txt_step (acc : List Bytes) : Within 1 2 2 1 (Txt.step acc) (Dns.Txt.step acc) :=
  ((Within.extractU8 1).bind fun n => Within.bindTick (a := 0) (m := 1) (n := List.length) (Within.extractSome 0 n.toNat)
    (fun _ _ _ _ h => by have := extractBytes_length h; omega) fun b => Within.pure _ (acc ++ [utf8Lossy b])).mono
    (by decide) (by decide) (by decide) (by decide)
theorem Txt_within : Within 20 14 14 0 Txt.parse Dns.Txt.parse :=
  ((Within.whileRemaining txt_step []).bind fun _ => Within.pure _ _).mono
    (by decide) (by decide) (by decide) (by decide)

theorem bitmap_step (cfg : Cfg) (acc : List RecordType) :
    Within 8 4 4 2 (Bitmap.readStep cfg acc) (Dns.Bitmap.readStep cfg acc) :=
  ((Within.extractU8 8).bind fun w => (Within.extractU8 8).bind fun n =>
    Within.bindTick (a := 0) (m := 8) (n := fun b : Bytes => 8 * b.length) (Within.extractSome 0 n.toNat)
    (fun _ _ _ _ h => by have := extractBytes_length h; omega) fun _ => Within.lift _ _).mono
    (by decide) (by decide) (by decide) (by decide)
theorem bitmap (cfg : Cfg) : Within 20 1 5 0 (Bitmap.parse cfg) (Dns.Bitmap.parse cfg) :=
  (Within.whileRemaining (fun s => (bitmap_step cfg s).mono (Nat.le_refl _) (Nat.le_refl _) (Nat.le_refl _) (by decide)) []).mono
    (by decide) (by decide) (by decide) (by decide)
theorem Csync_within (cfg : Cfg) : Within 20 14 14 0 (Csync.parse cfg) (Dns.Csync.parse cfg) := by
  unfold Csync.parse Dns.Csync.parse
  exact ((Within.extractU32 _).bind fun _ => (Within.extractU16 _).bind fun _ => (Within.lift _ _).bind fun _ =>
    (bitmap cfg).bind fun _ => Within.pure _ _).mono (by decide) (by decide) (by decide) (by decide)
theorem Nsec_within (cfg : Cfg) : Within 20 14 14 0 (Nsec.parse cfg) (Dns.Nsec.parse cfg) := by
  unfold Nsec.parse Dns.Nsec.parse
  exact ((Within.extractFqdn _).bind fun _ => (bitmap cfg).bind fun _ => Within.pure _ _).mono
    (by decide) (by decide) (by decide) (by decide)

theorem opt_step (acc : List (UInt16 × Bytes)) : Within 0 3 3 1 (Opt.step acc) (Dns.Opt.step acc) := by
  unfold Opt.step Dns.Opt.step; within
theorem Opt_within : Within 20 14 14 0 Opt.parse Dns.Opt.parse :=
  ((Within.whileRemaining opt_step []).bind fun _ => Within.pure _ _).mono
    (by decide) (by decide) (by decide) (by decide)

theorem Apl_within (a : Nat) : Within a 14 14 0 Apl.parse Dns.Apl.parse := by
  refine ((Within.extractU16 a).bind fun family => (Within.extractU8 _).bind fun _ => (Within.extractU8 _).bind fun _ =>
    (Within.extractSome _ _).bind (b2 := 0) (e2 := 1) (c2 := 0) fun _ => ?_).mono (Nat.le_refl _) (by decide) (by decide) (by decide)
  split
  · exact (Within.pure _ _).mono (Nat.le_refl _) (by decide) (by decide) (by decide)
  · exact (Within.pure _ _).mono (Nat.le_refl _) (by decide) (by decide) (by decide)
  · split
    · simp_all
    · simp_all
    · exact Within.fail _ _

theorem Caa_within : Within 20 14 14 0 Caa.parse Dns.Caa.parse := by
  refine ((Within.extractU8 1).bind fun _ => (Within.extractU8 _).bind fun n => Within.ite (Within.fail _ _)
    (Within.bindTick (a := 0) (m := 1) (n := List.length) (Within.extractSome 0 n.toNat)
    (fun _ _ _ _ h => by have := extractBytes_length h; omega) fun _ => (Within.extractRest _).bind fun _ =>
      Within.pure _ _)).mono (by decide) (by decide) (by decide) (by decide)

theorem gateway (a : Nat) (t : UInt8) : Within a 1 1 0 (Gateway.parse t) (Dns.Gateway.parse t) := by
  unfold Gateway.parse Dns.Gateway.parse
  split
  · exact ((Within.extractU8 a).bind fun _ => Within.pure _ _).mono (Nat.le_refl _) (by decide) (by decide) (by decide)
  · exact ((Within.extractU32 a).bind fun _ => Within.pure _ _).mono (Nat.le_refl _) (by decide) (by decide) (by decide)
  · exact ((Within.extractU128 a).bind fun _ => Within.pure _ _).mono (Nat.le_refl _) (by decide) (by decide) (by decide)
  · exact ((Within.extractFqdn a).bind fun _ => Within.pure _ _).mono (Nat.le_refl _) (by decide) (by decide) (by decide)
  · split
    · simp_all
    · simp_all
    · simp_all
    · simp_all
    · exact (Within.fail _ _).mono (Nat.le_refl _) (by decide) (by decide) (by decide)
theorem IpSecKey_within (a : Nat) : Within a 14 14 0 IpSecKey.parse Dns.IpSecKey.parse :=
  ((Within.extractU8 a).bind fun _ => (Within.extractU8 a).bind fun _ => (Within.extractU8 a).bind fun _ =>
    (Within.lift _ _).bind fun _ => (gateway _ _).bind fun _ => (Within.extractRest _).bind fun _ =>
      Within.pure _ _).mono (Nat.le_refl _) (by decide) (by decide) (by decide)

theorem hip_step (acc : List Fqdn) : Within 0 0 0 1 (Hip.step acc) (Dns.Hip.step acc) := by
  unfold Hip.step Dns.Hip.step; within
theorem Hip_within : Within 20 14 14 0 Hip.parse Dns.Hip.parse := by
  refine ((Within.extractU8 1).bind fun _ => (Within.extractU8 _).bind fun _ => (Within.lift _ _).bind fun _ =>
    (Within.extractU16 _).bind fun _ => (Within.extractSome _ _).bind fun _ => (Within.extractSome _ _).bind fun _ =>
    Within.bind (b1 := 2) (e1 := 2) (c1 := 0) ?_ fun _ => Within.pure _ _).mono (by decide) (by decide) (by decide) (by decide)
  refine ((Within.remaining _).bind fun _ => Within.ite ((Within.whileRemaining hip_step []).bind fun _ => Within.pure _ _)
    (Within.pure _ _)).mono (by decide) (by decide) (by decide) (by decide)

theorem mandatoryLoop (cfg : Cfg) : ∀ (fuel len : Nat) (keys : List ParamKey),
    Within 4 0 4 0 (Param.mandatoryLoop cfg fuel len keys) (Dns.Param.mandatoryLoop cfg fuel len keys)
  | 0, _, _ => ⟨fun _ _ => rfl, fun _ _ _ => trivial⟩
  | fuel + 1, len, keys => by
    unfold Param.mandatoryLoop Dns.Param.mandatoryLoop
    refine (Within.ite (b1 := 0) (e1 := 4) (c1 := 0) ?_ (Within.pure _ _)).mono
      (Nat.le_refl _) (by decide) (by decide) (by decide)
    have h : Within 0 4 4 2 (Timed.tick 1 >>= fun _ => Timed.extractU16 >>= fun k => Timed.lift (ParamKey.ofU16 k) >>= fun k => Timed.lift (subUsize cfg len 2) >>= fun l => Pure.pure (k, l))
        (Buf.extractU16 >>= fun k => Parser.lift (ParamKey.ofU16 k) >>= fun k => Parser.lift (subUsize cfg len 2) >>= fun l => Pure.pure (k, l)) :=
      (Within.tick ((Within.extractU16 0).bind fun _ => (Within.lift _ _).bind fun _ => (Within.lift _ _).bind fun _ => Within.pure _ _)).mono
        (by decide) (by decide) (by decide) (by decide : 1 + 1 ≤ 2)
    have h' := (h.absorb.bind (f := fun x => Param.mandatoryLoop cfg fuel x.2 (btInsert ParamKey.ord x.1 keys)) fun x => mandatoryLoop cfg fuel x.2 (btInsert ParamKey.ord x.1 keys)).mono (b' := 0) (e' := 4) (c' := 0) (Nat.le_refl _) (by decide) (by decide) (by decide)
    simp only [bind_assoc, pure_bind] at h'
    exact h'
    

theorem alpnLoop (cfg : Cfg) : ∀ (fuel len : Nat) (ids : List Bytes),
    Within 4 0 4 0 (Param.alpnLoop cfg fuel len ids) (Dns.Param.alpnLoop cfg fuel len ids)
  | 0, _, _ => ⟨fun _ _ => rfl, fun _ _ _ => trivial⟩
  | fuel + 1, len, keys => by
    unfold Param.alpnLoop Dns.Param.alpnLoop
    refine (Within.ite (b1 := 0) (e1 := 4) (c1 := 0) ?_ (Within.pure _ _)).mono
      (Nat.le_refl _) (by decide) (by decide) (by decide)
    have h : Within 0 4 4 1 (Timed.tick 1 >>= fun _ => Timed.extractU8 >>= fun n => Timed.extractBytes n.toNat >>= fun b =>
          Timed.lift (subUsize cfg len (n.toNat + 1)) >>= fun l => Pure.pure (b, l))
        (Buf.extractU8 >>= fun n => Buf.extractBytes n.toNat >>= fun b =>
          Parser.lift (subUsize cfg len (n.toNat + 1)) >>= fun l => Pure.pure (b, l)) :=
      (Within.tick ((Within.extractU8 0).bind fun _ => (Within.extractSome _ _).bind fun _ => (Within.lift _ _).bind fun _ =>
        Within.pure _ _)).mono (by decide) (by decide) (by decide) (by decide)
    have h' := (h.absorb.bind (f := fun x => Param.alpnLoop cfg fuel x.2 (keys ++ [x.1]))
      fun x => alpnLoop cfg fuel x.2 (keys ++ [x.1])).mono (b' := 0) (e' := 4) (c' := 0)
      (Nat.le_refl _) (by decide) (by decide) (by decide)
    simp only [bind_assoc, pure_bind] at h'
    exact h'

theorem dataLen (a : Nat) : Within a 0 0 0 Param.dataLen Dns.Param.dataLen :=
  ⟨fun _ _ => rfl, fun _ _ hi => ⟨Nat.le_refl _, hi, Nat.zero_le _⟩⟩

theorem parseValue (cfg : Cfg) (key : ParamKey) (len : Nat) :
    Within 4 1 4 0 (Param.parseValue cfg key len) (Dns.Param.parseValue cfg key len) := by
  cases key with
  | mandatory =>
    exact ((dataLen _).bind fun _ => (mandatoryLoop cfg _ _ _).bind fun _ => Within.pure _ _).mono
      (by decide) (by decide) (by decide) (by decide)
  | alpn =>
    exact ((dataLen _).bind fun _ => (alpnLoop cfg _ _ _).bind fun _ => Within.pure _ _).mono
      (by decide) (by decide) (by decide) (by decide)
  | noDefaultAlpn => exact (Within.pure _ _).mono (Nat.le_refl _) (by decide) (by decide) (by decide)
  | port =>
    exact ((Within.extractU16 _).bind fun _ => Within.pure _ _).mono
      (Nat.le_refl _) (by decide) (by decide) (by decide)
  | ipV4Hint =>
    exact ((Within.extractU32 _).bind fun _ => Within.pure _ _).mono
      (Nat.le_refl _) (by decide) (by decide) (by decide)
  | ech =>
    exact ((Within.extractSome _ _).bind fun _ => Within.pure _ _).mono
      (Nat.le_refl _) (by decide) (by decide) (by decide)
  | ipV6Hint =>
    exact ((Within.extractU128 _).bind fun _ => Within.pure _ _).mono
      (Nat.le_refl _) (by decide) (by decide) (by decide)
  | «private» v =>
    exact ((Within.extractSome _ _).bind fun _ => Within.pure _ _).mono
      (Nat.le_refl _) (by decide) (by decide) (by decide)
  | invalid => exact (Within.pure _ _).mono (Nat.le_refl _) (by decide) (by decide) (by decide)

theorem param (cfg : Cfg) : Within 4 4 7 1 (Param.parse cfg) (Dns.Param.parse cfg) := by
  unfold Param.parse Dns.Param.parse
  exact ((Within.extractU16 _).bind fun _ => (Within.lift _ _).bind fun _ => (Within.extractU16 _).bind fun _ =>
    parseValue cfg _ _).mono (Nat.le_refl _) (by decide) (by decide) (by decide)

theorem svcb_step (cfg : Cfg) (acc : List Param) : Within 4 7 9 1 (Svcb.step cfg acc) (Dns.Svcb.step cfg acc) :=
  Within.continued (param cfg) fun p => btInsert Param.ord p acc

theorem Svcb_within (cfg : Cfg) : Within 20 14 14 0 (Svcb.parse cfg) (Dns.Svcb.parse cfg) := by
  unfold Svcb.parse Dns.Svcb.parse
  exact ((Within.extractU16 _).bind fun _ => (Within.extractFqdn _).bind fun _ =>
    (Within.whileRemaining (svcb_step cfg) []).bind fun _ => Within.pure _ _).mono
    (by decide) (by decide) (by decide) (by decide)

theorem recordData (cfg : Cfg) (t : RecordType) : Within 20 14 14 0 (RecordData.parse cfg t) (Dns.RecordData.parse cfg t) := by
  have h : ∀ {α : Type} {p : Timed α} {q : Parser α} (f : α → RecordData), Within 20 14 14 0 p q →
      Within 20 14 14 0 (p >>= fun r => Pure.pure (f r)) (q >>= fun r => Pure.pure (f r)) := fun f h =>
    (h.bind fun _ => Within.pure _ _).mono (Nat.le_refl _) (by decide) (by decide) (by decide)
  cases t with
  | A => exact h _ (A_within _)
  | NS => exact h _ (Ns_within _)
  | CNAME => exact h _ (Cname_within _)
  | SOA => exact h _ (Soa_within _)
  | NULL => exact h _ (Null_within _)
  | WKS => exact h _ (Wks_within _)
  | PTR => exact h _ (Ptr_within _)
  | HINFO => exact h _ (Hinfo_within _)
  | MINFO => exact h _ (Minfo_within _)
  | MX => exact h _ (Mx_within _)
  | TXT => exact h _ Txt_within
  | AAAA => exact h _ (Aaaa_within _)
  | LOC => exact h _ (Loc_within _)
  | SRV => exact h _ (Srv_within _)
  | NAPTR => exact h _ (Naptr_within 19)
  | OPT => exact h _ Opt_within
  | APL => exact h _ (Apl_within _)
  | DS => exact h _ (Ds_within _)
  | SSHFP => exact h _ (Sshfp_within _)
  | IPSECKEY => exact h _ (IpSecKey_within _)
  | RRSIG => exact h _ (Rrsig_within _ cfg)
  | NSEC => exact h _ (Nsec_within cfg)
  | DNSKEY => exact h _ (DnsKey_within _)
  | DHCID => exact h _ (Dhcid_within _)
  | TLSA => exact h _ (Tlsa_within _)
  | HIP => exact h _ Hip_within
  | CDS => exact h _ (Ds_within _)
  | CDNSKEY => exact h _ (DnsKey_within _)
  | OPENPGPKEY => exact h _ (OpenPgpKey_within _)
  | CSYNC => exact h _ (Csync_within cfg)
  | SVCB => exact h _ (Svcb_within cfg)
  | EUI48 => exact h _ (Eui48_within _)
  | EUI64 => exact h _ (Eui64_within _)
  | TKEY => exact h _ (Tkey_within _)
  | TSIG => exact h _ (Tsig_within _)
  | URI => exact h _ (Uri_within _)
  | CAA => exact h _ Caa_within

/-! ### Messages -/

theorem question (cfg : Cfg) : Within 0 4 4 1 (Question.parse cfg) (Dns.Question.parse cfg) := by
  unfold Question.parse Dns.Question.parse; within

theorem parseClass (a : Nat) (cfg : Cfg) : Within a 1 1 0 (ResourceRecord.parseClass cfg) (Dns.ResourceRecord.parseClass cfg) := by
  unfold ResourceRecord.parseClass Dns.ResourceRecord.parseClass; within

theorem record (cfg : Cfg) : Within 20 24 24 1 (ResourceRecord.parse cfg) (Dns.ResourceRecord.parse cfg) :=
  ((Within.extractFqdn _).bind fun n => (Within.extractU16 _).bind fun _ => (Within.lift _ _).bind fun t =>
    (parseClass _ cfg).bind fun c => (Within.extractU32 _).bind fun ttl => (Within.extractU16 _).bind fun len =>
    (recordData cfg t).framed len.toNat fun d => (⟨n, t, c.2, c.1, ttl, d.1⟩ : ResourceRecord)).mono
    (by decide) (by decide) (by decide) (by decide)

theorem packet (cfg : Cfg) : Within 45 6 31 10 (Packet.parseBuf cfg) (Dns.Packet.parseBuf cfg) :=
  ((header _).bind fun _ => ((Within.times (question cfg) _).mono (a' := 45) (by decide) (Nat.le_refl _) (Nat.le_refl _) (Nat.le_refl _)).bind fun _ =>
    (Within.times (record cfg) _).bind fun _ => (Within.times (record cfg) _).bind fun _ =>
    (Within.times (record cfg) _).bind fun _ => Within.pure _ _).mono (by decide) (by decide) (by decide) (by decide)

end Timed
end Dns
