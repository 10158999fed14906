import Verif.Lemmas.Bounded
import Verif.Spec.Patch

/-! What parsers read does not depend on the octets before a place to which no pointer leads. -/

namespace Dns
open Spec Buf

variable {α β σ : Type}

/-- The same octets from `lo` on, and as many. -/
def Alike (lo : Nat) (d d' : Bytes) : Prop := d.length = d'.length ∧ ∀ k, lo ≤ k → d[k]? = d'[k]?

theorem Alike.symm {lo : Nat} {d d' : Bytes} (h : Alike lo d d') : Alike lo d' d :=
  ⟨h.1.symm, fun k hk => (h.2 k hk).symm⟩

theorem Alike.take {lo : Nat} {d d' : Bytes} (h : Alike lo d d') (n : Nat) : Alike lo (d.take n) (d'.take n) := by
  refine ⟨by simp [h.1], fun k hk => ?_⟩
  simp only [List.getElem?_take]
  split
  · exact h.2 k hk
  · rfl

theorem Alike.drop {lo : Nat} {d d' : Bytes} (h : Alike lo d d') {i : Nat} (hi : lo ≤ i) : d.drop i = d'.drop i := by
  apply List.ext_getElem?
  intro k
  rw [List.getElem?_drop, List.getElem?_drop]
  exact h.2 _ (by omega)

theorem Alike.octets {lo : Nat} {d d' : Bytes} (h : Alike lo d d') {i j : Nat} {b : Bytes} (hi : lo ≤ i)
    (ho : Octets d i b j) : Octets d' i b j := by
  rw [octets_iff] at ho ⊢
  rw [← h.drop hi, ← h.1]
  exact ho

theorem noPointer_take {lo n : Nat} {d : Bytes} (h : NoPointerBelow lo d) : NoPointerBelow lo (d.take n) := by
  intro k hi l hk ho h1
  refine h k hi l hk ?_ h1
  have := ho.extend (d.drop n)
  rwa [List.take_append_drop] at this

/-- Started at `lo` or behind, the parser does the same with data that are the same from `lo` on, and stays there. -/
def Steady (lo : Nat) (p : Parser α) : Prop :=
  ∀ d d', Alike lo d d' → NoPointerBelow lo d → ∀ i, lo ≤ i → p d' i = p d i ∧ lo ≤ (p d i).2

namespace Steady
variable {lo : Nat}

theorem pure (a : α) : Steady lo (pure a : Parser α) := fun _ _ _ _ _ h => ⟨rfl, h⟩
theorem lift (r : Res α) : Steady lo (Parser.lift r) := fun _ _ _ _ _ h => ⟨rfl, h⟩
theorem fail (e : DnsError) : Steady lo (Parser.fail e : Parser α) := fun _ _ _ _ _ h => ⟨rfl, h⟩

theorem bind {p : Parser α} {f : α → Parser β} (hp : Steady lo p) (hf : ∀ a, Steady lo (f a)) :
    Steady lo (p >>= f) := by
  intro d d' ha hn i hi
  rw [Parser.bind_apply, Parser.bind_apply]
  obtain ⟨h1, h2⟩ := hp d d' ha hn i hi
  rw [h1]
  rcases hq : p d i with ⟨r, j⟩
  rw [hq] at h2
  cases r <;> first | exact hf _ d d' ha hn j h2 | exact ⟨rfl, h2⟩

theorem ite {c : Prop} [Decidable c] {p q : Parser α} (hp : Steady lo p) (hq : Steady lo q) :
    Steady lo (if c then p else q) := by
  split <;> assumption

theorem remaining : Steady lo remaining := by
  intro d d' ha _ i hi
  unfold Buf.remaining
  rw [ha.1]
  refine ⟨rfl, ?_⟩
  split <;> exact hi

theorem extractBytes (n : Nat) : Steady lo (extractBytes n) := by
  intro d d' ha _ i hi
  unfold Buf.extractBytes
  rw [ha.1, ha.drop hi]
  refine ⟨rfl, ?_⟩
  split <;> simp <;> omega

theorem advance (n : Nat) : Steady lo (advance n) := by
  intro d d' ha _ i hi
  unfold Buf.advance
  rw [ha.1]
  refine ⟨rfl, ?_⟩
  split <;> simp <;> omega

theorem withSubBuffer (n : Nat) {p : Parser α} (hp : Steady lo p) : Steady lo (withSubBuffer n p) := by
  intro d d' ha hn i hi
  unfold Buf.withSubBuffer
  rw [ha.1, (hp _ _ (ha.take _) (noPointer_take hn) i hi).1]
  refine ⟨rfl, ?_⟩
  split
  · exact hi
  · split <;> exact hi

theorem dataLen : Steady lo Param.dataLen := fun d d' ha _ _ h => ⟨by unfold Param.dataLen; rw [ha.1], h⟩

theorem extractU8 : Steady lo extractU8 := bind (extractBytes _) fun _ => pure _
theorem extractU16 : Steady lo extractU16 := bind (extractBytes _) fun _ => pure _
theorem extractU32 : Steady lo extractU32 := bind (extractBytes _) fun _ => pure _
theorem extractU128 : Steady lo extractU128 := bind (extractBytes _) fun _ => pure _
theorem extractRest : Steady lo extractRest := bind remaining fun _ => extractBytes _
theorem extractCharacterString : Steady lo extractCharacterString :=
  bind extractU8 fun _ => extractBytes _
theorem extractString : Steady lo extractString :=
  bind extractCharacterString fun _ => ite (pure _) (fail _)

theorem fqdnStep_eq {d d' : Bytes} (ha : Alike lo d d') (s : FqdnState) (hs : lo ≤ s.pos) :
    fqdnStep d' s = fqdnStep d s := by
  unfold Buf.fqdnStep
  rw [← ha.2 _ hs, ha.1, ha.drop hs, ha.drop (show lo ≤ s.pos + 1 by omega)]

theorem fqdnLoop {d d' : Bytes} (ha : Alike lo d d') (hn : NoPointerBelow lo d) : ∀ (fuel : Nat) (s : FqdnState),
    lo ≤ s.pos → (∀ o, s.org = some o → lo ≤ o) →
    fqdnLoop d' fuel s = fqdnLoop d fuel s ∧ ∀ r, fqdnLoop d fuel s = some r → lo ≤ r.2 := by
  intro fuel
  induction fuel with
  | zero => intro s _ _; exact ⟨rfl, fun r h => by cases h⟩
  | succ fuel ih =>
    intro s h1 h2
    have ho : lo ≤ s.org.getD (s.pos + 1) := by
      cases ho : s.org with
      | none => simp; omega
      | some o => simpa using h2 o ho
    have ho' : lo ≤ s.org.getD s.pos + 1 := by
      cases ho : s.org with
      | none => simp; omega
      | some o => have := h2 o ho; simp; omega
    rw [fqdnLoop_succ, fqdnLoop_succ, fqdnStep_eq ha s h1]
    have hs := stepCase d s
    revert hs
    generalize fqdnStep d s = y
    intro hs
    cases hs with
    | outside => exact ⟨rfl, fun r h => by cases h; exact h1⟩
    | cut => exact ⟨rfl, fun r h => by cases h; exact h1⟩
    | refused hi lo a b c => exact ⟨rfl, fun r h => by cases h; exact ho⟩
    | long => exact ⟨rfl, fun r h => by cases h; exact h1⟩
    | slice len a b c e => exact ⟨rfl, fun r h => by cases h; simp; omega⟩
    | zero h0 => exact ⟨rfl, fun r h => by cases h; exact ho'⟩
    | jump hi l a b c => exact ih _ (hn _ _ _ h1 b a) (fun o h => by cases h; exact ho)
    | label len l a b c e => exact ih _ (by simp; omega) h2

theorem extractFqdn : Steady lo extractFqdn := by
  intro d d' ha hn i hi
  obtain ⟨h1, h2⟩ := fqdnLoop ha hn (fqdnFuel d) ⟨i, [], none⟩ hi (fun o h => by cases h)
  unfold Buf.extractFqdn
  rw [show fqdnFuel d' = fqdnFuel d by unfold fqdnFuel; rw [ha.1], h1]
  refine ⟨rfl, ?_⟩
  split
  · rename_i r hr
    exact h2 _ hr
  · exact hi

theorem whileRemaining {s : σ} {body : σ → Parser σ} (h : ∀ s, Steady lo (body s)) :
    Steady lo (whileRemaining s body) := by
  have : ∀ (fuel : Nat) (s : σ), Steady lo (whileRemainingFuel body fuel s) := by
    intro fuel
    induction fuel with
    | zero => intro s; exact lift _
    | succ fuel ih => intro s; exact bind remaining fun _ => ite (bind (h _) fun _ => ih _) (pure _)
  intro d d' ha hn i hi
  have := this (d.length + 1) s d d' ha hn i hi
  unfold Buf.whileRemaining
  rw [← ha.1]
  exact this

theorem times {p : Parser α} (hp : Steady lo p) (n : Nat) : Steady lo (Parser.times n p) := by
  induction n with
  | zero => exact pure _
  | succ n ih => exact bind hp fun _ => bind ih fun _ => pure _

end Steady

/-- Closes `Steady` goals of parsers composed from the primitives. -/
macro "steady" : tactic => `(tactic|
  repeat' first
    | assumption
    | with_reducible exact Steady.pure _ | with_reducible exact Steady.lift _ | with_reducible exact Steady.fail _
    | with_reducible exact Steady.extractU8 | with_reducible exact Steady.extractU16 | with_reducible exact Steady.extractU32
    | with_reducible exact Steady.extractU128 | with_reducible exact Steady.extractRest | with_reducible exact Steady.extractBytes _
    | with_reducible exact Steady.extractCharacterString | with_reducible exact Steady.extractString
    | with_reducible exact Steady.extractFqdn | with_reducible exact Steady.remaining
    | with_reducible refine Steady.withSubBuffer _ ?_
    | with_reducible exact Steady.advance _ | with_reducible exact Steady.dataLen
    | with_reducible refine Steady.whileRemaining (fun _ => ?_)
    | with_reducible refine Steady.ite ?_ ?_
    | with_reducible refine Steady.bind ?_ (fun _ => ?_)
    | split)

section
variable {lo : Nat}

theorem Gateway.steady (t : UInt8) : Steady lo (Gateway.parse t) := by
  unfold Gateway.parse; steady

theorem Hip.steady_servers : Steady lo Hip.parseServers := by
  unfold Hip.parseServers
  have : ∀ acc, Steady lo (Hip.step acc) := by intro acc; unfold Hip.step; steady
  steady
  exact this _

theorem Bitmap.steady (cfg : Cfg) : Steady lo (Bitmap.parse cfg) := by
  unfold Bitmap.parse
  apply Steady.whileRemaining
  intro s
  unfold Bitmap.readStep
  steady

theorem Param.steady_mandatory (cfg : Cfg) : ∀ (fuel len : Nat) (keys : List ParamKey),
    Steady lo (Param.mandatoryLoop cfg fuel len keys) := by
  intro fuel
  induction fuel with
  | zero => intro _ _; exact Steady.lift _
  | succ fuel ih => intro len keys; unfold Param.mandatoryLoop; steady; exact ih _ _

theorem Param.steady_alpn (cfg : Cfg) : ∀ (fuel len : Nat) (ids : List Bytes),
    Steady lo (Param.alpnLoop cfg fuel len ids) := by
  intro fuel
  induction fuel with
  | zero => intro _ _; exact Steady.lift _
  | succ fuel ih => intro len keys; unfold Param.alpnLoop; steady; exact ih _ _

theorem Param.steady (cfg : Cfg) : Steady lo (Param.parse cfg) := by
  have h1 := fun f l k => Param.steady_mandatory (lo := lo) cfg f l k
  have h2 := fun f l k => Param.steady_alpn (lo := lo) cfg f l k
  unfold Param.parse Param.parseValue
  steady
  · exact h1 _ _ _
  · exact h2 _ _ _

theorem Svcb.steady_step (cfg : Cfg) (acc : List Param) : Steady lo (Svcb.step cfg acc) := by
  intro d d' ha hn i hi
  unfold Svcb.step
  simp only [Parser.bind_apply]
  obtain ⟨h1, h2⟩ := Steady.remaining d d' ha hn i hi
  rw [h1]
  rcases hr : Buf.remaining d i with ⟨r, j⟩
  rw [hr] at h2
  cases r <;> try exact ⟨rfl, h2⟩
  rename_i n
  simp only
  obtain ⟨h3, h4⟩ := Steady.withSubBuffer n (Param.steady cfg) d d' ha hn j h2
  rw [h3]
  rcases hw : Buf.withSubBuffer n (Param.parse cfg) d j with ⟨r, k⟩
  rw [hw] at h4
  cases r <;> try exact ⟨rfl, h4⟩
  rename_i a
  have h5 : lo ≤ a.2 := by
    unfold Buf.withSubBuffer at hw
    split at hw
    · cases hw
    · have := (Param.steady cfg _ _ (ha.take (n + j)) (noPointer_take hn) j h2).2
      split at hw <;> rename_i he <;> cases hw
      rw [he] at this
      exact this
  simp only [Buf.setPosition, ha.1]
  by_cases hc : a.2 > d'.length
  · simp only [if_pos hc]
    exact ⟨by trivial, h4⟩
  · simp only [if_neg hc]
    exact ⟨by trivial, h5⟩

theorem A.steady : Steady lo A.parse := by
  unfold A.parse; steady
theorem Ns.steady : Steady lo Ns.parse := by
  unfold Ns.parse; steady
theorem Cname.steady : Steady lo Cname.parse := by
  unfold Cname.parse; steady
theorem Soa.steady : Steady lo Soa.parse := by
  unfold Soa.parse; steady
theorem Null.steady : Steady lo Null.parse := by
  unfold Null.parse; steady
theorem Wks.steady : Steady lo Wks.parse := by
  unfold Wks.parse; steady
theorem Ptr.steady : Steady lo Ptr.parse := by
  unfold Ptr.parse; steady
theorem Hinfo.steady : Steady lo Hinfo.parse := by
  unfold Hinfo.parse; steady
theorem Minfo.steady : Steady lo Minfo.parse := by
  unfold Minfo.parse; steady
theorem Mx.steady : Steady lo Mx.parse := by
  unfold Mx.parse; steady
theorem Txt.steady : Steady lo Txt.parse := by
  unfold Txt.parse; steady; unfold Txt.step; steady
theorem Aaaa.steady : Steady lo Aaaa.parse := by
  unfold Aaaa.parse; steady
theorem Loc.steady : Steady lo Loc.parse := by
  unfold Loc.parse; steady
theorem Srv.steady : Steady lo Srv.parse := by
  unfold Srv.parse; steady
theorem Naptr.steady : Steady lo Naptr.parse := by
  unfold Naptr.parse; steady
theorem Opt.steady : Steady lo Opt.parse := by
  unfold Opt.parse; steady; unfold Opt.step; steady
theorem Apl.steady : Steady lo Apl.parse := by
  unfold Apl.parse; steady
theorem Ds.steady : Steady lo Ds.parse := by
  unfold Ds.parse; steady
theorem Sshfp.steady : Steady lo Sshfp.parse := by
  unfold Sshfp.parse; steady
theorem IpSecKey.steady : Steady lo IpSecKey.parse := by
  have h4 := Gateway.steady (lo := lo); unfold IpSecKey.parse; steady; exact h4 _
theorem Rrsig.steady (cfg : Cfg) : Steady lo (Rrsig.parse cfg) := by
  unfold Rrsig.parse; steady
theorem Nsec.steady (cfg : Cfg) : Steady lo (Nsec.parse cfg) := by
  have h2 := Bitmap.steady (lo := lo) cfg; unfold Nsec.parse; steady
theorem DnsKey.steady : Steady lo DnsKey.parse := by
  unfold DnsKey.parse; steady
theorem Dhcid.steady : Steady lo Dhcid.parse := by
  unfold Dhcid.parse; steady
theorem Tlsa.steady : Steady lo Tlsa.parse := by
  unfold Tlsa.parse; steady
theorem Hip.steady : Steady lo Hip.parse := by
  have h1 := Hip.steady_servers (lo := lo); unfold Hip.parse; steady
theorem OpenPgpKey.steady : Steady lo OpenPgpKey.parse := by
  unfold OpenPgpKey.parse; steady
theorem Csync.steady (cfg : Cfg) : Steady lo (Csync.parse cfg) := by
  have h2 := Bitmap.steady (lo := lo) cfg; unfold Csync.parse; steady
theorem Svcb.steady (cfg : Cfg) : Steady lo (Svcb.parse cfg) := by
  have h3 := Svcb.steady_step (lo := lo) cfg; unfold Svcb.parse; steady; exact h3 _
theorem Eui48.steady : Steady lo Eui48.parse := by
  unfold Eui48.parse; steady
theorem Eui64.steady : Steady lo Eui64.parse := by
  unfold Eui64.parse; steady
theorem Tkey.steady : Steady lo Tkey.parse := by
  unfold Tkey.parse; steady
theorem Tsig.steady : Steady lo Tsig.parse := by
  unfold Tsig.parse; steady
theorem Uri.steady : Steady lo Uri.parse := by
  unfold Uri.parse; steady
theorem Caa.steady : Steady lo Caa.parse := by
  unfold Caa.parse; steady

/-- Every RDATA parser stays inside its data. -/
theorem RecordData.steady (cfg : Cfg) (t : RecordType) : Steady lo (RecordData.parse cfg t) := by
  cases t
  case A => exact .bind A.steady fun _ => .pure _
  case NS => exact .bind Ns.steady fun _ => .pure _
  case CNAME => exact .bind Cname.steady fun _ => .pure _
  case SOA => exact .bind Soa.steady fun _ => .pure _
  case NULL => exact .bind Null.steady fun _ => .pure _
  case WKS => exact .bind Wks.steady fun _ => .pure _
  case PTR => exact .bind Ptr.steady fun _ => .pure _
  case HINFO => exact .bind Hinfo.steady fun _ => .pure _
  case MINFO => exact .bind Minfo.steady fun _ => .pure _
  case MX => exact .bind Mx.steady fun _ => .pure _
  case TXT => exact .bind Txt.steady fun _ => .pure _
  case AAAA => exact .bind Aaaa.steady fun _ => .pure _
  case LOC => exact .bind Loc.steady fun _ => .pure _
  case SRV => exact .bind Srv.steady fun _ => .pure _
  case NAPTR => exact .bind Naptr.steady fun _ => .pure _
  case OPT => exact .bind Opt.steady fun _ => .pure _
  case APL => exact .bind Apl.steady fun _ => .pure _
  case DS => exact .bind Ds.steady fun _ => .pure _
  case SSHFP => exact .bind Sshfp.steady fun _ => .pure _
  case IPSECKEY => exact .bind IpSecKey.steady fun _ => .pure _
  case RRSIG => exact .bind (Rrsig.steady cfg) fun _ => .pure _
  case NSEC => exact .bind (Nsec.steady cfg) fun _ => .pure _
  case DNSKEY => exact .bind DnsKey.steady fun _ => .pure _
  case DHCID => exact .bind Dhcid.steady fun _ => .pure _
  case TLSA => exact .bind Tlsa.steady fun _ => .pure _
  case HIP => exact .bind Hip.steady fun _ => .pure _
  case CDS => exact .bind Ds.steady fun _ => .pure _
  case CDNSKEY => exact .bind DnsKey.steady fun _ => .pure _
  case OPENPGPKEY => exact .bind OpenPgpKey.steady fun _ => .pure _
  case CSYNC => exact .bind (Csync.steady cfg) fun _ => .pure _
  case SVCB => exact .bind (Svcb.steady cfg) fun _ => .pure _
  case EUI48 => exact .bind Eui48.steady fun _ => .pure _
  case EUI64 => exact .bind Eui64.steady fun _ => .pure _
  case TKEY => exact .bind Tkey.steady fun _ => .pure _
  case TSIG => exact .bind Tsig.steady fun _ => .pure _
  case URI => exact .bind Uri.steady fun _ => .pure _
  case CAA => exact .bind Caa.steady fun _ => .pure _

theorem Question.steady (cfg : Cfg) : Steady lo (Question.parse cfg) := by
  unfold Question.parse; steady

theorem ResourceRecord.steady (cfg : Cfg) : Steady lo (ResourceRecord.parse cfg) := by
  have h1 := RecordData.steady (lo := lo) cfg; unfold ResourceRecord.parse ResourceRecord.parseClass; steady; exact h1 _

theorem Header.steady : Steady lo Header.parse := by
  unfold Header.parse; steady

/-- What follows the header. -/
def Packet.parseRest (cfg : Cfg) (h : Header) : Parser Packet := do
  let qs ← Parser.times h.quesCount.toNat (Question.parse cfg)
  let an ← Parser.times h.ansCount.toNat (ResourceRecord.parse cfg)
  let au ← Parser.times h.authCount.toNat (ResourceRecord.parse cfg)
  let ad ← Parser.times h.addCount.toNat (ResourceRecord.parse cfg)
  return ⟨h, qs, an, au, ad⟩

theorem Packet.parseBuf_rest (cfg : Cfg) :
    Packet.parseBuf cfg = (do let h ← Header.parse; Packet.parseRest cfg h) := rfl

theorem Packet.steady_rest (cfg : Cfg) (h : Header) : Steady lo (Packet.parseRest cfg h) :=
  .bind (.times (Question.steady cfg) _) fun _ => .bind (.times (ResourceRecord.steady cfg) _) fun _ =>
    .bind (.times (ResourceRecord.steady cfg) _) fun _ => .bind (.times (ResourceRecord.steady cfg) _) fun _ => .pure _

end

end Dns
