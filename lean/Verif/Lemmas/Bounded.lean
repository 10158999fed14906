import Verif.Lemmas.Names
import Verif.Model.Packet

/-! The position of the buffer never leaves the data, whatever a parser does. -/

namespace Dns
open Spec Buf

variable {α β σ : Type}

/-- Started inside the data, the parser leaves the buffer inside the data, also when it fails. -/
def Bounded (p : Parser α) : Prop := ∀ d i, i ≤ d.length → (p d i).2 ≤ d.length

namespace Bounded

theorem pure (a : α) : Bounded (pure a : Parser α) := fun _ _ h => h
theorem lift (r : Res α) : Bounded (Parser.lift r) := fun _ _ h => h
theorem fail (e : DnsError) : Bounded (Parser.fail e : Parser α) := fun _ _ h => h

theorem bind {p : Parser α} {f : α → Parser β} (hp : Bounded p) (hf : ∀ a, Bounded (f a)) :
    Bounded (p >>= f) := by
  intro d i hi
  rw [Parser.bind_apply]
  have h := hp d i hi
  rcases hq : p d i with ⟨r, j⟩
  rw [hq] at h
  cases r <;> first | exact hf _ d j h | exact h

theorem ite {c : Prop} [Decidable c] {p q : Parser α} (hp : Bounded p) (hq : Bounded q) :
    Bounded (if c then p else q) := by
  split <;> assumption

theorem remaining : Bounded remaining := by
  intro d i h; unfold Buf.remaining; split <;> exact h

theorem extractBytes (n : Nat) : Bounded (extractBytes n) := by
  intro d i h; unfold Buf.extractBytes; split <;> simp <;> omega

theorem advance (n : Nat) : Bounded (advance n) := by
  intro d i h; unfold Buf.advance; split <;> simp <;> omega

theorem peekBytes (n : Nat) : Bounded (peekBytes n) := by
  intro d i h; unfold Buf.peekBytes; split <;> exact h

theorem setPosition (n : Nat) : Bounded (setPosition n) := by
  intro d i h; unfold Buf.setPosition; split <;> simp <;> omega

theorem withSubBuffer (n : Nat) (p : Parser α) : Bounded (withSubBuffer n p) := by
  intro d i h; unfold Buf.withSubBuffer; split
  · exact h
  · split <;> exact h

theorem dataLen : Bounded Param.dataLen := fun _ _ h => h

theorem extractU8 : Bounded extractU8 := bind (extractBytes _) fun _ => pure _
theorem extractU16 : Bounded extractU16 := bind (extractBytes _) fun _ => pure _
theorem extractU32 : Bounded extractU32 := bind (extractBytes _) fun _ => pure _
theorem extractU128 : Bounded extractU128 := bind (extractBytes _) fun _ => pure _
theorem extractRest : Bounded extractRest := bind remaining fun _ => extractBytes _
theorem extractCharacterString : Bounded extractCharacterString :=
  bind extractU8 fun _ => extractBytes _
theorem extractString : Bounded extractString :=
  bind extractCharacterString fun _ => ite (pure _) (fail _)

theorem fqdnLoop (d : Bytes) : ∀ (fuel : Nat) (s : FqdnState) (r : Res Fqdn × Nat),
    s.pos ≤ d.length → (∀ o, s.org = some o → o < d.length) → fqdnLoop d fuel s = some r →
    r.2 ≤ d.length := by
  intro fuel
  induction fuel with
  | zero => intro s r _ _ h; cases h
  | succ fuel ih =>
    intro s r h1 h2 h
    rw [fqdnLoop_succ] at h
    have hs := stepCase d s
    revert h hs
    generalize fqdnStep d s = y
    intro h hs
    cases hs with
    | outside => cases h; exact h1
    | cut => cases h; exact h1
    | refused hi lo a b c =>
      cases h
      have := b.le
      cases ho : s.org with
      | none => simp; omega
      | some o => have := h2 o ho; simp; omega
    | long => cases h; exact h1
    | slice len a b c e => cases h; simp; omega
    | zero h0 =>
      cases h
      have := getElem?_lt h0
      cases ho : s.org with
      | none => simp; omega
      | some o => have := h2 o ho; simp; omega
    | jump hi lo a b c =>
      have hle := b.le
      have ho : s.org.getD (s.pos + 1) < d.length := by
        cases ho : s.org with
        | none => simp; omega
        | some o => have := h2 o ho; simp; omega
      refine ih _ _ ?_ ?_ h
      · dsimp only; omega
      · intro o h; cases h; exact ho
    | label len l a b c e =>
      dsimp only at h
      exact ih ⟨s.pos + 1 + l.length, s.labels ++ [l], s.org⟩ _ e.le h2 h

theorem extractFqdn : Bounded extractFqdn := by
  intro d i h
  unfold Buf.extractFqdn
  split
  · rename_i r hr
    exact fqdnLoop d _ _ _ h (by intro o ho; cases ho) hr
  · exact h

theorem whileRemaining {s : σ} {body : σ → Parser σ} (h : ∀ s, Bounded (body s)) :
    Bounded (whileRemaining s body) := by
  have : ∀ (fuel : Nat) (s : σ), Bounded (whileRemainingFuel body fuel s) := by
    intro fuel
    induction fuel with
    | zero => intro s; exact lift _
    | succ fuel ih => intro s; exact bind remaining fun _ => ite (bind (h _) fun _ => ih _) (pure _)
  intro d i hi
  exact this _ s d i hi

theorem times {p : Parser α} (hp : Bounded p) (n : Nat) : Bounded (Parser.times n p) := by
  induction n with
  | zero => exact pure _
  | succ n ih => exact bind hp fun _ => bind ih fun _ => pure _

end Bounded

/-- Closes `Bounded` goals of parsers composed from the primitives. -/
macro "bounded" : tactic => `(tactic|
  repeat' first
    | assumption
    | with_reducible exact Bounded.pure _ | with_reducible exact Bounded.lift _ | with_reducible exact Bounded.fail _
    | with_reducible exact Bounded.extractU8 | with_reducible exact Bounded.extractU16 | with_reducible exact Bounded.extractU32
    | with_reducible exact Bounded.extractU128 | with_reducible exact Bounded.extractRest | with_reducible exact Bounded.extractBytes _
    | with_reducible exact Bounded.extractCharacterString | with_reducible exact Bounded.extractString
    | with_reducible exact Bounded.extractFqdn | with_reducible exact Bounded.remaining | with_reducible exact Bounded.withSubBuffer _ _
    | with_reducible exact Bounded.advance _ | with_reducible exact Bounded.setPosition _ | with_reducible exact Bounded.dataLen
    | with_reducible refine Bounded.whileRemaining (fun _ => ?_)
    | with_reducible refine Bounded.ite ?_ ?_
    | with_reducible refine Bounded.bind ?_ (fun _ => ?_)
    | split)

theorem Gateway.bounded (t : UInt8) : Bounded (Gateway.parse t) := by
  unfold Gateway.parse; bounded

theorem Hip.bounded_servers : Bounded Hip.parseServers := by
  unfold Hip.parseServers
  have : ∀ acc, Bounded (Hip.step acc) := by intro acc; unfold Hip.step; bounded
  bounded
  exact this _

theorem Bitmap.bounded (cfg : Cfg) : Bounded (Bitmap.parse cfg) := by
  unfold Bitmap.parse
  apply Bounded.whileRemaining
  intro s
  unfold Bitmap.readStep
  bounded

theorem Param.bounded_mandatory (cfg : Cfg) : ∀ (fuel len : Nat) (keys : List ParamKey),
    Bounded (Param.mandatoryLoop cfg fuel len keys) := by
  intro fuel
  induction fuel with
  | zero => intro _ _; exact Bounded.lift _
  | succ fuel ih => intro len keys; unfold Param.mandatoryLoop; bounded; exact ih _ _

theorem Param.bounded_alpn (cfg : Cfg) : ∀ (fuel len : Nat) (ids : List Bytes),
    Bounded (Param.alpnLoop cfg fuel len ids) := by
  intro fuel
  induction fuel with
  | zero => intro _ _; exact Bounded.lift _
  | succ fuel ih => intro len keys; unfold Param.alpnLoop; bounded; exact ih _ _

theorem Svcb.bounded_step (cfg : Cfg) (acc : List Param) : Bounded (Svcb.step cfg acc) := by
  unfold Svcb.step; bounded

theorem A.bounded : Bounded A.parse := by
  unfold A.parse; bounded
theorem Ns.bounded : Bounded Ns.parse := by
  unfold Ns.parse; bounded
theorem Cname.bounded : Bounded Cname.parse := by
  unfold Cname.parse; bounded
theorem Soa.bounded : Bounded Soa.parse := by
  unfold Soa.parse; bounded
theorem Null.bounded : Bounded Null.parse := by
  unfold Null.parse; bounded
theorem Wks.bounded : Bounded Wks.parse := by
  unfold Wks.parse; bounded
theorem Ptr.bounded : Bounded Ptr.parse := by
  unfold Ptr.parse; bounded
theorem Hinfo.bounded : Bounded Hinfo.parse := by
  unfold Hinfo.parse; bounded
theorem Minfo.bounded : Bounded Minfo.parse := by
  unfold Minfo.parse; bounded
theorem Mx.bounded : Bounded Mx.parse := by
  unfold Mx.parse; bounded
theorem Txt.bounded : Bounded Txt.parse := by
  unfold Txt.parse; bounded; unfold Txt.step; bounded
theorem Aaaa.bounded : Bounded Aaaa.parse := by
  unfold Aaaa.parse; bounded
theorem Loc.bounded : Bounded Loc.parse := by
  unfold Loc.parse; bounded
theorem Srv.bounded : Bounded Srv.parse := by
  unfold Srv.parse; bounded
theorem Naptr.bounded : Bounded Naptr.parse := by
  unfold Naptr.parse; bounded
theorem Opt.bounded : Bounded Opt.parse := by
  unfold Opt.parse; bounded; unfold Opt.step; bounded
theorem Apl.bounded : Bounded Apl.parse := by
  unfold Apl.parse; bounded
theorem Ds.bounded : Bounded Ds.parse := by
  unfold Ds.parse; bounded
theorem Sshfp.bounded : Bounded Sshfp.parse := by
  unfold Sshfp.parse; bounded
theorem IpSecKey.bounded : Bounded IpSecKey.parse := by
  have h4 := Gateway.bounded; unfold IpSecKey.parse; bounded; exact h4 _
theorem Rrsig.bounded (cfg : Cfg) : Bounded (Rrsig.parse cfg) := by
  unfold Rrsig.parse; bounded
theorem Nsec.bounded (cfg : Cfg) : Bounded (Nsec.parse cfg) := by
  have h2 := Bitmap.bounded cfg; unfold Nsec.parse; bounded
theorem DnsKey.bounded : Bounded DnsKey.parse := by
  unfold DnsKey.parse; bounded
theorem Dhcid.bounded : Bounded Dhcid.parse := by
  unfold Dhcid.parse; bounded
theorem Tlsa.bounded : Bounded Tlsa.parse := by
  unfold Tlsa.parse; bounded
theorem Hip.bounded : Bounded Hip.parse := by
  have h1 := Hip.bounded_servers; unfold Hip.parse; bounded
theorem OpenPgpKey.bounded : Bounded OpenPgpKey.parse := by
  unfold OpenPgpKey.parse; bounded
theorem Csync.bounded (cfg : Cfg) : Bounded (Csync.parse cfg) := by
  have h2 := Bitmap.bounded cfg; unfold Csync.parse; bounded
theorem Svcb.bounded (cfg : Cfg) : Bounded (Svcb.parse cfg) := by
  have h3 := Svcb.bounded_step cfg; unfold Svcb.parse; bounded; exact h3 _
theorem Eui48.bounded : Bounded Eui48.parse := by
  unfold Eui48.parse; bounded
theorem Eui64.bounded : Bounded Eui64.parse := by
  unfold Eui64.parse; bounded
theorem Tkey.bounded : Bounded Tkey.parse := by
  unfold Tkey.parse; bounded
theorem Tsig.bounded : Bounded Tsig.parse := by
  unfold Tsig.parse; bounded
theorem Uri.bounded : Bounded Uri.parse := by
  unfold Uri.parse; bounded
theorem Caa.bounded : Bounded Caa.parse := by
  unfold Caa.parse; bounded

/-- Every RDATA parser stays inside its data. -/
theorem RecordData.bounded (cfg : Cfg) (t : RecordType) : Bounded (RecordData.parse cfg t) := by
  cases t
  case A => exact .bind A.bounded fun _ => .pure _
  case NS => exact .bind Ns.bounded fun _ => .pure _
  case CNAME => exact .bind Cname.bounded fun _ => .pure _
  case SOA => exact .bind Soa.bounded fun _ => .pure _
  case NULL => exact .bind Null.bounded fun _ => .pure _
  case WKS => exact .bind Wks.bounded fun _ => .pure _
  case PTR => exact .bind Ptr.bounded fun _ => .pure _
  case HINFO => exact .bind Hinfo.bounded fun _ => .pure _
  case MINFO => exact .bind Minfo.bounded fun _ => .pure _
  case MX => exact .bind Mx.bounded fun _ => .pure _
  case TXT => exact .bind Txt.bounded fun _ => .pure _
  case AAAA => exact .bind Aaaa.bounded fun _ => .pure _
  case LOC => exact .bind Loc.bounded fun _ => .pure _
  case SRV => exact .bind Srv.bounded fun _ => .pure _
  case NAPTR => exact .bind Naptr.bounded fun _ => .pure _
  case OPT => exact .bind Opt.bounded fun _ => .pure _
  case APL => exact .bind Apl.bounded fun _ => .pure _
  case DS => exact .bind Ds.bounded fun _ => .pure _
  case SSHFP => exact .bind Sshfp.bounded fun _ => .pure _
  case IPSECKEY => exact .bind IpSecKey.bounded fun _ => .pure _
  case RRSIG => exact .bind (Rrsig.bounded cfg) fun _ => .pure _
  case NSEC => exact .bind (Nsec.bounded cfg) fun _ => .pure _
  case DNSKEY => exact .bind DnsKey.bounded fun _ => .pure _
  case DHCID => exact .bind Dhcid.bounded fun _ => .pure _
  case TLSA => exact .bind Tlsa.bounded fun _ => .pure _
  case HIP => exact .bind Hip.bounded fun _ => .pure _
  case CDS => exact .bind Ds.bounded fun _ => .pure _
  case CDNSKEY => exact .bind DnsKey.bounded fun _ => .pure _
  case OPENPGPKEY => exact .bind OpenPgpKey.bounded fun _ => .pure _
  case CSYNC => exact .bind (Csync.bounded cfg) fun _ => .pure _
  case SVCB => exact .bind (Svcb.bounded cfg) fun _ => .pure _
  case EUI48 => exact .bind Eui48.bounded fun _ => .pure _
  case EUI64 => exact .bind Eui64.bounded fun _ => .pure _
  case TKEY => exact .bind Tkey.bounded fun _ => .pure _
  case TSIG => exact .bind Tsig.bounded fun _ => .pure _
  case URI => exact .bind Uri.bounded fun _ => .pure _
  case CAA => exact .bind Caa.bounded fun _ => .pure _

theorem Question.bounded (cfg : Cfg) : Bounded (Question.parse cfg) := by
  unfold Question.parse; bounded

theorem ResourceRecord.bounded (cfg : Cfg) : Bounded (ResourceRecord.parse cfg) := by
  unfold ResourceRecord.parse ResourceRecord.parseClass; bounded

theorem Header.bounded : Bounded Header.parse := by
  unfold Header.parse; bounded

theorem Packet.bounded (cfg : Cfg) : Bounded (Packet.parseBuf cfg) := by
  unfold Packet.parseBuf
  refine .bind Header.bounded fun _ => .bind (.times (Question.bounded cfg) _) fun _ =>
    .bind (.times (ResourceRecord.bounded cfg) _) fun _ =>
    .bind (.times (ResourceRecord.bounded cfg) _) fun _ =>
    .bind (.times (ResourceRecord.bounded cfg) _) fun _ => .pure _

end Dns
