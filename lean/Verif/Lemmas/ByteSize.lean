import Verif.Lemmas.RDataWrite

/-! `byte_size()` of record data. -/

namespace Dns
open Spec

theorem Res.bind_ok {α β : Type} {x : Res α} {f : α → Res β} {b : β} :
    (x >>= f) = .ok b ↔ ∃ a, x = .ok a ∧ f a = .ok b := by
  cases x <;> simp [bind, Res.bind]

theorem u16be_length (v : UInt16) : (u16be v).length = 2 := rfl
theorem u32be_length (v : UInt32) : (u32be v).length = 4 := rfl

theorem foldl_add_len {α : Type} (f : α → Nat) (l : List α) (a : Nat) :
    l.foldl (fun acc x => acc + f x) a = a + (l.map f).sum := by
  induction l generalizing a with
  | nil => simp
  | cons x l ih => simp only [List.foldl_cons, ih, List.map_cons, List.sum_cons]; omega

theorem foldl_bytes_len {α : Type} (f : α → Bytes) (l : List α) (a : Bytes) :
    (l.foldl (fun acc x => acc ++ f x) a).length = a.length + (l.map (fun x => (f x).length)).sum := by
  induction l generalizing a with
  | nil => simp
  | cons x l ih =>
    simp only [List.foldl_cons, ih, List.map_cons, List.sum_cons, List.length_append]; omega

theorem Txt.size (r : Txt) : r.byteSize = r.toBytes.length := by
  have h1 : r.byteSize = r.strings.foldl (fun acc e => acc + (e.length + 1)) 0 := rfl
  have h2 : r.toBytes = r.strings.foldl (fun buff e => buff ++ ([lenU8 e.length] ++ e)) [] := by
    simp [Txt.toBytes]
  rw [h1, h2, foldl_add_len, foldl_bytes_len]
  simp

theorem Hip.size (r : Hip) : r.byteSize = r.toBytes.length := by
  obtain ⟨a, h, k, s⟩ := r
  cases s with
  | none => simp [Hip.byteSize, Hip.toBytes, u16be_length]; omega
  | some s =>
    have h1 : (s.map Fqdn.byteSize).foldl (· + ·) 0 = (s.foldl (fun buf n => buf ++ Fqdn.toBytes n) []).length := by
      rw [foldl_bytes_len, ← List.sum_eq_foldl]
      have : Fqdn.byteSize = fun x => List.length (Fqdn.toBytes x) := funext Fqdn.byteSize_eq
      simp [this]
    simp only [Hip.byteSize, Hip.toBytes, h1, List.length_append, List.length_cons, List.length_nil,
      u16be_length]

theorem Opt.size (r : Opt) : r.byteSize + 4 * r.options.length = r.toBytes.length + 2 := by
  have h1 : r.byteSize = 2 + r.options.foldl (fun acc e => acc + e.2.length) 0 := rfl
  have h2 : r.toBytes = r.options.foldl
      (fun buff e => buff ++ (u16be e.1 ++ u16be (lenU16 e.2.length) ++ e.2)) [] := by
    simp [Opt.toBytes]
  have h3 : ∀ l : List (UInt16 × Bytes), (l.map (fun e => (u16be e.1 ++ u16be (lenU16 e.2.length) ++ e.2).length)).sum
      = (l.map (fun e => e.2.length)).sum + 4 * l.length := by
    intro l
    induction l with
    | nil => rfl
    | cons e l ih =>
      rw [List.map_cons, List.sum_cons, ih]
      simp only [List.map_cons, List.sum_cons, List.length_append, u16be_length, List.length_cons]
      omega
  rw [h1, h2, foldl_add_len, foldl_bytes_len, h3]
  simp only [List.length_nil]
  omega

theorem Param.value_size (p : Param) : p.byteSize = 4 + p.valueBytes.length := by
  cases p with
  | mandatory keys =>
    simp only [Param.byteSize, Param.valueBytes]
    rw [foldl_bytes_len]
    have : ∀ l : List ParamKey, (l.map (fun k => (u16be k.toU16).length)).sum = l.length * 2 := by
      intro l
      induction l with
      | nil => rfl
      | cons e l ih => rw [List.map_cons, List.sum_cons, ih, u16be_length, List.length_cons]; omega
    rw [this]; simp
  | alpn ids =>
    have h1 : ids.foldl (fun acc a => acc + a.length + 1) 0 = ids.foldl (fun acc a => acc + (a.length + 1)) 0 := rfl
    have h2 : ids.foldl (fun buf a => buf ++ [lenU8 a.length] ++ a) [] =
        ids.foldl (fun buf a => buf ++ ([lenU8 a.length] ++ a)) [] := by simp
    simp only [Param.byteSize, Param.valueBytes]
    rw [h1, h2, foldl_add_len, foldl_bytes_len]
    simp
  | ipV6Hint a => simp [Param.byteSize, Param.valueBytes, toBE_length]
  | _ => rfl

theorem Svcb.params_size (cfg : Cfg) : ∀ (ps : List Param) (b : Bytes), Svcb.paramBytes cfg ps = .ok b →
    (ps.map Param.byteSize).sum = b.length := by
  intro ps
  induction ps with
  | nil => intro b h; cases h; rfl
  | cons p ps ih =>
    intro b h
    unfold Svcb.paramBytes at h
    simp only [Res.bind_ok] at h
    obtain ⟨x, h1, y, h2, h3⟩ := h
    cases h3
    unfold Param.toBytes at h1
    simp only [Res.bind_ok] at h1
    obtain ⟨l, h4, h5⟩ := h1
    cases h5
    simp only [List.map_cons, List.sum_cons, ih y h2, Param.value_size, List.length_append, u16be_length]

theorem Svcb.size {cfg : Cfg} {r : Svcb} {b : Bytes} (h : r.toBytes cfg = .ok b) :
    r.byteSize = b.length + 4 * r.params.length := by
  unfold Svcb.toBytes at h
  simp only [Res.bind_ok] at h
  obtain ⟨x, h1, h2⟩ := h
  cases h2
  have h3 := Svcb.params_size cfg _ _ h1
  have h4 : r.byteSize = 2 + r.targetName.byteSize + r.params.foldl (fun s p => s + (4 + p.byteSize)) 0 := by
    simp [Svcb.byteSize, Nat.add_assoc]
  have h5 : ∀ l : List Param, (l.map (fun p => 4 + p.byteSize)).sum = (l.map Param.byteSize).sum + 4 * l.length := by
    intro l
    induction l with
    | nil => rfl
    | cons e l ih => simp only [List.map_cons, List.sum_cons, ih, List.length_cons]; omega
  rw [h4, foldl_add_len, h5, h3]
  simp only [List.length_append, u16be_length, Fqdn.byteSize_eq]
  omega

theorem Csync.size (cfg : Cfg) {r : Csync} (h : SetsOk (.CSYNC r)) :
    ∃ b, r.toBytes cfg = .ok b ∧ r.byteSize cfg = .ok b.length := by
  obtain ⟨ws, h1, h2, _⟩ := Bitmap.toBytes_ok cfg h
  refine ⟨u32be r.soaSerial ++ u16be r.flags.bits ++ Items.octets (windowItems ws), ?_, ?_⟩
  · unfold Csync.toBytes; rw [h1]; rfl
  · unfold Csync.byteSize; rw [h2]
    simp [bind, Res.bind, pure, u32be_length, u16be_length]; omega

theorem Nsec.size (cfg : Cfg) {r : Nsec} (h : SetsOk (.NSEC r)) :
    ∃ b, r.toBytes cfg = .ok b ∧ r.byteSize cfg = .ok b.length := by
  obtain ⟨ws, h1, h2, _⟩ := Bitmap.toBytes_ok cfg h
  have h3 : r.byteSize cfg = .ok (r.nextDomainName.byteSize + (Items.octets (windowItems ws)).length) := by
    unfold Nsec.byteSize; rw [h2]; rfl
  refine ⟨r.nextDomainName.toBytes ++ Items.octets (windowItems ws), ?_, ?_⟩
  · unfold Nsec.toBytes; rw [h1, h3]; rfl
  · rw [h3, Fqdn.byteSize_eq, List.length_append]

/-- Record data and the size the crate computes. -/
theorem RecordData.size {cfg : Cfg} {r : RecordData} {b : Bytes} (hs : SetsOk r)
    (hb : r.toBytes cfg = .ok b) : ∃ n, r.byteSize cfg = .ok n ∧ (n : Int) = b.length + sizeError r := by
  cases r
  case NSEC r =>
    obtain ⟨b', h1, h2⟩ := Nsec.size cfg hs
    have h3 : r.toBytes cfg = .ok b := hb
    rw [h1] at h3; cases h3
    exact ⟨_, h2, by simp [sizeError]⟩
  case CSYNC r =>
    obtain ⟨b', h1, h2⟩ := Csync.size cfg hs
    have h3 : r.toBytes cfg = .ok b := hb
    rw [h1] at h3; cases h3
    exact ⟨_, h2, by simp [sizeError]⟩
  case SVCB r =>
    refine ⟨_, rfl, ?_⟩
    rw [Svcb.size hb]; simp [sizeError]
  case OPT r =>
    cases hb
    refine ⟨_, rfl, ?_⟩
    have := r.size
    simp only [sizeError]; omega
  all_goals
    cases hb
    refine ⟨_, rfl, ?_⟩
    simp only [sizeError]
  case TXT r => rw [r.size]; simp
  case HIP r => rw [r.size]; simp
  case APL r =>
    obtain ⟨p, n, a⟩ := r
    cases a <;> simp [Apl.byteSize, Apl.toBytes, Afd.byteSize, Afd.toBytes, u16be_length, u32be_length, toBE_length]
  case IPSECKEY r =>
    obtain ⟨p, a, g, k⟩ := r
    cases g <;> simp [IpSecKey.byteSize, IpSecKey.toBytes, Gateway.byteSize, Gateway.toBytes,
      Gateway.gatewayType, u32be_length, toBE_length, Fqdn.byteSize_eq] <;> omega
  all_goals
    simp [A.byteSize, A.toBytes, Aaaa.byteSize, Aaaa.toBytes, Ns.byteSize, Ns.toBytes, Cname.byteSize,
      Cname.toBytes, Ptr.byteSize, Ptr.toBytes, Mx.byteSize, Mx.toBytes, Soa.byteSize, Soa.toBytes,
      Minfo.byteSize, Minfo.toBytes, Hinfo.byteSize, Hinfo.toBytes, Wks.byteSize, Wks.toBytes,
      Null.byteSize, Null.toBytes, OpenPgpKey.byteSize, OpenPgpKey.toBytes, Uri.byteSize, Uri.toBytes,
      Loc.byteSize, Loc.toBytes, Eui48.byteSize, Eui48.toBytes, Eui64.byteSize, Eui64.toBytes,
      Srv.byteSize, Srv.toBytes, Naptr.byteSize, Naptr.toBytes, Naptr.headBytes, DnsKey.byteSize,
      DnsKey.toBytes, Ds.byteSize, Ds.toBytes, Rrsig.byteSize, Rrsig.toBytes, Caa.byteSize, Caa.toBytes,
      Sshfp.byteSize, Sshfp.toBytes, Tlsa.byteSize, Tlsa.toBytes, Dhcid.byteSize, Dhcid.toBytes,
      Tkey.byteSize, Tkey.toBytes, Tsig.byteSize, Tsig.toBytes, u16be_length, u32be_length, toBE_length,
      Fqdn.byteSize_eq, Fqdn.len, u64be] <;> omega

end Dns
