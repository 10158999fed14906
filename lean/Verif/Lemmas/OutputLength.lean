import Verif.Lemmas.TimedWrite

/-
How many octets the compressing writer writes at most.
-/

namespace Dns
open Spec Buf
namespace Timed

theorem compressed_length (h : Hash) : ∀ (n : Fqdn) (names : Names) (offset : Nat),
    (n.toBytesCompressed h names offset).1.length ≤ nameSize n + 2 := by
  intro n
  induction n with
  | nil => intro names offset; simp [Fqdn.toBytesCompressed]
  | cons l ls ih =>
    intro names offset
    simp only [Fqdn.toBytesCompressed]
    split
    · simp [u16be]
    · have := ih (names.insert (h (l :: ls)) offset) (offset + (l.length + 1))
      simp only [nameSize, List.map_cons, List.sum_cons, List.length_cons, List.length_append] at this ⊢
      omega

theorem name_length (n : Fqdn) : n.toBytes.length ≤ nameSize n + 1 := by
  rw [← Fqdn.byteSize_eq]
  have key : ∀ (n : Fqdn) (a : Nat),
      n.foldl (fun acc label => acc + if !label.isEmpty then 1 + label.length else 0) a ≤ nameSize n + a := by
    intro n
    induction n with
    | nil => intro a; simp [nameSize]
    | cons l ls ih =>
      intro a
      have := ih (a + if !l.isEmpty then 1 + l.length else 0)
      simp only [List.foldl_cons, nameSize, List.map_cons, List.sum_cons] at this ⊢
      by_cases hl : (!l.isEmpty) = true <;> simp only [hl, if_true, if_false, Bool.false_eq_true] at this ⊢ <;> omega
  exact key n 1

theorem foldl_length {α : Type} (f : α → Bytes) (k : Nat) (g : α → Bytes) (hk : ∀ a, (f a).length ≤ (g a).length + k) :
    ∀ (xs : List α) (b : Bytes), (xs.foldl (fun b a => b ++ f a) b).length ≤
      b.length + ((xs.map g).map List.length).sum + k * xs.length := by
  intro xs
  induction xs with
  | nil => intro b; simp
  | cons x xs ih =>
    intro b
    have h1 := ih (b ++ f x)
    have h2 := hk x
    simp only [List.foldl_cons, List.map_cons, List.sum_cons, List.length_append, List.length_cons, Nat.mul_add]
      at h1 ⊢
    omega

theorem finish_length {s : Bitmap.WState} {b : Bytes} (h : Bitmap.finish s = .ok b) :
    b.length ≤ s.out.length + 34 := by
  unfold Bitmap.finish at h
  split at h
  · cases h
    simp only [List.length_append, List.length_cons, List.length_nil, List.length_take]
    omega
  · cases h

theorem writeLoop_length {cfg : Cfg} : ∀ (ts : List Nat) (s : Bitmap.WState) (b : Bytes),
    Bitmap.writeLoop cfg s ts = .ok b → b.length ≤ s.out.length + 34 * (ts.length + 1) := by
  intro ts
  induction ts with
  | nil => intro s b h; exact finish_length h
  | cons t ts ih =>
    intro s b h
    obtain ⟨s', h1, h2⟩ := Res.bind_eq_ok.mp h
    have h3 := ih s' b h2
    unfold Bitmap.writeType at h1
    obtain ⟨df, _, h1⟩ := Res.bind_eq_ok.mp h1
    have h6 : s'.out.length ≤ s.out.length + 34 := by
      simp only at h1
      split at h1
      · obtain ⟨o, h7, h8⟩ := Res.bind_eq_ok.mp h1
        simp only [pure_bind] at h8
        obtain ⟨l, _, h9⟩ := Res.bind_eq_ok.mp h8
        split at h9
        · cases h9; exact finish_length h7
        · cases h9
      · simp only [pure_bind] at h1
        obtain ⟨l, _, h9⟩ := Res.bind_eq_ok.mp h1
        split at h9
        · cases h9; simp
        · cases h9
    simp only [List.length_cons] at h3 ⊢
    omega

theorem bitmap_length {cfg : Cfg} {ts : List RecordType} {b : Bytes} (h : Bitmap.toBytes cfg ts = .ok b) :
    b.length ≤ 34 * (ts.length + 1) := by
  have := writeLoop_length _ _ _ h
  simpa [Bitmap.WState.init] using this

theorem param_length {cfg : Cfg} {p : Param} {b : Bytes} (h : p.toBytes cfg = .ok b) :
    b.length ≤ 20 + ((paramStrings p).map List.length).sum + 2 * paramElements p := by
  unfold Param.toBytes at h
  obtain ⟨l, _, hb⟩ := Res.bind_eq_ok.mp h
  cases hb
  clear h
  rename_i hl
  clear hl
  simp only [List.length_append, u16be, toBE_length]
  cases p
  case mandatory keys =>
    have := foldl_length (fun k : ParamKey => u16be k.toU16) 2 (fun _ => []) (by intro a; simp [u16be]) keys []
    simp only [Param.valueBytes, paramStrings, paramElements]
    simp [u16be, Function.comp_def] at this ⊢
    omega
  case alpn ids =>
    have := foldl_length (fun a : Bytes => [lenU8 a.length] ++ a) 1 id (by intro a; simp) ids []
    simp only [Param.valueBytes, paramStrings, paramElements]
    simp [Function.comp_def] at this ⊢
    omega
  all_goals
    simp [Param.valueBytes, paramStrings, paramElements, u16be, u32be]
    try omega

theorem params_length {cfg : Cfg} : ∀ {ps : List Param} {b : Bytes}, Svcb.paramBytes cfg ps = .ok b →
    b.length ≤ 20 * ps.length + ((ps.flatMap paramStrings).map List.length).sum + 2 * (ps.map paramElements).sum := by
  intro ps
  induction ps with
  | nil => intro b h; cases h; simp
  | cons p ps ih =>
    intro b h
    obtain ⟨x, h1, h⟩ := Res.bind_eq_ok.mp h
    obtain ⟨y, h2, h⟩ := Res.bind_eq_ok.mp h
    cases h
    have h1 := param_length h1
    have h2 := ih h2
    simp only [List.length_append, List.length_cons, List.flatMap_cons, List.map_append, List.sum_append,
      List.map_cons, List.sum_cons] at h2 ⊢
    omega

/-- Octets of the names, written out. -/
def namesSize (ns : List Fqdn) : Nat := (ns.map (fun n => nameSize n + 2)).sum

theorem rdata_length {cfg : Cfg} {h : Hash} {d : RecordData} {names : Names} {offset : Nat} {x : Bytes × Names}
    (hx : d.toBytesCompressed cfg h names offset = .ok x) :
    x.1.length ≤ namesSize (rdataNames d) + 34 * rdataSize d + 64 := by
  have H := compressed_length h
  have N := name_length
  cases d
  case NSEC r =>
    simp only [RecordData.toBytesCompressed, Nsec.toBytesCompressed] at hx
    obtain ⟨b, h1, hx⟩ := Res.bind_eq_ok.mp hx
    cases hx
    have := bitmap_length h1
    have := H r.nextDomainName names offset
    simp [namesSize, rdataNames, rdataSize, Spec.rdataStrings, rdataElements]
    omega
  case CSYNC r =>
    simp only [RecordData.toBytesCompressed, Csync.toBytes] at hx
    obtain ⟨b, h1, hb⟩ := Res.bind_eq_ok.mp hx
    cases hb
    obtain ⟨c, h2, hc⟩ := Res.bind_eq_ok.mp h1
    cases hc
    have := bitmap_length h2
    simp [namesSize, rdataNames, rdataSize, Spec.rdataStrings, rdataElements, u32be, u16be]
    omega
  case SVCB r =>
    simp only [RecordData.toBytesCompressed, Svcb.toBytes] at hx
    obtain ⟨b, h1, hb⟩ := Res.bind_eq_ok.mp hx
    cases hb
    obtain ⟨c, h2, hc⟩ := Res.bind_eq_ok.mp h1
    cases hc
    have := params_length h2
    have := N r.targetName
    simp only [namesSize, rdataNames, rdataSize, Spec.rdataStrings, rdataElements, u16be, List.length_append,
      toBE_length, List.map_cons, List.map_nil, List.sum_cons, List.sum_nil]
    omega
  case TXT r =>
    cases hx
    have := foldl_length (fun a : Bytes => [lenU8 a.length] ++ a) 1 id (by intro a; simp) r.strings []
    simp [Txt.toBytes, namesSize, rdataNames, rdataSize, Spec.rdataStrings, rdataElements] at this ⊢
    omega
  case OPT r =>
    cases hx
    have := foldl_length (fun e : UInt16 × Bytes => u16be e.1 ++ u16be (lenU16 e.2.length) ++ e.2) 4 Prod.snd
      (by intro a; simp [u16be]; omega) r.options []
    simp [Opt.toBytes, namesSize, rdataNames, rdataSize, Spec.rdataStrings, rdataElements] at this ⊢
    omega
  case HIP r =>
    cases hx
    have := fun rs : List Fqdn => foldl_length (fun n : Fqdn => n.toBytes) 1 (fun n => List.replicate (nameSize n) 0)
      (by intro n; simp; exact N n) rs []
    have key : ∀ rs : List Fqdn, (((rs.map (fun n => List.replicate (nameSize n) (0 : UInt8))).map List.length).sum) +
        2 * rs.length = namesSize rs := by
      intro rs
      induction rs with
      | nil => rfl
      | cons n rs ih =>
        simp only [namesSize, List.map_cons, List.sum_cons, List.length_cons, List.length_replicate] at ih ⊢
        omega
    simp only [Hip.toBytes, rdataNames, rdataSize, Spec.rdataStrings, rdataElements, List.length_append, u16be, toBE_length,
      List.length_cons, List.length_nil, List.map_cons, List.map_nil, List.sum_cons, List.sum_nil]
    cases r.rendevousServer with
    | none => simp only [Option.getD_none, List.length_nil]; omega
    | some rs =>
      have h1 := this rs
      have h2 := key rs
      simp only [Option.getD_some, List.length_nil] at h1 ⊢
      omega
  case IPSECKEY r =>
    cases hx
    have hg : r.gateway.toBytes.length ≤ namesSize (rdataNames (.IPSECKEY r)) + 16 := by
      simp only [rdataNames]
      cases r.gateway with
      | none => simp [Gateway.toBytes]
      | ipV4 a => simp [Gateway.toBytes, u32be]
      | ipV6 a => simp [Gateway.toBytes]
      | domain n => have := N n; simp [Gateway.toBytes, namesSize]; omega
    simp only [IpSecKey.toBytes, rdataSize, Spec.rdataStrings, rdataElements, List.length_append,
      List.length_cons, List.length_nil, List.map_cons, List.map_nil, List.sum_cons, List.sum_nil]
    omega
  case NS r | CNAME r | PTR r =>
    cases hx
    refine Nat.le_trans (H _ names offset) ?_
    simp only [namesSize, rdataNames, List.map_cons, List.map_nil, List.sum_cons, List.sum_nil]
    omega
  case MX r =>
    cases hx
    have := H r.exchange names (offset + 2)
    simp only [Mx.toBytesCompressed, namesSize, rdataNames, List.map_cons, List.map_nil, List.sum_cons, List.sum_nil,
      List.length_append, u16be, toBE_length]
    omega
  case SRV r =>
    cases hx
    have := H r.target names (offset + 6)
    simp only [Srv.toBytesCompressed, namesSize, rdataNames, List.map_cons, List.map_nil, List.sum_cons, List.sum_nil,
      List.length_append, u16be, toBE_length]
    omega
  case NAPTR r =>
    cases hx
    have := H r.replacement names (offset + r.headBytes.length)
    simp only [Naptr.toBytesCompressed, namesSize, rdataNames, List.map_cons, List.map_nil, List.sum_cons, List.sum_nil,
      List.length_append, rdataSize, Spec.rdataStrings, rdataElements]
    have hh : r.headBytes.length = 7 + r.flags.length + r.service.length + r.regexp.length := by
      simp [Naptr.headBytes, u16be]
      omega
    omega
  case SOA r =>
    cases hx
    have h1 := H r.mname names offset
    have h2 := H r.rname (r.mname.toBytesCompressed h names offset).2
      (offset + (r.mname.toBytesCompressed h names offset).1.length)
    simp only [Soa.toBytesCompressed, namesSize, rdataNames, List.map_cons, List.map_nil, List.sum_cons, List.sum_nil,
      List.length_append, u32be, toBE_length]
    omega
  case MINFO r =>
    cases hx
    have h1 := H r.rmailbx names offset
    have h2 := H r.emailbx (r.rmailbx.toBytesCompressed h names offset).2
      (offset + (r.rmailbx.toBytesCompressed h names offset).1.length)
    simp only [Minfo.toBytesCompressed, namesSize, rdataNames, List.map_cons, List.map_nil, List.sum_cons, List.sum_nil,
      List.length_append]
    omega
  case APL r =>
    cases hx
    obtain ⟨pr, n, afd⟩ := r
    cases afd <;> simp [Apl.toBytes, Afd.toBytes, u16be, u32be]
  case RRSIG r =>
    cases hx
    have := N r.signersName
    simp [Rrsig.toBytes, namesSize, rdataNames, rdataSize, Spec.rdataStrings, rdataElements, u16be, u32be]
    omega
  case TKEY r =>
    cases hx
    have := N r.algorithm
    simp [Tkey.toBytes, namesSize, rdataNames, rdataSize, Spec.rdataStrings, rdataElements, u16be, u32be]
    omega
  case TSIG r =>
    cases hx
    have := N r.algorithm
    simp [Tsig.toBytes, namesSize, rdataNames, rdataSize, Spec.rdataStrings, rdataElements, u16be, u64be]
    omega
  all_goals
    cases hx
    simp [A.toBytes, Null.toBytes, Wks.toBytes, Hinfo.toBytes, Aaaa.toBytes, Loc.toBytes, Ds.toBytes, Sshfp.toBytes,
      DnsKey.toBytes, Dhcid.toBytes, Tlsa.toBytes, OpenPgpKey.toBytes, Eui48.toBytes, Eui64.toBytes, Uri.toBytes,
      Caa.toBytes, rdataSize, Spec.rdataStrings, rdataElements, u16be, u32be]
    try omega

theorem record_length {cfg : Cfg} {h : Hash} {r : ResourceRecord} {names : Names} {offset : Nat} {x : Bytes × Names}
    (hx : r.toBytesCompressed cfg h names offset = .ok x) :
    x.1.length ≤ namesSize (r.name :: rdataNames r.rdata) + 34 * rdataSize r.rdata + 74 := by
  simp only [ResourceRecord.toBytesCompressed] at hx
  obtain ⟨y, h1, h2⟩ := Res.bind_eq_ok.mp hx
  cases h2
  have h3 := rdata_length h1
  have h4 := compressed_length h r.name names offset
  simp only [ResourceRecord.headCompressed, namesSize, List.map_cons, List.sum_cons, List.length_append, u16be, u32be,
    toBE_length] at h3 ⊢
  omega

theorem questions_length {cfg : Cfg} {h : Hash} : ∀ (qs : List Question) (names : Names) (bin : Bytes),
    (Packet.questionsCompressed cfg h qs names bin).1.length ≤
      bin.length + namesSize (qs.map Question.qName) + 74 * (qs.map Question.qName).length := by
  intro qs
  induction qs with
  | nil => intro names bin; simp [Packet.questionsCompressed, namesSize]
  | cons q qs ih =>
    intro names bin
    have h1 := compressed_length h q.qName names bin.length
    have h2 := ih (q.toBytesCompressed cfg h names bin.length).2
      (bin ++ (q.toBytesCompressed cfg h names bin.length).1)
    simp only [Packet.questionsCompressed]
    refine Nat.le_trans h2 ?_
    simp only [Question.toBytesCompressed, namesSize, List.map_cons, List.sum_cons, List.length_append, u16be,
      toBE_length, List.length_cons, Nat.mul_add]
    omega

theorem namesSize_append (a b : List Fqdn) : namesSize (a ++ b) = namesSize a + namesSize b := by
  simp [namesSize]

theorem records_length {cfg : Cfg} {h : Hash} : ∀ (rs : List ResourceRecord) (names : Names) (bin : Bytes)
    (x : Bytes × Names), Packet.recordsCompressed cfg h rs names bin = .ok x →
    x.1.length ≤ bin.length + namesSize (rs.flatMap (fun r => r.name :: rdataNames r.rdata)) +
      34 * (rs.map (fun r => rdataSize r.rdata)).sum +
      74 * (rs.flatMap (fun r => r.name :: rdataNames r.rdata)).length := by
  intro rs
  induction rs with
  | nil => intro names bin x h; cases h; simp [namesSize]
  | cons r rs ih =>
    intro names bin x hx
    obtain ⟨y, h1, h2⟩ := Res.bind_eq_ok.mp hx
    have h3 := record_length h1
    have h4 := ih _ _ _ h2
    simp only [List.flatMap_cons, namesSize_append, List.map_cons, List.sum_cons, List.length_append, List.length_cons,
      Nat.mul_add] at h4 ⊢
    omega

theorem packet_length {cfg : Cfg} {h : Hash} {p : Packet} {out : Bytes} (hp : p.toBytesCompressed cfg h = .ok out) :
    out.length ≤ 12 + namesSize (packetNames p) + 34 * ((records p).map (fun r => rdataSize r.rdata)).sum +
      74 * (packetNames p).length := by
  simp only [Packet.toBytesCompressed] at hp
  obtain ⟨x, h1, hp1⟩ := Res.bind_eq_ok.mp hp
  obtain ⟨y, h2, hp2⟩ := Res.bind_eq_ok.mp hp1
  obtain ⟨z, h3, hp3⟩ := Res.bind_eq_ok.mp hp2
  cases hp3
  have q0 := questions_length (cfg := cfg) (h := h) p.questions Names.empty p.header.toBytes
  have q1 := records_length _ _ _ _ h1
  have q2 := records_length _ _ _ _ h2
  have q3 := records_length _ _ _ _ h3
  have hb : p.header.toBytes.length = 12 := by simp [Header.toBytes, u16be]
  simp only [packetNames, records, List.flatMap_append, List.map_append, List.sum_append, List.length_append,
    namesSize_append, Nat.mul_add]
  omega

end Timed
end Dns
