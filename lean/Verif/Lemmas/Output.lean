import Verif.Spec.Output
import Verif.Lemmas.Monad
import Verif.Lemmas.NameWrite

/-! Lemmas about the output (C102). -/

namespace Dns
open Spec

namespace Out
variable {α β : Type}

/-- The lines that get through and whether all did. -/
def pass (o : Stdout) : List Line → List Line → Bool × List Line
  | b, [] => (true, b)
  | b, l :: ls => if o b l then pass o (b ++ [l]) ls else (false, b)

theorem pass_append (o : Stdout) (b l m : List Line) :
    pass o b (l ++ m) = match pass o b l with
      | (true, b') => pass o b' m
      | (false, b') => (false, b') := by
  induction l generalizing b with
  | nil => rfl
  | cons x xs ih =>
    simp only [List.cons_append, pass]
    split
    · exact ih _
    · rfl

/-- The computation prints `lines` and then ends with `r`, unless a line is refused. -/
def Does (m : Out α) (r : Res α) (lines : List Line) : Prop :=
  ∀ o b, m o b = match pass o b lines with
    | (true, b') => (.returned r, b')
    | (false, b') => (.printFailed, b')

/-- The computation ends with `r`; it prints all of `lines` before it returns normally, otherwise a part
from the start. -/
def Writes (m : Out α) (r : Res α) (all : List Line) : Prop :=
  ∃ lines, lines <+: all ∧ (∀ a, r = .ok a → lines = all) ∧ Does m r lines

theorem bind_apply (m : Out α) (f : α → Out β) (o : Stdout) (ls : List Line) :
    (m >>= f) o ls = match m o ls with
      | (.returned (.ok a), ls) => f a o ls
      | (.returned (.err e), ls) => (.returned (.err e), ls)
      | (.returned (.panic k), ls) => (.returned (.panic k), ls)
      | (.returned .hang, ls) => (.returned .hang, ls)
      | (.printFailed, ls) => (.printFailed, ls) := rfl

theorem Writes.lift (r : Res α) : Writes (lift r) r [] :=
  ⟨[], List.prefix_refl _, fun _ _ => rfl, fun _ _ => rfl⟩

theorem Writes.pure (a : α) : Writes (pure a : Out α) (.ok a) [] := Writes.lift _

theorem Writes.println (l : Line) : Writes (println l) (.ok ()) [l] := by
  refine ⟨[l], List.prefix_refl _, fun _ _ => rfl, fun o b => ?_⟩
  simp only [Out.println, pass]
  split <;> rfl

theorem Writes.bind {m : Out α} {f : α → Out β} {r : Res α} {g : α → Res β} {l1 l2 : List Line}
    (h1 : Writes m r l1) (h2 : ∀ a, r = .ok a → Writes (f a) (g a) l2) :
    Writes (m >>= f) (r >>= g) (l1 ++ l2) := by
  obtain ⟨p1, a1, b1, c1⟩ := h1
  cases r with
  | ok a =>
    obtain ⟨p2, a2, b2, c2⟩ := h2 a rfl
    obtain rfl := b1 a rfl
    refine ⟨p1 ++ p2, List.prefix_append_right_inj _ |>.mpr a2, fun c hc => ?_, fun o b => ?_⟩
    · rw [b2 c hc]
    · rw [bind_apply, c1 o b, pass_append]
      rcases pass o b p1 with ⟨_ | _, b'⟩
      · rfl
      · exact c2 o b'
  | err e =>
    refine ⟨p1, a1.trans (List.prefix_append _ _), fun c hc => (by cases hc), fun o b => ?_⟩
    rw [bind_apply, c1 o b]
    rcases pass o b p1 with ⟨_ | _, b'⟩ <;> rfl
  | panic e =>
    refine ⟨p1, a1.trans (List.prefix_append _ _), fun c hc => (by cases hc), fun o b => ?_⟩
    rw [bind_apply, c1 o b]
    rcases pass o b p1 with ⟨_ | _, b'⟩ <;> rfl
  | hang =>
    refine ⟨p1, a1.trans (List.prefix_append _ _), fun c hc => (by cases hc), fun o b => ?_⟩
    rw [bind_apply, c1 o b]
    rcases pass o b p1 with ⟨_ | _, b'⟩ <;> rfl

theorem Writes.map {m : Out α} {f : α → β} {r : Res α} {l : List Line} (h : Writes m r l) :
    Writes (m >>= fun a => Pure.pure (f a)) (r >>= fun a => Pure.pure (f a)) l := by
  have := Writes.bind h (f := fun a => Pure.pure (f a)) (g := fun a => Pure.pure (f a)) (l2 := [])
    (fun a _ => Writes.pure _)
  rwa [List.append_nil] at this

/-- Nothing to print: as without output. -/
theorem Writes.silent {m : Out α} {r : Res α} (h : Writes m r []) (o : Stdout) (b : List Line) :
    m o b = (.returned r, b) := by
  obtain ⟨p, h1, -, h3⟩ := h
  rw [List.prefix_nil.mp h1] at h3
  exact h3 o b

theorem pass_accepts {o : Stdout} {b lines : List Line}
    (h : ∀ k l, lines[k]? = some l → o (b ++ lines.take k) l = true) : pass o b lines = (true, b ++ lines) := by
  induction lines generalizing b with
  | nil => simp [pass]
  | cons x xs ih =>
    have h0 := h 0 x rfl
    simp only [List.take_zero, List.append_nil] at h0
    simp only [pass, h0, if_true]
    rw [ih (fun k l hk => by simpa using h (k + 1) l (by simpa using hk))]
    simp

theorem Writes.accepted {m : Out α} {a : α} {lines : List Line} (h : Writes m (.ok a) lines) {o : Stdout}
    (ho : Takes o lines) : m o [] = (.returned (.ok a), lines) := by
  obtain ⟨p, -, h2, h3⟩ := h
  obtain rfl := h2 a rfl
  rw [h3, pass_accepts (by simpa [Takes] using ho)]
  rfl

theorem Writes.refused {m : Out α} {a : α} {lines : List Line} (h : Writes m (.ok a) lines) {o : Stdout}
    {k : Nat} (ho : RefusesAt o lines k) : m o [] = (.printFailed, lines.take k) := by
  obtain ⟨p, -, h2, h3⟩ := h
  obtain rfl := h2 a rfl
  obtain ⟨h4, l, h5, h6⟩ := ho
  rw [h3]
  have e : p = p.take k ++ l :: p.drop (k + 1) := by
    obtain ⟨hk, e⟩ := List.getElem?_eq_some_iff.mp h5
    rw [← e, ← List.drop_eq_getElem_cons hk, List.take_append_drop]
  rw [congrArg (pass o []) e, pass_append, pass_accepts (fun j l hj => by simpa using h4 j l hj)]
  simp [pass, h6]

/-- Either everything is accepted or there is a first line that is not. -/
theorem accepts_or (o : Stdout) (lines : List Line) : Takes o lines ∨ ∃ k, RefusesAt o lines k := by
  induction lines using List.reverseRecOn with
  | nil => left; intro k l h; simp at h
  | append_singleton xs x ih =>
    rcases ih with ih | ⟨k, h1, l, h2, h3⟩
    · cases hx : o xs x with
      | true =>
        left
        intro k l h
        rcases Nat.lt_trichotomy k xs.length with hk | hk | hk
        · rw [List.getElem?_append_left hk] at h
          rw [List.take_append_of_le_length hk.le]
          exact ih k l h
        · subst hk
          simp only [List.getElem?_concat_length, Option.some.injEq] at h
          simpa [← h] using hx
        · rw [List.getElem?_eq_none (by simp; omega)] at h
          cases h
      | false =>
        right
        refine ⟨xs.length, by simpa using ih, x, by simp, by simpa using hx⟩
    · right
      have hk : k < xs.length := (List.getElem?_eq_some_iff.mp h2).1
      refine ⟨k, ?_, l, ?_, ?_⟩
      · rwa [List.take_append_of_le_length hk.le]
      · rwa [List.getElem?_append_left hk]
      · rwa [List.take_append_of_le_length hk.le]

end Out

/-- The line of the model. -/
def tsigText (r : Tsig) : Line := "Test: ".toList ++ debugBytes r.algorithm.toBytes

/-- The lines for a list of data. -/
def dataLines (ds : List RecordData) : List Line := (tsigs ds).map tsigText

theorem dataLines_cons (d : RecordData) (ds : List RecordData) :
    dataLines (d :: ds) = dataLines [d] ++ dataLines ds := by
  cases d <;> rfl

theorem dataLines_append (ds es : List RecordData) : dataLines (ds ++ es) = dataLines ds ++ dataLines es := by
  simp [dataLines, tsigs]

theorem Tsig.toBytesOut_writes (r : Tsig) : Out.Writes r.toBytesOut (.ok r.toBytes) [tsigText r] := by
  have := Out.Writes.bind (Out.Writes.println (tsigText r)) (f := fun _ => pure r.toBytes)
    (g := fun _ => Res.ok r.toBytes) (l2 := []) (fun _ _ => Out.Writes.pure _)
  exact this

theorem RecordData.toBytesOut_writes (cfg : Cfg) (d : RecordData) :
    Out.Writes (d.toBytesOut cfg) (d.toBytes cfg) (dataLines [d]) := by
  cases d with
  | TSIG r => exact Tsig.toBytesOut_writes r
  | _ => exact Out.Writes.lift _

theorem RecordData.toBytesCompressedOut_writes (cfg : Cfg) (h : Hash) (d : RecordData) (names : Names)
    (offset : Nat) :
    Out.Writes (d.toBytesCompressedOut cfg h names offset) (d.toBytesCompressed cfg h names offset)
      (dataLines [d]) := by
  cases d with
  | TSIG r => exact Out.Writes.map (f := fun b => (b, names)) (Tsig.toBytesOut_writes r)
  | _ => exact Out.Writes.lift _

theorem RecordData.byteSizeCompressedOut_writes (cfg : Cfg) (h : Hash) (d : RecordData) (names : Names)
    (offset : Nat) :
    Out.Writes (d.byteSizeCompressedOut cfg h names offset) (d.byteSizeCompressed cfg h names offset)
      (dataLines [d]) :=
  Out.Writes.map (RecordData.toBytesCompressedOut_writes cfg h d names offset)

namespace ResourceRecord

theorem toBytesOut_writes (cfg : Cfg) (r : ResourceRecord) :
    Out.Writes (r.toBytesOut cfg) (r.toBytes cfg) (dataLines [r.rdata]) := by
  have := Out.Writes.bind (Out.Writes.lift (r.rdata.byteSize cfg))
    (l2 := dataLines [r.rdata])
    (fun size _ => Out.Writes.map (f := fun data => r.name.toBytes ++ u16be r.type.toU16 ++
      u16be (r.classBits cfg) ++ u32be r.ttl ++ u16be (lenU16 size) ++ data)
      (RecordData.toBytesOut_writes cfg r.rdata))
  exact this

theorem toBytesCompressedOut_writes (cfg : Cfg) (h : Hash) (r : ResourceRecord) (names : Names)
    (offset : Nat) :
    Out.Writes (r.toBytesCompressedOut cfg h names offset) (r.toBytesCompressed cfg h names offset)
      (dataLines [r.rdata]) :=
  Out.Writes.map (RecordData.toBytesCompressedOut_writes cfg h r.rdata _ _)

theorem byteSizeCompressedOut_writes (cfg : Cfg) (h : Hash) (r : ResourceRecord) (names : Names)
    (offset : Nat) :
    Out.Writes (r.byteSizeCompressedOut cfg h names offset) (r.byteSizeCompressed cfg h names offset)
      (dataLines [r.rdata]) :=
  Out.Writes.map (RecordData.byteSizeCompressedOut_writes cfg h r.rdata _ _)

end ResourceRecord

namespace Packet

theorem recordsBytesOut_writes (cfg : Cfg) (rs : List ResourceRecord) (bin : Bytes) :
    Out.Writes (recordsBytesOut cfg rs bin) (recordsBytes cfg rs bin) (dataLines (rs.map (·.rdata))) := by
  induction rs generalizing bin with
  | nil => exact Out.Writes.pure _
  | cons r rs ih =>
    rw [List.map_cons, dataLines_cons]
    exact Out.Writes.bind (ResourceRecord.toBytesOut_writes cfg r) (fun b _ => ih _)

theorem recordsCompressedOut_writes (cfg : Cfg) (h : Hash) (rs : List ResourceRecord) (names : Names)
    (bin : Bytes) :
    Out.Writes (recordsCompressedOut cfg h rs names bin) (recordsCompressed cfg h rs names bin)
      (dataLines (rs.map (·.rdata))) := by
  induction rs generalizing names bin with
  | nil => exact Out.Writes.pure _
  | cons r rs ih =>
    rw [List.map_cons, dataLines_cons]
    exact Out.Writes.bind (ResourceRecord.toBytesCompressedOut_writes cfg h r _ _) (fun b _ => ih _ _)

/-- The data of all records in the order in which they are written. -/
theorem dataLines_records (p : Packet) : dataLines ((records p).map (·.rdata)) =
    dataLines (p.answers.map (·.rdata)) ++ (dataLines (p.authorities.map (·.rdata)) ++
      dataLines (p.additional.map (·.rdata))) := by
  simp [records, dataLines_append]

theorem toBytesOut_writes (cfg : Cfg) (p : Packet) :
    Out.Writes (p.toBytesOut cfg) (p.byteSize cfg >>= fun _ => p.toBytes cfg)
      (dataLines ((records p).map (·.rdata))) := by
  rw [dataLines_records, ← List.nil_append (dataLines _ ++ _)]
  exact Out.Writes.bind (Out.Writes.lift _) fun _ _ =>
    Out.Writes.bind (recordsBytesOut_writes cfg _ _) fun _ _ =>
      Out.Writes.bind (recordsBytesOut_writes cfg _ _) fun _ _ => recordsBytesOut_writes cfg _ _

theorem toBytesCompressedOut_writes (cfg : Cfg) (h : Hash) (p : Packet) :
    Out.Writes (p.toBytesCompressedOut cfg h) (p.toBytesCompressed cfg h)
      (dataLines ((records p).map (·.rdata))) := by
  rw [dataLines_records]
  exact Out.Writes.bind (recordsCompressedOut_writes cfg h _ _ _) fun _ _ =>
    Out.Writes.bind (recordsCompressedOut_writes cfg h _ _ _) fun _ _ =>
      Out.Writes.map (f := fun x : Bytes × Names => x.1) (recordsCompressedOut_writes cfg h _ _ _)

theorem recordsBytes_size {cfg : Cfg} {rs : List ResourceRecord} {bin b : Bytes}
    (h : recordsBytes cfg rs bin = .ok b) (s : Nat) : ∃ n, recordsSize cfg rs s = .ok n := by
  induction rs generalizing bin s with
  | nil => exact ⟨s, rfl⟩
  | cons r rs ih =>
    obtain ⟨x, h1, h2⟩ := Res.bind_eq_ok.mp h
    obtain ⟨n, h3, -⟩ := Res.bind_eq_ok.mp h1
    obtain ⟨m, h4⟩ := ih h2 (s + (r.name.byteSize + 2 + 2 + 4 + 2 + n))
    refine ⟨m, Res.bind_eq_ok.mpr ⟨_, Res.bind_eq_ok.mpr ⟨n, h3, rfl⟩, h4⟩⟩

/-- A packet that can be written has a size. -/
theorem toBytes_size {cfg : Cfg} {p : Packet} {b : Bytes} (h : p.toBytes cfg = .ok b) :
    ∃ n, p.byteSize cfg = .ok n := by
  obtain ⟨x, h1, h2⟩ := Res.bind_eq_ok.mp h
  obtain ⟨y, h3, h4⟩ := Res.bind_eq_ok.mp h2
  obtain ⟨n1, k1⟩ := recordsBytes_size h1 (p.questions.foldl (fun s q => s + q.byteSize) Header.SIZE)
  obtain ⟨n2, k2⟩ := recordsBytes_size h3 n1
  obtain ⟨n3, k3⟩ := recordsBytes_size h4 n2
  exact ⟨n3, Res.bind_eq_ok.mpr ⟨n1, k1, Res.bind_eq_ok.mpr ⟨n2, k2, k3⟩⟩⟩

theorem sizes_then_bytes {cfg : Cfg} {p : Packet} {b : Bytes} :
    (p.byteSize cfg >>= fun _ => p.toBytes cfg) = .ok b ↔ p.toBytes cfg = .ok b := by
  constructor
  · intro h
    obtain ⟨n, -, h2⟩ := Res.bind_eq_ok.mp h
    exact h2
  · intro h
    obtain ⟨n, hn⟩ := toBytes_size h
    exact Res.bind_eq_ok.mpr ⟨n, hn, h⟩

end Packet

namespace RRSet

theorem collectOut_writes (cfg : Cfg) (search : Search) (rs : List RecordData) (acc : List Bytes) :
    Out.Writes (collectOut cfg search rs acc) (collect cfg search rs acc) (dataLines rs) := by
  induction rs generalizing acc with
  | nil => exact Out.Writes.pure _
  | cons r rs ih =>
    rw [dataLines_cons]
    exact Out.Writes.bind (RecordData.toBytesOut_writes cfg r) (fun b _ => ih _)

theorem toBytesOut_writes (cfg : Cfg) (search : Search) (s : RRSet) :
    Out.Writes (s.toBytesOut cfg search) (s.toBytes cfg search) (dataLines s.records) :=
  Out.Writes.map (collectOut_writes cfg search _ _)

end RRSet

namespace Rrsig

theorem fromDnsKeyOut_writes (cfg : Cfg) (c : Crypto) (search : Search) (k : DnsKey) (set : RRSet)
    (inc exp : SysTime) (priv : Bytes) :
    Out.Writes (fromDnsKeyOut cfg c search k set inc exp priv) (fromDnsKey cfg c search k set inc exp priv)
      (dataLines set.records) := by
  rw [← List.nil_append (dataLines _)]
  refine Out.Writes.bind (Out.Writes.lift _) fun _ _ => ?_
  rw [← List.nil_append (dataLines _)]
  refine Out.Writes.bind (Out.Writes.lift _) fun _ _ => ?_
  rw [← List.nil_append (dataLines _)]
  refine Out.Writes.bind (Out.Writes.lift _) fun _ _ => ?_
  rw [← List.append_nil (dataLines _)]
  exact Out.Writes.bind (RRSet.toBytesOut_writes cfg search set) fun s _ => Out.Writes.map (Out.Writes.lift _)

theorem verifyOut_writes (cfg : Cfg) (c : Crypto) (search : Search) (r : Rrsig) (k : DnsKey) (set : RRSet)
    (h : r.algorithm = k.algorithm) :
    Out.Writes (verifyOut cfg c search r k set) (verify cfg c search r k set) (dataLines set.records) := by
  rw [verifyOut, verify, if_neg (by simpa using h), if_neg (by simpa using h),
    ← List.append_nil (dataLines _)]
  exact Out.Writes.bind (RRSet.toBytesOut_writes cfg search set) fun s _ => Out.Writes.lift _

end Rrsig

/-- The digits of an octet are its decimal representation. -/
theorem decimal_octet (b : UInt8) : Decimal (Nat.toDigits 10 b.toNat) b.toNat := by
  have h : ∀ n : Fin 256, (Nat.toDigits 10 n.val ≠ [] ∧
      (∀ c ∈ Nat.toDigits 10 n.val, '0' ≤ c ∧ c ≤ '9') ∧
      ((Nat.toDigits 10 n.val).head? = some '0' → Nat.toDigits 10 n.val = ['0']) ∧
      (Nat.toDigits 10 n.val).foldl (fun v c => v * 10 + (c.toNat - 48)) 0 = n.val) := by
    decide +kernel
  exact h ⟨b.toNat, b.toNat_lt⟩

theorem tsigText_line {r : Tsig} (h : r.algorithm.toBytes = nameOctets r.algorithm) :
    LineOf r (tsigText r) := by
  refine ⟨(nameOctets r.algorithm).map (fun x => Nat.toDigits 10 x.toNat), ?_, ?_⟩
  · rw [List.forall₂_map_left_iff]
    exact List.forall₂_same.mpr (fun b _ => decimal_octet b)
  · rw [tsigText, debugBytes, h]
    rfl

end Dns
