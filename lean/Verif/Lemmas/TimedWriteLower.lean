import Verif.Lemmas.TimedWrite

/-!
Steps of the compressing writer, from below: each octet is written and copied.
-/

namespace Dns
open Spec Buf
namespace Timed

theorem length_u16be (v : UInt16) : (u16be v).length = 2 := by simp [u16be]

theorem length_u32be (v : UInt32) : (u32be v).length = 4 := by simp [u32be]

theorem nameCompressed_lower (h : Hash) : ∀ (n : Fqdn) (names : Names) (offset : Nat),
    (nameCompressed h n names offset).1.1.length ≤ (nameCompressed h n names offset).2 := by
  intro n
  induction n with
  | nil => intro names offset; exact Nat.le_refl _
  | cons l ls ih =>
    intro names offset
    simp only [nameCompressed]
    cases names (h (l :: ls)) with
    | some v => simp [u16be]
    | none =>
      have := ih (names.insert (h (l :: ls)) offset) (offset + (l.length + 1))
      simp only [List.length_cons, List.length_append]
      omega

theorem others_lower {r : Res (Bytes × Names)} {k t : Nat} {x : Bytes × Names} (h : others r k = (.ok x, t)) :
    x.1.length ≤ t := by
  unfold others at h
  cases r <;> cases h
  simp only
  omega

theorem rdataCompressed_lower {cfg : Cfg} {h : Hash} {d : RecordData} {names : Names} {offset t : Nat}
    {x : Bytes × Names} (hr : rdataCompressed cfg h d names offset = (.ok x, t)) : x.1.length ≤ t := by
  cases d
  case NS r => cases hr; exact nameCompressed_lower ..
  case CNAME r => cases hr; exact nameCompressed_lower ..
  case PTR r => cases hr; exact nameCompressed_lower ..
  case MX r =>
    cases hr
    have := nameCompressed_lower h r.exchange names (offset + 2)
    simp only [List.length_append, length_u16be]
    omega
  case SRV r =>
    cases hr
    simp only [List.length_append, length_u16be]
    omega
  case SOA r =>
    cases hr
    simp only [List.length_append, length_u32be]
    omega
  case MINFO r =>
    cases hr
    simp only [List.length_append]
    omega
  case NAPTR r =>
    cases hr
    simp only [List.length_append]
    omega
  case NSEC r =>
    simp only [rdataCompressed] at hr
    cases hb : Bitmap.toBytes cfg r.types <;> rw [hb] at hr <;> cases hr
    simp only [List.length_append]
    omega
  all_goals exact others_lower hr

theorem recordCompressed_lower {cfg : Cfg} {h : Hash} {r : ResourceRecord} {names : Names} {offset t : Nat}
    {x : Bytes × Names} (hr : recordCompressed cfg h r names offset = (.ok x, t)) : x.1.length ≤ t := by
  simp only [recordCompressed] at hr
  rcases hd : rdataCompressed cfg h r.rdata _ _ with ⟨y, u⟩
  rw [hd] at hr
  cases y <;> cases hr
  have := rdataCompressed_lower hd
  simp only [List.length_append, length_u16be, length_u32be]
  omega

theorem questionsCompressed_lower (cfg : Cfg) (h : Hash) : ∀ (qs : List Question) (names : Names) (bin : Bytes),
    2 * (questionsCompressed cfg h qs names bin).1.1.length ≤
      2 * bin.length + (questionsCompressed cfg h qs names bin).2 := by
  intro qs
  induction qs with
  | nil => intro names bin; simp [questionsCompressed]
  | cons q qs ih =>
    intro names bin
    simp only [questionsCompressed]
    have h1 := ih (questionCompressed cfg h q names bin.length).1.2 (bin ++ (questionCompressed cfg h q names bin.length).1.1)
    have h2 : (questionCompressed cfg h q names bin.length).1.1.length ≤ (questionCompressed cfg h q names bin.length).2 := by
      simp only [questionCompressed, List.length_append, length_u16be]
      omega
    rw [List.length_append] at h1
    omega

theorem recordsCompressed_lower {cfg : Cfg} {h : Hash} : ∀ (rs : List ResourceRecord) (names : Names) (bin : Bytes)
    (x : Bytes × Names) (t : Nat), recordsCompressed cfg h rs names bin = (.ok x, t) →
    2 * x.1.length ≤ 2 * bin.length + t := by
  intro rs
  induction rs with
  | nil => intro names bin x t hr; cases hr; simp
  | cons r rs ih =>
    intro names bin x t hr
    unfold recordsCompressed at hr
    rcases hd : recordCompressed cfg h r names bin.length with ⟨y, u⟩
    rw [hd] at hr
    cases y with
    | ok y =>
      have h1 := recordCompressed_lower hd
      rcases hs : recordsCompressed cfg h rs y.2 (bin ++ y.1) with ⟨z, v⟩
      simp only [hs, Prod.mk.injEq] at hr
      obtain ⟨rfl, rfl⟩ := hr
      have h2 := ih y.2 (bin ++ y.1) x _ hs
      rw [List.length_append] at h2
      omega
    | err e => cases hr
    | panic k => cases hr
    | hang => cases hr

theorem packetCompressed_lower {cfg : Cfg} {h : Hash} {p : Packet} {out : Bytes}
    (hp : p.toBytesCompressed cfg h = .ok out) : 2 * out.length ≤ (packetCompressed cfg h p).2 + 12 := by
  rw [← packetCompressed_fst] at hp
  simp only [packetCompressed] at hp ⊢
  obtain ⟨x, hx, hb⟩ := Res.bind_eq_ok.mp hp
  cases hb
  generalize hz : andThen _ _ = z at hx ⊢
  obtain ⟨z1, t⟩ := z
  simp only at hx
  subst hx
  obtain ⟨y2, t2, t3, hy, h3, rfl⟩ := andThen_ok hz
  obtain ⟨y1, t1, t2, h1, h2, rfl⟩ := andThen_ok hy
  have q0 := questionsCompressed_lower cfg h p.questions Names.empty p.header.toBytes
  have q1 := recordsCompressed_lower _ _ _ _ _ h1
  have q2 := recordsCompressed_lower _ _ _ _ _ h2
  have q3 := recordsCompressed_lower _ _ _ _ _ h3
  have hb : p.header.toBytes.length = 12 := by simp [Header.toBytes, u16be]
  omega

end Timed
end Dns
