import Verif.Props.Canonical
import Verif.Props.Dnssec
import Verif.Props.Exactly
import Verif.Props.Conform

/-!
C54, exactly; C77: which fields of signatures and keys `verify` does not look at; C88, exactly.
-/

namespace Dns
open Spec

/-- C54, exactly: the field for the inception is right (the seconds since the epoch modulo 2^32, as RFC 4034
demands; times are in nanoseconds) if and only if the milliseconds since the epoch are congruent to the seconds. -/
theorem C54_inception_exact (cfg : Cfg) (c : Crypto) (search : Search) (k : DnsKey) (set : RRSet)
    (inception expiration : SysTime) (priv : Bytes) (r : Rrsig)
    (h : Rrsig.fromDnsKey cfg c search k set inception expiration priv = .ok r) :
    (r.sigInception.toNat : Int) = inception / 1000000000 % 2 ^ 32 ↔
      (2 ^ 32 : Int) ∣ inception / 1000000 - inception / 1000000000 := by
  obtain ⟨-, -, h1, -⟩ := C54_times_partial cfg c search k set inception expiration priv r h
  rw [h1]
  constructor
  · intro h; exact Int.dvd_of_emod_eq_zero (by omega)
  · intro h; have := Int.emod_eq_zero_of_dvd h; omega

/-- C54: if the times are whole seconds, the fields are right only if these are multiples of 2^32, that is, at the
epoch, on 7 February 2106, and so on. -/
theorem C54_whole_seconds (cfg : Cfg) (c : Crypto) (search : Search) (k : DnsKey) (set : RRSet)
    (s t : Nat) (priv : Bytes) (r : Rrsig)
    (h : Rrsig.fromDnsKey cfg c search k set (s * 1000000000 : Int) (t * 1000000000 : Int) priv = .ok r) :
    (r.sigInception.toNat = s % 2 ^ 32 ↔ s % 2 ^ 32 = 0) ∧ (r.sigExpiration.toNat = t % 2 ^ 32 ↔ t % 2 ^ 32 = 0) := by
  obtain ⟨-, -, h1, h2⟩ := C54_times_partial cfg c search k set _ _ priv r h
  constructor <;> omega
example : ∃ r, Rrsig.fromDnsKey ⟨true, true, true⟩ exCrypto exSearch (exKey .ED448) exSet
      ((1700000000 : Nat) * 1000000000 : Int) ((4294967296 : Nat) * 1000000000 : Int) [] = .ok r ∧
    r.sigInception.toNat = 3487918080 ∧ r.sigExpiration.toNat = 0 :=
  Res.exists_ok (by decide +kernel)

/-- C77 is false for every set, every key that can sign, and every content of the fields of the signature: whoever has
the key can make a signature with these fields that `verify` accepts, also with a key that is marked as not a zone key
and has another protocol.  So none of the conditions of RFC 4035, section 5.3.1, is checked, but for the algorithm. -/
theorem C77_checks_nothing (cfg : Cfg) (c : Crypto) (search : Search) (hs : search.Valid) (k : DnsKey)
    (set : RRSet) (out : Bytes) (ho : SortedRecords cfg set out) (hn : ∀ l ∈ set.name, l ≠ [])
    (sign : Bytes → Bytes) (hk : ∀ m, Accepts c k.algorithm k.publicKey m (sign m))
    (r : Rrsig) (ha : r.algorithm = k.algorithm) (hr : ∀ l ∈ r.signersName, l ≠ []) :
    ∃ s, ∀ zone sep protocol, Rrsig.verify cfg c search { r with signature := s }
      { k with zoneKey := zone, secureEntryPoint := sep, protocol := protocol } set = .ok true := by
  refine ⟨sign (rrsigOctets r ++ out), fun zone sep protocol => ?_⟩
  refine (C53_accepted cfg c search hs { r with signature := sign (rrsigOctets r ++ out) }
    { k with zoneKey := zone, secureEntryPoint := sep, protocol := protocol } set hn hr).mpr ⟨ha, out, ho, ?_⟩
  show Accepts c r.algorithm k.publicKey (rrsigOctets r ++ out) (sign (rrsigOctets r ++ out))
  rw [ha]
  exact hk _

example : exSearch.Valid ∧ SortedRecords ⟨true, true, true⟩ exSet [1, 97, 0, 0, 1, 0, 1, 0, 0, 0, 60, 0, 4, 1, 0, 0, 0,
      1, 97, 0, 0, 1, 0, 1, 0, 0, 0, 60, 0, 4, 2, 0, 0, 0] ∧
    ∀ m, Accepts exCrypto .ED25519 (exKey .ED25519).publicKey m m := by
  refine ⟨exSearch_valid, ⟨[[1, 0, 0, 0], [2, 0, 0, 0]], List.Perm.swap _ _ _, ?_, by decide +kernel⟩,
    fun m => by simp [Accepts, exCrypto]⟩
  simp only [List.pairwise_cons, List.mem_singleton, forall_eq, List.not_mem_nil, IsEmpty.forall_iff,
    implies_true, List.Pairwise.nil, and_self, and_true]
  exact Or.inl (List.Lex.rel (by decide))

/-- C77: in particular the result does not depend on the flags and the protocol of the key, whatever it is. -/
theorem C77_key_flags (cfg : Cfg) (c : Crypto) (search : Search) (r : Rrsig) (k : DnsKey) (set : RRSet)
    (zone sep : Bool) (protocol : UInt8) :
    Rrsig.verify cfg c search r { k with zoneKey := zone, secureEntryPoint := sep, protocol := protocol } set =
      Rrsig.verify cfg c search r k set := rfl

/-- C88, exactly, for packets without SSHFP records and SVCB parameters: both encodings are read as the same packet if
and only if there are no OPT, RRSIG and CAA records. -/
theorem C88_exact (cfg : Cfg) (h : Hash) (p : Packet) (hp : PacketOk cfg 191 p) (hc : CountsOk p)
    (hh : NoCollision h (packetNames p)) (hs : ∀ r ∈ records p, r.rdata.type ≠ .SSHFP)
    (hv : ∀ r ∈ records p, ∀ s, r.rdata = .SVCB s → s.params = []) (plain compressed : Bytes)
    (h1 : p.toBytes cfg = .ok plain) (h2 : p.toBytesCompressed cfg h = .ok compressed) (hl : compressed.length ≤ 16384) :
    Packet.parse cfg compressed = Packet.parse cfg plain ↔
      ∀ r ∈ records p, r.rdata.type ∉ [RecordType.OPT, .RRSIG, .CAA] := by
  have e1 := C28_packet_exact cfg h p hp hc hh compressed [] h2 hl
  have e2 := C27_packet_exact cfg p hp hv plain [] h1
  have hw := C27_counts p hc
  rw [List.append_nil] at e1 e2
  rw [hw] at e2
  rw [e1.mpr hs, eq_comm, e2]
  constructor
  · intro g r hr hm; exact g r hr (List.mem_cons_of_mem _ hm)
  · intro g r hr hm
    rcases List.mem_cons.mp hm with hm | hm
    · exact hs r hr hm
    · exact g r hr hm
/-- A packet to which it applies: with TXT, NSEC and MX records. -/
example : PacketOk ⟨true, true, true⟩ 191 exPacket ∧ CountsOk exPacket ∧ NoCollision exHash (packetNames exPacket) ∧
    (∀ r ∈ records exPacket, r.rdata.type ≠ .SSHFP) ∧
    (∀ r ∈ records exPacket, ∀ s, r.rdata = .SVCB s → s.params = []) ∧
    (∃ compressed, exPacket.toBytesCompressed ⟨true, true, true⟩ exHash = .ok compressed ∧ compressed.length ≤ 16384) := by
  refine ⟨exPacket_ok.mono (by decide), ⟨rfl, rfl, rfl, rfl⟩, exPacket_noCollision, ?_, ?_, _, rfl, by decide +kernel⟩
  · simp [records, exPacket, exRecord, RecordData.type]
  · simp [records, exPacket, exRecord]

theorem canonicalLt_parents {a b : Bytes} {p q : Fqdn} (hl : p.length = q.length) (hn : lowerName p ≠ lowerName q) :
    CanonicalLt (a :: p) (b :: q) ↔ CanonicalLt p q := by
  unfold CanonicalLt
  have e : ∀ (a : Bytes) p, (lowerName (a :: p)).reverse = (lowerName p).reverse ++ [a.map lowerOctet] := by
    intro a p; simp [lowerName]
  rw [e, e]
  have key : ∀ x y : Fqdn, x.length = y.length → x ≠ y → ∀ u v : Fqdn,
      (List.Lex (List.Lex (· < ·)) (x ++ u) (y ++ v) ↔ List.Lex (List.Lex (· < ·)) x y) := by
    intro x
    induction x with
    | nil => intro y h1 h2; cases y with
      | nil => exact absurd rfl h2
      | cons => cases h1
    | cons l x ih =>
      intro y h1 h2 u v
      cases y with
      | nil => cases h1
      | cons m y =>
        rw [List.cons_append, List.cons_append]
        constructor
        · intro h
          cases h with
          | rel h => exact .rel h
          | cons h => exact .cons ((ih y (by simpa using h1) (fun e => h2 (by rw [e])) u v).mp h)
        · intro h
          cases h with
          | rel h => exact .rel h
          | cons h => exact .cons ((ih y (by simpa using h1) (fun e => h2 (by rw [e])) u v).mpr h)
  exact key _ _ (by simp [lowerName, hl]) (fun h => hn (List.reverse_injective h)) _ _

/-- C76, exactly, for names with different first labels and different parents (of the same number of labels): the order
of `FQDN` is the canonical order if and only if the first labels happen to be ordered as the parents are. -/
theorem C76_exact (a b : Bytes) (p q : Fqdn) (hab : a ≠ b) (hl : p.length = q.length)
    (hn : lowerName p ≠ lowerName q) :
    (Fqdn.cmp (a :: p) (b :: q) = .lt ↔ CanonicalLt (a :: p) (b :: q)) ↔ (List.Lex (· < ·) a b ↔ CanonicalLt p q) := by
  rw [canonicalLt_parents hl hn, ← cmpBytes_lt_iff]
  have h1 : Fqdn.cmpBytes a b ≠ .eq := fun h => hab ((cmpBytes_eq a b).mp h)
  have : Fqdn.cmp (a :: p) (b :: q) = Fqdn.cmpBytes a b := by
    unfold Fqdn.cmp
    cases h : Fqdn.cmpBytes a b <;> simp_all
  rw [this]
example : ¬ (Fqdn.cmp [[97], [98]] [[98], [97]] = .lt ↔ CanonicalLt [[97], [98]] [[98], [97]]) := by
  rw [C76_exact [97] [98] [[98]] [[97]] (by decide) rfl (by decide)]
  intro h
  have : List.Lex (List.Lex (· < ·)) (lowerName [[98]]).reverse (lowerName [[97]]).reverse :=
    h.mp (List.Lex.rel (by decide))
  cases this with
  | rel h => cases h with
    | rel h => exact absurd h (by decide)

/-- C76: so any two names have children in the wrong order. -/
theorem C76_wrong (p q : Fqdn) (hl : p.length = q.length) (h : CanonicalLt p q) :
    CanonicalLt ([98] :: p) ([97] :: q) ∧ Fqdn.cmp ([98] :: p) ([97] :: q) = .gt :=
  by
  refine ⟨(canonicalLt_parents hl fun e => ?_).mpr h, rfl⟩
  unfold CanonicalLt at h
  rw [e] at h
  have hi : ∀ x : Bytes, ¬ List.Lex (· < ·) x x := fun x => by
    induction x with
    | nil => intro h; cases h
    | cons a x ih =>
      intro h
      cases h with
      | rel h => exact absurd h (UInt8.lt_irrefl a)
      | cons h => exact ih h
  have : ∀ x : Fqdn, ¬ List.Lex (List.Lex (· < ·)) x x := fun x => by
    induction x with
    | nil => intro h; cases h
    | cons a x ih =>
      intro h
      cases h with
      | rel h => exact hi a h
      | cons h => exact ih h
  exact this _ h

example : ([[99], [100]] : Fqdn).length = ([[101], [100]] : Fqdn).length ∧
    lowerName [[99], [100]] ≠ lowerName [[101], [100]] := by decide

example : CanonicalLt [[99]] [[100]] := .rel (.rel (by decide))

end Dns
