import Verif.Spec.Tsig
import Verif.Props.Edit
import Verif.Props.Stable
import Verif.Props.SipHash
import Verif.Props.Distinct

/-
C132: messages with transaction signatures (TSIG, RFC 8945).
-/

namespace Dns
open Spec Buf

/-- The packet with the record at the end of the additional section. -/
def withLast (p : Packet) (r : ResourceRecord) : Packet := withAdditional (p.additional ++ [r]) p

theorem addAdditional_last (cfg : Cfg) (p : Packet) (r : ResourceRecord) (hc : CountsOk p)
    (hn : p.additional.length + 1 < 65536) : p.addAdditional cfg r = .ok (withLast p r) := by
  have h1 : p.header.addCount.toNat + 1 ≤ 65535 := by have := hc.2.2.2; omega
  have h2 : addU16 cfg p.header.addCount.toNat 1 = .ok (p.header.addCount.toNat + 1) := by
    unfold addU16
    rw [if_pos (by omega)]
  rw [hc.2.2.2] at h2
  simp only [Packet.addAdditional, Packet.incr, Res.pure_eq, withLast, withAdditional,
    List.length_append, List.length_singleton, hc.2.2.2, h2, Res.ok_bind]

theorem lastTsig_append (rs : List ResourceRecord) (key : Fqdn) (t : Tsig) :
    lastTsig (rs ++ [tsigRecord key t]) = some (rs, key, t) := by
  simp [lastTsig, tsigRecord]

theorem restored (p : Packet) (r : ResourceRecord) (hc : CountsOk p) :
    ((withLast p r).takeAdditionals.1.setAdditionals p.additional).setId p.header.id = p := by
  obtain ⟨⟨id, fl, x1, x2, x3, x4⟩, q, an, au, ad⟩ := p
  have : lenU16 ad.length = x4 := by
    have := hc.2.2.2
    simp only at this
    rw [← this]
    exact UInt16.ofNat_toNat
  simp only [withLast, withAdditional, Packet.takeAdditionals, Packet.setAdditionals, Packet.setId, this]

/-- C132: whenever the message with the TSIG record is read back, the receiver finds the octets that were signed, and
accepts the packet that was sent; for both ways to write and every MAC. -/
theorem C132_accepted (cfg : Cfg) (write : Packet → Res Bytes) (mac : Bytes → Bytes) (prior : Bytes) (key : Fqdn)
    (t : Tsig) (p : Packet) (hc : CountsOk p) (hn : p.additional.length + 1 < 65536) (b d : Bytes) (hb : write p = .ok b)
    (hd : write (withLast p (tsigRecord key (tsigFilled mac prior b key t p.header.id))) = .ok d)
    (hr : Packet.parse cfg d = .ok (withLast p (tsigRecord key (tsigFilled mac prior b key t p.header.id)))) :
    sendSigned cfg write mac prior key t p = .ok d ∧
    receiveSigned cfg write mac prior d = .ok (some (p, key, tsigFilled mac prior b key t p.header.id)) := by
  constructor
  · simp only [sendSigned, hb, Res.ok_bind, addAdditional_last cfg p _ hc hn, hd]
  · have h1 : (withLast p (tsigRecord key (tsigFilled mac prior b key t p.header.id))).takeAdditionals.2 =
        p.additional ++ [tsigRecord key (tsigFilled mac prior b key t p.header.id)] := rfl
    have h2 : tsigDigest prior b key (tsigFilled mac prior b key t p.header.id) = tsigDigest prior b key t := rfl
    have h3 := restored p (tsigRecord key (tsigFilled mac prior b key t p.header.id)) hc
    simp only [receiveSigned, hr, Res.ok_bind, h1, lastTsig_append]
    rw [show (tsigFilled mac prior b key t p.header.id).originalId = p.header.id from rfl, h3]
    simp only [hb, Res.ok_bind, h2]
    rw [show (tsigFilled mac prior b key t p.header.id).mac = mac (tsigDigest prior b key t) from rfl, if_pos rfl]
    rfl

/-- The TSIG data can be represented: names of RFC 1035 (or of up to 191 octets per label), a time of 48 bits, and less
than 65536 octets altogether. -/
def TsigFits (mac : Bytes → Bytes) (key : Fqdn) (t : Tsig) : Prop :=
  NameOk 191 key ∧ NameOk 191 t.algorithm ∧ t.timeSigned.toNat < 2 ^ 48 ∧
    ∀ x, (nameOctets t.algorithm).length + 16 + (mac x).length + t.otherData.length < 65536

theorem TsigFits.record {mac : Bytes → Bytes} {key : Fqdn} {t : Tsig} (h : TsigFits mac key t) (cfg : Cfg)
    (prior b : Bytes) (id : UInt16) : RecordOk cfg 191 (tsigRecord key (tsigFilled mac prior b key t id)) := by
  obtain ⟨h1, h2, h3, h4⟩ := h
  have h5 := h4 (tsigDigest prior b key t)
  refine ⟨h1, by simp [Readable, dnssecTypes, tsigRecord], rfl, by simp [tsigRecord, classOk],
    by simp [tsigRecord, classNumber], by simp [tsigRecord], ⟨h2, h3, ?_, ?_⟩, fun x hx => ?_⟩
  · simp only [tsigFilled]; omega
  · simp only [tsigFilled]; omega
  · cases hx
    simp only [Tsig.toBytes, tsigFilled, List.length_append, NameOk.toBytes h2, List.length_drop, u16be, u64be, toBE_length]
    omega

theorem withLast_ok {cfg : Cfg} {p : Packet} {r : ResourceRecord} (hp : PacketOk cfg 191 p) (hc : CountsOk p)
    (hr : RecordOk cfg 191 r) (hn : p.additional.length + 1 < 65536) :
    PacketOk cfg 191 (withLast p r) ∧ CountsOk (withLast p r) := by
  obtain ⟨h1, h2, h3, h4, h5, h6⟩ := hp
  refine ⟨⟨h1, ?_, h3, h4, h5, by simpa [withLast, withAdditional] using hn⟩, hc.1, hc.2.1, hc.2.2.1, ?_⟩
  · intro x hx
    have : x ∈ records p ∨ x = r := by
      simp only [records, withLast, withAdditional, List.mem_append, List.mem_cons, List.not_mem_nil, or_false] at hx ⊢
      tauto
    rcases this with h | rfl
    · exact h2 x h
    · exact hr
  · simp only [withLast, withAdditional, List.length_append, List.length_singleton]
    rw [UInt16.toNat_ofNat_of_lt' (by simpa [UInt16.size] using hn)]

theorem records_withLast {p : Packet} {r x : ResourceRecord} (h : x ∈ records (withLast p r)) : x ∈ records p ∨ x = r := by
  simp only [records, withLast, withAdditional, List.mem_append, List.mem_cons, List.not_mem_nil, or_false] at h ⊢
  tauto

/-- C132 for `to_bytes` (partial): what is signed and sent is accepted, as what was sent.  What is missing: SSHFP records
and records of which `byte_size` is wrong, among them the OPT record of EDNS (false, `C132_edns_counterexample`). -/
theorem C132_plain_partial (cfg : Cfg) (mac : Bytes → Bytes) (prior : Bytes) (key : Fqdn) (t : Tsig) (p : Packet)
    (hp : PacketOk cfg 191 p) (hc : CountsOk p) (hs : ∀ r ∈ records p, r.rdata.type ≠ .SSHFP ∧ sizeError r.rdata = 0)
    (hn : p.additional.length + 1 < 65536) (ht : TsigFits mac key t) :
    ∃ b d, p.toBytes cfg = .ok b ∧ sendSigned cfg (Packet.toBytes cfg) mac prior key t p = .ok d ∧
      receiveSigned cfg (Packet.toBytes cfg) mac prior d = .ok (some (p, key, tsigFilled mac prior b key t p.header.id)) := by
  obtain ⟨b, h1, -⟩ := C27_packet_round_trip_partial cfg p hp hs
  obtain ⟨k1, k2⟩ := withLast_ok hp hc (ht.record cfg prior b p.header.id) hn
  obtain ⟨d, h2, h3⟩ := C27_packet_round_trip_partial cfg _ k1 (by
    intro x hx
    rcases records_withLast hx with h | rfl
    · exact hs x h
    · exact ⟨by simp [tsigRecord, RecordData.type], rfl⟩)
  have h4 := (h3 []).1
  rw [List.append_nil, C27_counts _ k2] at h4
  obtain ⟨h5, h6⟩ := C132_accepted cfg (Packet.toBytes cfg) mac prior key t p hc hn b d h1 h2 h4
  exact ⟨b, d, h1, h5, h6⟩

/-- C132 for `to_bytes_compressed` (partial): here EDNS is no problem.  What is missing: SSHFP records, collisions of the
hashes of the names (C131), and messages of more than 16384 octets (C28). -/
theorem C132_compressed_partial (cfg : Cfg) (h : Hash) (mac : Bytes → Bytes) (prior : Bytes) (key : Fqdn) (t : Tsig)
    (p : Packet) (hp : PacketOk cfg 191 p) (hc : CountsOk p) (hs : ∀ r ∈ records p, r.rdata.type ≠ .SSHFP)
    (hh : NoCollision h (key :: t.algorithm :: packetNames p))
    (hn : p.additional.length + 1 < 65536) (ht : TsigFits mac key t) :
    ∃ b d, p.toBytesCompressed cfg h = .ok b ∧ sendSigned cfg (Packet.toBytesCompressed cfg h) mac prior key t p = .ok d ∧
      (d.length ≤ 16384 → receiveSigned cfg (Packet.toBytesCompressed cfg h) mac prior d =
        .ok (some (p, key, tsigFilled mac prior b key t p.header.id))) := by
  have mono : ∀ names : List Fqdn, (∀ n ∈ names, n ∈ key :: t.algorithm :: packetNames p) → NoCollision h names :=
    fun names hsub a b ⟨n, h1, h2⟩ ⟨m, h3, h4⟩ e => hh a b ⟨n, hsub n h1, h2⟩ ⟨m, hsub m h3, h4⟩ e
  obtain ⟨b, h1, -⟩ := C28_compressed_round_trip_partial cfg h p hp hc hs (mono _ (by simp +contextual))
  obtain ⟨k1, k2⟩ := withLast_ok hp hc (ht.record cfg prior b p.header.id) hn
  obtain ⟨d, h2, h3⟩ := C28_compressed_round_trip_partial cfg h _ k1 k2 (by
    intro x hx
    rcases records_withLast hx with h | rfl
    · exact hs x h
    · simp [tsigRecord, RecordData.type]) (mono _ (by
      intro n hn
      simp only [packetNames, List.mem_append, List.mem_map, List.mem_flatMap] at hn
      rcases hn with ⟨q, hq, rfl⟩ | ⟨x, hx, hn⟩
      · refine List.mem_cons_of_mem _ (List.mem_cons_of_mem _ ?_)
        simp only [packetNames, List.mem_append, List.mem_map]
        exact .inl ⟨q, hq, rfl⟩
      · rcases records_withLast hx with h | rfl
        · refine List.mem_cons_of_mem _ (List.mem_cons_of_mem _ ?_)
          simp only [packetNames, List.mem_append, List.mem_flatMap]
          exact .inr ⟨x, h, hn⟩
        · simp only [tsigRecord, rdataNames, tsigFilled, List.mem_cons, List.not_mem_nil, or_false] at hn
          rcases hn with rfl | rfl <;> simp))
  have h4 := addAdditional_last cfg p (tsigRecord key (tsigFilled mac prior b key t p.header.id)) hc hn
  refine ⟨b, d, h1, by simp only [sendSigned, h1, Res.ok_bind, h4, h2], fun hl => ?_⟩
  have h5 := (h3 hl []).1
  rw [List.append_nil] at h5
  exact (C132_accepted cfg (Packet.toBytesCompressed cfg h) mac prior key t p hc hn b d h1 h2 h5).2

/-! ## Only what was signed is accepted -/

theorem lastTsig_some {rs front : List ResourceRecord} {key : Fqdn} {t : Tsig} (h : lastTsig rs = some (front, key, t)) :
    rs = front ++ [tsigRecord key t] := by
  unfold lastTsig at h
  split at h
  · rename_i key' t' front' e
    cases h
    have := congrArg List.reverse e
    simpa [tsigRecord] using this
  · cases h

theorem lowerName_ok {max : Nat} {n : Fqdn} (h : NameOk max n) : NameOk max (lowerName n) := by
  intro l hl
  obtain ⟨k, hk, rfl⟩ := List.mem_map.mp hl
  simpa using h k hk

theorem num6_inj {a b : Nat} (ha : a < 2 ^ 48) (hb : b < 2 ^ 48) (h : (Item.num 6 a).octets = (Item.num 6 b).octets) :
    a = b := by
  simp only [Item.octets, List.range, List.range.loop, List.map_cons, List.map_nil, List.cons.injEq, and_true] at h
  obtain ⟨h1, h2, h3, h4, h5, h6⟩ := h
  have k : ∀ x y : Nat, UInt8.ofNat (x % 256) = UInt8.ofNat (y % 256) → x % 256 = y % 256 := by
    intro x y e
    have := congrArg UInt8.toNat e
    simpa using this
  have := k _ _ h1
  have := k _ _ h2
  have := k _ _ h3
  have := k _ _ h4
  have := k _ _ h5
  have := k _ _ h6
  simp only [Nat.reduceSub, Nat.reducePow] at *
  omega

/-- What is signed of the TSIG record determines these fields, up to the case of the letters in the names. -/
theorem tsigVariables_inj {key key' : Fqdn} {t t' : Tsig} (h1 : NameOk 191 key) (h2 : NameOk 191 key')
    (h3 : NameOk 191 t.algorithm) (h4 : NameOk 191 t'.algorithm) (h5 : t.timeSigned.toNat < 2 ^ 48)
    (h6 : t'.timeSigned.toNat < 2 ^ 48)
    (h : tsigVariables key t = tsigVariables key' t') :
    lowerName key = lowerName key' ∧ lowerName t.algorithm = lowerName t'.algorithm ∧ t.timeSigned = t'.timeSigned ∧
      t.fudge = t'.fudge ∧ t.error = t'.error ∧ t.otherData = t'.otherData := by
  have up : ∀ {n : Fqdn}, NameOk 191 n → NameOk 255 (lowerName n) := fun h => (lowerName_ok h).mono (by omega)
  unfold tsigVariables at h
  simp only [Items.octets, List.map_cons, List.map_nil, List.flatten_cons, List.flatten_nil, List.append_nil] at h
  obtain ⟨e1, h⟩ := nameOctets_inj (up h1) (up h2) h
  obtain ⟨-, h⟩ := List.append_inj h rfl
  obtain ⟨-, h⟩ := List.append_inj h rfl
  obtain ⟨e2, h⟩ := nameOctets_inj (up h3) (up h4) h
  obtain ⟨e3, h⟩ := List.append_inj h (by simp [Item.octets])
  obtain ⟨e4, h⟩ := octets16_inj h
  obtain ⟨e5, h⟩ := octets16_inj h
  obtain ⟨e6, h⟩ := octets16_inj h
  refine ⟨e1, e2, UInt64.toNat_inj.mp (num6_inj h5 h6 e3), e4, ?_, h⟩
  have := congrArg UInt16.toNat e5
  revert this
  cases t.error <;> cases t'.error <;> decide

/-- What the receiver has done when it accepts a message. -/
theorem receiveSigned_some {cfg : Cfg} {write : Packet → Res Bytes} {mac : Bytes → Bytes} {prior d : Bytes} {q : Packet}
    {key : Fqdn} {t : Tsig} (h : receiveSigned cfg write mac prior d = .ok (some (q, key, t))) :
    ∃ p rs b, Packet.parse cfg d = .ok p ∧ p.additional = rs ++ [tsigRecord key t] ∧
      q = (p.setAdditionals rs).setId t.originalId ∧ write q = .ok b ∧ mac (tsigDigest prior b key t) = t.mac := by
  unfold receiveSigned at h
  obtain ⟨p, h1, h⟩ := Res.bind_eq_ok.mp h
  split at h
  · cases h
  · rename_i rs key' t' e
    obtain ⟨b, h2, h⟩ := Res.bind_eq_ok.mp h
    simp only [Res.pure_eq, Res.ok.injEq] at h
    split at h
    · rename_i hm
      cases h
      exact ⟨p, rs, b, h1, lastTsig_some e, rfl, h2, hm⟩
    · cases h

/-- C132, authenticity (partial): if the MAC in a message that is accepted is the MAC of nothing but what the holders of
the key have signed, then what is accepted is a packet that they have signed, with the same time, fudge, error and other
data, and the same names of key and algorithm up to the case of letters.  What is missing: packets with SSHFP records
or records of which `byte_size` is wrong. -/
theorem C132_authentic_partial (cfg : Cfg) (mac : Bytes → Bytes) (prior d : Bytes) (q : Packet) (key : Fqdn) (t : Tsig)
    (h : receiveSigned cfg (Packet.toBytes cfg) mac prior d = .ok (some (q, key, t)))
    (hf : ∀ p, Packet.parse cfg d = .ok p → ∀ r ∈ records p, Rewritable cfg r)
    (hs : ∀ r ∈ records q, r.rdata.type ≠ .SSHFP ∧ sizeError r.rdata = 0)
    (signed : List (Packet × Fqdn × Tsig))
    (hok : ∀ s ∈ signed, PacketOk cfg 191 s.1 ∧ CountsOk s.1 ∧ TsigFits mac s.2.1 s.2.2 ∧
      ∀ r ∈ records s.1, r.rdata.type ≠ .SSHFP ∧ sizeError r.rdata = 0)
    (hmac : ∀ x, mac x = t.mac → ∃ s ∈ signed, ∃ b, s.1.toBytes cfg = .ok b ∧ x = tsigDigest prior b s.2.1 s.2.2) :
    ∃ s ∈ signed, q = s.1 ∧ lowerName key = lowerName s.2.1 ∧ lowerName t.algorithm = lowerName s.2.2.algorithm ∧
      t.timeSigned = s.2.2.timeSigned ∧ t.fudge = s.2.2.fudge ∧ t.error = s.2.2.error ∧
      t.otherData = s.2.2.otherData := by
  obtain ⟨p, rs, b, h1, h2, h3, h4, h5⟩ := receiveSigned_some h
  obtain ⟨hp, hc⟩ := Packet.parsed h1 (hf p h1)
  obtain ⟨s, hs1, b', hb', hx⟩ := hmac _ h5
  obtain ⟨k1, k2, ⟨k3, k4, k5, k6⟩, k7⟩ := hok s hs1
  have hsub : ∀ r ∈ records q, r ∈ records p := by
    intro r hr
    subst h3
    simp only [records, Packet.setAdditionals, Packet.setId, List.mem_append, h2] at hr ⊢
    tauto
  have hlen : rs.length < 65536 := by
    have := hp.2.2.2.2.2
    rw [h2] at this
    simp at this
    omega
  have hq : PacketOk cfg 191 q := by
    refine ⟨?_, fun r hr => hp.2.1 r (hsub r hr), ?_, ?_, ?_, ?_⟩ <;> subst h3
    · exact hp.1
    · exact hp.2.2.1
    · exact hp.2.2.2.1
    · exact hp.2.2.2.2.1
    · exact hlen
  have hqc : CountsOk q := by
    subst h3
    exact ⟨hc.1, hc.2.1, hc.2.2.1, UInt16.toNat_ofNat_of_lt' (by simpa [UInt16.size] using hlen)⟩
  have hx' : b ++ tsigVariables key t = b' ++ tsigVariables s.2.1 s.2.2 := by
    unfold tsigDigest at hx
    rw [List.append_assoc, List.append_assoc] at hx
    exact List.append_cancel_left hx
  obtain ⟨c, c1, c2⟩ := C27_packet_round_trip_partial cfg q hq hs
  obtain ⟨c', c1', c2'⟩ := C27_packet_round_trip_partial cfg s.1 k1 k7
  rw [h4] at c1
  rw [hb'] at c1'
  cases c1
  cases c1'
  have e1 := (c2 (tsigVariables key t)).1
  have e2 := (c2' (tsigVariables s.2.1 s.2.2)).1
  rw [← hx', e1, C27_counts q hqc, C27_counts s.1 k2] at e2
  have e3 : q = s.1 := Res.ok.inj e2
  rw [e3, hb'] at h4
  cases h4
  have e4 := List.append_cancel_left hx'
  have hr := hp.2.1 (tsigRecord key t) (by simp [records, h2])
  have hw : NameOk 191 t.algorithm ∧ t.timeSigned.toNat < 2 ^ 48 ∧ t.mac.length < 65536 ∧ t.otherData.length < 65536 :=
    hr.2.2.2.2.2.2.1
  exact ⟨s, hs1, e3, tsigVariables_inj hr.1 k3 hw.1 k4 hw.2.1 k5 e4⟩

/-! ## Messages of others -/

theorem header_parsed {d : Bytes} {h : Header} {j : Nat} (hh : Items.At (NameFrom 12) d 0 (headerItems h) j) :
    Header.parse d 0 = (.ok h, j) := (Header.parse_ok (N := NameFrom 12)).mpr hh

theorem header_addCount {N : NameRel} {d : Bytes} {h : Header} {i : Nat} (h0 : Items.At N d 0 (headerItems h) i) :
    Octets d 10 (octets16 h.addCount) 12 := by
  obtain ⟨k1, a1, k2, a2, k3, a3, k4, a4, k5, a5, k6, a6, k7, a7, a8⟩ := h0
  have b1 := a1.end_eq; have b2 := a2.end_eq; have b3 := a3.end_eq; have b4 := a4.end_eq
  have b5 := a5.end_eq; have b6 := a6.end_eq; have b7 := a7.end_eq
  simp only [octets16, List.length_cons, List.length_nil] at b1 b2 b3 b4 b5 b6 b7
  obtain rfl : k6 = 10 := by omega
  obtain rfl : k7 = 12 := by omega
  exact a7

/-- C132 for messages of any sender (partial): the receiver that finds the place of the last record with a `DnsBuffer`
has exactly the octets of the message before the TSIG record `r` (with the octets `b`) was put behind it, whatever
compression the sender uses.  What is missing: messages in which a name has a pointer to the header (false, see C113), and
data that are not `ReadWell` (C99). -/
theorem C132_cut_partial (cfg : Cfg) (d b : Bytes) (p : Packet) (r : ResourceRecord)
    (h : MessageAtWith (RDataWritten (NameFrom 12) cfg) (NameFrom 12) cfg d p d.length)
    (hb : RecordAtWith (RDataWritten PlainName cfg) PlainName cfg b 0 r b.length)
    (hn : p.additional.length + 1 < 65536)
    (hv : ∀ x ∈ r :: records p, Writable cfg 63 x.rdata ∧ ReadWell x.rdata) :
    cutLast cfg (arcount (p.additional.length + 1) d ++ b) = .ok (d, r) := by
  obtain ⟨i2, i3, i4, hl, g0, g1, g2, g3, g4, g5⟩ := appended_places cfg d b p r h hb
  have hcount : ((withAdditional (p.additional ++ [r]) p).header).addCount.toNat = p.additional.length + 1 := by
    simp only [withAdditional, List.length_append, List.length_singleton]
    rw [UInt16.toNat_ofNat_of_lt' (by simpa [UInt16.size] using hn)]
  have key : ∀ i x j, (Writable cfg 63 x.rdata ∧ ReadWell x.rdata) →
      RecordAtWith (RDataWritten (NameFrom 12) cfg) (NameFrom 12) cfg (arcount (p.additional.length + 1) d ++ b) i x j →
      ResourceRecord.parse cfg (arcount (p.additional.length + 1) d ++ b) i = (.ok x, j) := by
    rintro i x j hx ⟨a1, a2, v, len, k, a3, a4, a5, a6, a7, its, a8, a9⟩
    have hm : ∀ {d its i j}, Items.At (NameFrom 12) d i its j → Items.At LegalName d i its j :=
      fun h => items_mono (fun _ _ _ _ h => h.1) h
    exact ResourceRecord.parse_ok.mpr ⟨a1, a2, v, len, k, a3, legal_decodes (hm a4), a5, a6,
      readWell_parsed hx.1 hx.2 ⟨a7, its, a8, hm a9⟩⟩
  have hvp : ∀ x ∈ records p, Writable cfg 63 x.rdata ∧ ReadWell x.rdata := fun x hx => hv x (List.mem_cons_of_mem _ hx)
  have all : ListAt (RecordAtWith (RDataWritten (NameFrom 12) cfg) (NameFrom 12) cfg (arcount (p.additional.length + 1) d ++ b))
      i2 (records p) d.length := by
    unfold records
    exact listAt_append.mpr ⟨i4, listAt_append.mpr ⟨i3, g2, g3⟩, g4⟩
  have t1 : Parser.times p.header.quesCount.toNat (Question.parse cfg) (arcount (p.additional.length + 1) d ++ b) 12 =
      (.ok p.questions, i2) := by
    refine seq_times.mpr ⟨h.1, (seq_listAt (fun i x j => Question.parse_ok)).mpr (listAt_mono ?_ _ _ _ g1)⟩
    rintro i q j ⟨a1, v, a2, a3⟩
    exact ⟨a1, v, a2, legal_decodes (items_mono (fun _ _ _ _ h => h.1) a3)⟩
  have t2 : Parser.times (p.header.ansCount.toNat + p.header.authCount.toNat + (p.additional.length + 1 - 1))
      (ResourceRecord.parse cfg) (arcount (p.additional.length + 1) d ++ b) i2 = (.ok (records p), d.length) := by
    refine seq_times.mpr ⟨?_, (seq_listAt (fun i x j => Iff.rfl)).mpr (listAt_mono_mem key _ _ _ hvp all)⟩
    simp only [records, List.length_append, h.2.1, h.2.2.1]
    omega
  have t3 := key _ _ _ (hv r List.mem_cons_self) g5
  have front : ((do
      let h ← Header.parse
      let _ ← Parser.times h.quesCount.toNat (Question.parse cfg)
      let _ ← Parser.times (h.ansCount.toNat + h.authCount.toNat + (h.addCount.toNat - 1)) (ResourceRecord.parse cfg)
      return h : Parser Header) (arcount (p.additional.length + 1) d ++ b) 0) =
      (.ok (withAdditional (p.additional ++ [r]) p).header, d.length) := by
    refine Parser.bind_ok.mpr ⟨_, 12, header_parsed g0, Parser.bind_ok.mpr ⟨_, i2, t1, Parser.bind_ok.mpr ⟨records p, d.length, ?_, rfl⟩⟩⟩
    rw [hcount]
    exact t2
  unfold cutLast
  simp only [front, t3, Res.ok_bind, hcount, Res.pure_eq, Nat.add_sub_cancel]
  obtain ⟨-, -, -, c4, i1, -, -, -, h0, -⟩ := h
  rw [C113_undo d b p.additional.length hl ?_]
  have := header_addCount h0
  rw [c4]
  simpa using this

/-! ## Where it fails, and examples -/

/-- TSIG data of the algorithm `hmac-sha256.`, before they are filled in. -/
def exTsig : Tsig := ⟨[[104, 109, 97, 99, 45, 115, 104, 97, 50, 53, 54]], 1716494863, 300, [], 0, .none, []⟩

/-- A reply with one answer for `a.b.`. -/
def exReply : Packet := ⟨⟨9, ⟨0x84, 0⟩, 1, 1, 0, 0⟩, [⟨[[97], [98]], .rr .A, .IN, false⟩],
  [⟨[[97], [98]], .A, false, .IN, 60, .A ⟨0xC0000201⟩⟩], [], []⟩

/-- A query with EDNS (the OPT record has no options). -/
def exEdns : Packet := ⟨⟨9, ⟨0x01, 0⟩, 1, 0, 0, 1⟩, [⟨[[97], [98]], .rr .A, .IN, false⟩], [], [],
  [⟨[], .OPT, false, .udpPayloadSize 1232, 0, .OPT ⟨[]⟩⟩]⟩

theorem exReply_ok (cfg : Cfg) : PacketOk cfg 191 exReply ∧ CountsOk exReply ∧
    ∀ r ∈ records exReply, r.rdata.type ≠ .SSHFP ∧ sizeError r.rdata = 0 := by
  refine ⟨⟨?_, ?_, by simp [exReply], by simp [exReply], by simp [exReply], by simp [exReply]⟩, ⟨rfl, rfl, rfl, rfl⟩, ?_⟩
  · simp only [exReply, List.forall_mem_cons]
    exact ⟨⟨by decide, by simp [QReadable, Readable, dnssecTypes], by simp⟩, by simp⟩
  · simp only [records, exReply, List.append_nil, List.forall_mem_cons]
    exact ⟨⟨by decide, by simp [Readable, dnssecTypes], rfl, trivial, by decide, by simp, by simp [Writable],
      fun x hx => by cases hx; decide⟩, by simp⟩
  · simp [records, exReply, RecordData.type, sizeError]

theorem exEdns_ok (cfg : Cfg) : PacketOk cfg 63 exEdns ∧ CountsOk exEdns := by
  refine ⟨⟨?_, ?_, by simp [exEdns], by simp [exEdns], by simp [exEdns], by simp [exEdns]⟩, ⟨rfl, rfl, rfl, rfl⟩⟩
  · simp only [exEdns, List.forall_mem_cons]
    exact ⟨⟨by decide, by simp [QReadable, Readable, dnssecTypes], by simp⟩, by simp⟩
  · simp only [records, exEdns, List.append_nil, List.nil_append, List.forall_mem_cons]
    exact ⟨⟨by decide, by simp [Readable, dnssecTypes], rfl, by simp [classOk], by simp [classNumber], by simp, by simp [Writable],
      fun x hx => by cases hx; decide⟩, by simp⟩

/-- What a receiver makes of a signed message: accepted, not accepted, or an error. -/
theorem exchange_decided {x : Res Bytes} {f : Bytes → Res (Option (Packet × Fqdn × Tsig))} {b : Bool}
    (h : (x.bind fun d => (f d).bind fun o => Res.ok o.isSome) = .ok b) : ∃ d o, x = .ok d ∧ f d = .ok o ∧ o.isSome = b := by
  obtain ⟨d, hd, h⟩ := Res.bind_eq_ok.mp (show (x >>= fun d => f d >>= fun o => Res.ok o.isSome) = .ok b from h)
  obtain ⟨o, ho, h⟩ := Res.bind_eq_ok.mp h
  exact ⟨d, o, hd, ho, Res.ok.inj h⟩

/-- The same for a receiver that cannot read the message. -/
theorem exchange_refused {x : Res Bytes} {f : Bytes → Res (Option (Packet × Fqdn × Tsig))} {e : DnsError} {n : Nat}
    (hn : (x.bind fun d => Res.ok d.length) = .ok n)
    (h : (x.bind fun d => (f d).bind fun o => Res.ok o.isSome) = .err e) : ∃ d, x = .ok d ∧ f d = .err e := by
  obtain ⟨d, rfl, -⟩ := Res.bind_eq_ok.mp (show (x >>= fun d => Res.ok d.length) = .ok n from hn)
  refine ⟨d, rfl, ?_⟩
  change ((f d).bind fun o => Res.ok o.isSome) = .err e at h
  cases hf : f d with
  | ok o => rw [hf] at h; cases h
  | err e' => rw [hf] at h; cases h; rfl
  | panic k => rw [hf] at h; cases h
  | hang => rw [hf] at h; cases h

/-- Missing in C132 for `to_bytes`: a query with EDNS that is signed and sent with `to_bytes` cannot be read by its
receiver.  With `to_bytes_compressed` on both sides it is accepted. -/
theorem C132_edns_counterexample (cfg : Cfg) : PacketOk cfg 63 exEdns ∧ CountsOk exEdns ∧
    (∃ d, sendSigned cfg (Packet.toBytes cfg) (fun _ => List.replicate 32 7) [] [[107]] exTsig exEdns = .ok d ∧
      receiveSigned cfg (Packet.toBytes cfg) (fun _ => List.replicate 32 7) [] d = .err .lengthViolation) ∧
    (∃ d q, sendSigned cfg (Packet.toBytesCompressed cfg (Target.hashFqdn ⟨false, 8⟩)) (fun _ => List.replicate 32 7) []
        [[107]] exTsig exEdns = .ok d ∧
      receiveSigned cfg (Packet.toBytesCompressed cfg (Target.hashFqdn ⟨false, 8⟩)) (fun _ => List.replicate 32 7) [] d =
        .ok q ∧ q.isSome = true) := by
  refine ⟨(exEdns_ok cfg).1, (exEdns_ok cfg).2, ?_, ?_⟩
  · have key : ∀ a b c : Bool, ((sendSigned ⟨a, b, c⟩ (Packet.toBytes ⟨a, b, c⟩) (fun _ => List.replicate 32 7) []
        [[107]] exTsig exEdns).bind fun d => (receiveSigned ⟨a, b, c⟩ (Packet.toBytes ⟨a, b, c⟩)
          (fun _ => List.replicate 32 7) [] d).bind fun o => Res.ok o.isSome) = .err .lengthViolation := by decide +kernel
    have key' : ∀ a b c : Bool, ((sendSigned ⟨a, b, c⟩ (Packet.toBytes ⟨a, b, c⟩) (fun _ => List.replicate 32 7) []
        [[107]] exTsig exEdns).bind fun d => Res.ok d.length) = .ok 106 := by decide +kernel
    exact exchange_refused (key' cfg.overflowChecks cfg.mdns cfg.dnssec) (key cfg.overflowChecks cfg.mdns cfg.dnssec)
  · have key : ∀ a b c : Bool, ((sendSigned ⟨a, b, c⟩ (Packet.toBytesCompressed ⟨a, b, c⟩ (Target.hashFqdn ⟨false, 8⟩))
        (fun _ => List.replicate 32 7) [] [[107]] exTsig exEdns).bind fun d => (receiveSigned ⟨a, b, c⟩
          (Packet.toBytesCompressed ⟨a, b, c⟩ (Target.hashFqdn ⟨false, 8⟩)) (fun _ => List.replicate 32 7) [] d).bind
            fun o => Res.ok o.isSome) = .ok true := by decide +kernel
    exact exchange_decided (key cfg.overflowChecks cfg.mdns cfg.dnssec)

/-- Missing in C132: a receiver that writes the message again rejects what was signed in another form, although the key
is the right one and nothing was altered.  Here the sender writes with `to_bytes` and the receiver with
`to_bytes_compressed`, and the other way round; both read the same packet, and the message of the sender is a legal one.
The MAC is the digest input itself, so nothing is lost in it. -/
theorem C132_other_writer_counterexample (cfg : Cfg) :
    (∃ d, sendSigned cfg (Packet.toBytes cfg) id [] [[107]] exTsig exReply = .ok d ∧
      receiveSigned cfg (Packet.toBytesCompressed cfg (Target.hashFqdn ⟨false, 8⟩)) id [] d = .ok none) ∧
    (∃ d, sendSigned cfg (Packet.toBytesCompressed cfg (Target.hashFqdn ⟨false, 8⟩)) id [] [[107]] exTsig exReply = .ok d ∧
      receiveSigned cfg (Packet.toBytes cfg) id [] d = .ok none) := by
  constructor
  · have key : ∀ a b c : Bool, ((sendSigned ⟨a, b, c⟩ (Packet.toBytes ⟨a, b, c⟩) id [] [[107]] exTsig exReply).bind
        fun d => (receiveSigned ⟨a, b, c⟩ (Packet.toBytesCompressed ⟨a, b, c⟩ (Target.hashFqdn ⟨false, 8⟩)) id [] d).bind
          fun o => Res.ok o.isSome) = .ok false := by decide +kernel
    obtain ⟨d, o, h1, h2, h3⟩ := exchange_decided (key cfg.overflowChecks cfg.mdns cfg.dnssec)
    cases o with
    | none => exact ⟨d, h1, h2⟩
    | some => cases h3
  · have key : ∀ a b c : Bool, ((sendSigned ⟨a, b, c⟩ (Packet.toBytesCompressed ⟨a, b, c⟩ (Target.hashFqdn ⟨false, 8⟩)) id
        [] [[107]] exTsig exReply).bind fun d => (receiveSigned ⟨a, b, c⟩ (Packet.toBytes ⟨a, b, c⟩) id [] d).bind
          fun o => Res.ok o.isSome) = .ok false := by decide +kernel
    obtain ⟨d, o, h1, h2, h3⟩ := exchange_decided (key cfg.overflowChecks cfg.mdns cfg.dnssec)
    cases o with
    | none => exact ⟨d, h1, h2⟩
    | some => cases h3

/-- C132: a reply, a key and TSIG data meet the hypotheses of both theorems, with a MAC of 32 octets. -/
example (cfg : Cfg) (h : Hash) (hh : NoCollision h ([[107]] :: exTsig.algorithm :: packetNames exReply)) :
    ∃ b d e f, exReply.toBytes cfg = .ok b ∧
      sendSigned cfg (Packet.toBytes cfg) (fun _ => List.replicate 32 7) [] [[107]] exTsig exReply = .ok d ∧
      receiveSigned cfg (Packet.toBytes cfg) (fun _ => List.replicate 32 7) [] d =
        .ok (some (exReply, [[107]], tsigFilled (fun _ => List.replicate 32 7) [] b [[107]] exTsig 9)) ∧
      exReply.toBytesCompressed cfg h = .ok e ∧
      sendSigned cfg (Packet.toBytesCompressed cfg h) (fun _ => List.replicate 32 7) [] [[107]] exTsig exReply = .ok f := by
  obtain ⟨h1, h2, h3⟩ := exReply_ok cfg
  have ht : TsigFits (fun _ => List.replicate 32 7) [[107]] exTsig :=
    ⟨by decide, by decide, by decide, fun _ => by simp [exTsig, nameOctets]⟩
  obtain ⟨b, d, k1, k2, k3⟩ := C132_plain_partial cfg (fun _ => List.replicate 32 7) [] [[107]] exTsig exReply h1 h2 h3
    (by simp [exReply]) ht
  obtain ⟨e, f, k4, k5, -⟩ := C132_compressed_partial cfg h (fun _ => List.replicate 32 7) [] [[107]] exTsig exReply h1 h2
    (fun r hr => (h3 r hr).1) hh (by simp [exReply]) ht
  exact ⟨b, d, e, f, k1, k2, k3, k4, k5⟩

/-- C132: a MAC that only the signer of one reply could have made, and what is accepted then. -/
example : ∃ mac d t b,
    receiveSigned ⟨true, true, true⟩ (Packet.toBytes ⟨true, true, true⟩) mac [] d = .ok (some (exReply, [[107]], t)) ∧
    exReply.toBytes ⟨true, true, true⟩ = .ok b ∧ TsigFits mac [[107]] exTsig ∧
    ∀ x, mac x = t.mac → x = tsigDigest [] b [[107]] exTsig := by
  obtain ⟨h1, h2, h3⟩ := exReply_ok ⟨true, true, true⟩
  obtain ⟨b, hb, -⟩ := C27_packet_round_trip_partial _ exReply h1 h3
  have ht : TsigFits (fun x => if x = tsigDigest [] b [[107]] exTsig then [1] else []) [[107]] exTsig := by
    refine ⟨by decide, by decide, by decide, fun x => ?_⟩
    dsimp only
    split <;> simp [exTsig, nameOctets]
  obtain ⟨b', d, k1, k2, k3⟩ := C132_plain_partial ⟨true, true, true⟩
    (fun x => if x = tsigDigest [] b [[107]] exTsig then [1] else []) [] [[107]] exTsig exReply h1 h2 h3
    (by simp [exReply]) ht
  obtain rfl := Res.ok.inj (hb.symm.trans k1)
  refine ⟨_, d, _, b, k3, hb, ht, fun x hx => ?_⟩
  simp only [tsigFilled, if_pos] at hx
  by_contra hne
  rw [if_neg hne] at hx
  cases hx

/-- C132: octets of other software, with a name that ends in a TTL, are cut from the record that follows them. -/
example : cutLast ⟨true, true, true⟩ (arcount 1 [0, 1, 0, 0, 0, 0, 0, 2, 0, 0, 0, 0, 0, 0, 1, 0, 1, 1, 97, 0, 0, 0, 4, 10,
      0, 0, 1, 0xC0, 17, 0, 1, 0, 1, 0, 0, 0, 5, 0, 4, 10, 0, 0, 2] ++ tailOctets) =
    .ok ([0, 1, 0, 0, 0, 0, 0, 2, 0, 0, 0, 0, 0, 0, 1, 0, 1, 1, 97, 0, 0, 0, 4, 10, 0, 0, 1, 0xC0, 17, 0, 1, 0, 1, 0, 0, 0,
      5, 0, 4, 10, 0, 0, 2], tailRecord) :=
  have h := C132_cut_partial ⟨true, true, true⟩ _ tailOctets _ tailRecord far_placed tail_record (by decide) (by
    intro x hx
    simp only [records, List.append_nil, List.mem_cons, List.not_mem_nil, or_false] at hx
    rcases hx with rfl | rfl | rfl <;> exact ⟨trivial, trivial⟩)
  h

end Dns
