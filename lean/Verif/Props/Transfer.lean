import Verif.Spec.Transfer
import Verif.Props.Represented
import Verif.Props.Update

/-
C128: messages over TCP with and without compression, the connection cut anywhere, and zone transfers.
-/

namespace Dns
open Spec Buf

/-- A caller that reads one message from a connection with the calls of the crate: `extract_u16`, `extract_bytes`, and
`Packet::try_from` of the octets (which makes a buffer of its own of them, so that pointers are taken from the start of
the message). -/
def readMessage (cfg : Cfg) : Parser Packet := do
  let len ← extractU16
  let b ← extractBytes len.toNat
  Parser.lift (Packet.parse cfg b)

/-- A caller that reads messages until it has the second record of the type SOA (RFC 5936, section 2.2), of which there
are not more than `n`. -/
def readTransfer (cfg : Cfg) : Nat → List ResourceRecord → Parser (List ResourceRecord)
  | 0, _ => Parser.fail .lengthViolation
  | n + 1, got => do
    let p ← readMessage cfg
    let got := got ++ p.answers
    if (got.filter (fun r => r.rdata.type == .SOA)).length ≥ 2 then return got
    else readTransfer cfg n got

theorem tcp_len {b : Bytes} (hb : b.length < 65536) : (UInt16.ofNat b.length).toNat = b.length := by
  rw [UInt16.toNat_ofNat']; exact Nat.mod_eq_of_lt hb

theorem tcpMessage_length (b : Bytes) : (tcpMessage b).length = b.length + 2 := by
  simp [tcpMessage, octets16]

theorem readMessage_behind (cfg : Cfg) {b : Bytes} (hb : b.length < 65536) (pre post : Bytes) :
    readMessage cfg (pre ++ tcpMessage b ++ post) pre.length =
      (Packet.parse cfg b, pre.length + (tcpMessage b).length) := by
  have h1 : extractU16 (pre ++ tcpMessage b ++ post) pre.length = (.ok (UInt16.ofNat b.length), pre.length + 2) :=
    extractU16_ok.mpr ⟨pre, b ++ post, by simp [tcpMessage], rfl, rfl⟩
  have h2 : extractBytes b.length (pre ++ tcpMessage b ++ post) (pre.length + 2) = (.ok b, pre.length + 2 + b.length) :=
    extractBytes_ok.mpr ⟨rfl, pre ++ octets16 (UInt16.ofNat b.length), post, by simp [tcpMessage], by simp [octets16], rfl⟩
  unfold readMessage
  rw [bind_right h1, tcp_len hb, bind_right h2, tcpMessage_length]
  show (_, _) = _
  rw [show pre.length + 2 + b.length = pre.length + (b.length + 2) by omega]

/-- C128: messages over TCP.  Whatever stands before and behind them, and however they are compressed, messages with
their lengths before them are read one after the other as `Packet::try_from` reads each of them. -/
theorem C128_messages (cfg : Cfg) (ms : List (Bytes × Packet)) (pre post : Bytes)
    (h : ∀ m ∈ ms, m.1.length < 65536 ∧ Packet.parse cfg m.1 = .ok m.2) :
    Parser.times ms.length (readMessage cfg) (pre ++ tcpStream (ms.map (·.1)) ++ post) pre.length =
      (.ok (ms.map (·.2)), pre.length + (tcpStream (ms.map (·.1))).length) := by
  induction ms generalizing pre with
  | nil => rfl
  | cons m ms ih =>
    have hm := h m (by simp)
    have h1 := readMessage_behind cfg hm.1 pre (tcpStream (ms.map (·.1)) ++ post)
    rw [hm.2] at h1
    have h2 := ih (pre ++ tcpMessage m.1) (fun x hx => h x (by simp [hx]))
    have e : pre ++ tcpStream ((m :: ms).map (·.1)) ++ post =
        pre ++ tcpMessage m.1 ++ (tcpStream (ms.map (·.1)) ++ post) := by simp [tcpStream]
    have l : (tcpStream ((m :: ms).map (·.1))).length = (tcpMessage m.1).length + (tcpStream (ms.map (·.1))).length := by
      simp [tcpStream]
    rw [e, l]
    simp only [List.length_cons, List.map_cons, Parser.times, Parser.bind_ok, Parser.pure_ok]
    refine ⟨_, _, h1, _, _, ?_, rfl, rfl⟩
    rw [← List.append_assoc]
    simp only [List.length_append] at h2
    rw [h2, Nat.add_assoc]
example (pre post : Bytes) := C128_messages ⟨true, true, true⟩
  [([0, 1, 1, 0, 0, 1, 0, 0, 0, 0, 0, 0, 1, 97, 0, 0, 1, 0, 1], ⟨⟨1, ⟨1, 0⟩, 1, 0, 0, 0⟩, [⟨[[97]], .rr .A, .IN, false⟩], [], [], []⟩)] pre post
  (fun m hm => by rw [List.mem_singleton.mp hm]; exact ⟨by decide, by decide +kernel⟩)

/-- C128: a message of which not all octets have arrived is refused with `LengthViolation`. -/
theorem C128_incomplete (cfg : Cfg) (b pre : Bytes) (hb : b.length < 65536) (k : Nat) (hk : k < (tcpMessage b).length) :
    (readMessage cfg (pre ++ (tcpMessage b).take k) pre.length).1 = .err .lengthViolation := by
  unfold readMessage
  rw [tcpMessage_length] at hk
  by_cases h2 : k < 2
  · refine bind_err ?_
    unfold extractU16
    refine bind_err ?_
    unfold extractBytes
    rw [if_pos (by simp [tcpMessage_length]; omega)]
  · have e : (tcpMessage b).take k = octets16 (UInt16.ofNat b.length) ++ b.take (k - 2) := by
      obtain ⟨m, rfl⟩ : ∃ m, k = 2 + m := ⟨k - 2, by omega⟩
      rw [Nat.add_sub_cancel_left]
      exact List.take_length_add_append (l₁ := octets16 (UInt16.ofNat b.length)) (l₂ := b) m
    rw [e]
    have h1 : extractU16 (pre ++ (octets16 (UInt16.ofNat b.length) ++ b.take (k - 2))) pre.length =
        (.ok (UInt16.ofNat b.length), pre.length + 2) :=
      extractU16_ok.mpr ⟨pre, b.take (k - 2), by simp, rfl, rfl⟩
    rw [bind_right h1, tcp_len hb]
    refine bind_err ?_
    unfold extractBytes
    rw [if_pos (by simp [octets16]; omega)]
example (cfg : Cfg) : (readMessage cfg ([9] ++ (tcpMessage [1, 2, 3]).take 4) 1).1 = .err .lengthViolation :=
  C128_incomplete cfg [1, 2, 3] [9] (by decide) 4 (by decide)

/-- C128: a connection of which only the first `k` octets have arrived.  The messages that have arrived as a whole are
read, and reading a further one reports `LengthViolation`: there is no `k` for which a message is lost or read as another
one. -/
theorem C128_cut (cfg : Cfg) (ms : List (Bytes × Packet))
    (h : ∀ m ∈ ms, m.1.length < 65536 ∧ Packet.parse cfg m.1 = .ok m.2) (k : Nat)
    (hk : k < (tcpStream (ms.map (·.1))).length) :
    ∃ n < ms.length, (tcpStream ((ms.take n).map (·.1))).length ≤ k ∧ k < (tcpStream ((ms.take (n + 1)).map (·.1))).length ∧
      Parser.times n (readMessage cfg) ((tcpStream (ms.map (·.1))).take k) 0 =
        (.ok ((ms.take n).map (·.2)), (tcpStream ((ms.take n).map (·.1))).length) ∧
      (readMessage cfg ((tcpStream (ms.map (·.1))).take k) (tcpStream ((ms.take n).map (·.1))).length).1 =
        .err .lengthViolation := by
  have key : ∀ (xs : List (Bytes × Packet)) (k : Nat), k < (tcpStream (xs.map (·.1))).length →
      ∃ n < xs.length, (tcpStream ((xs.take n).map (·.1))).length ≤ k ∧
        k < (tcpStream ((xs.take (n + 1)).map (·.1))).length := by
    intro xs
    induction xs with
    | nil => intro k hk; simp [tcpStream] at hk
    | cons m xs ih =>
      intro k hk
      by_cases hm : k < (tcpMessage m.1).length
      · exact ⟨0, by simp, by simp [tcpStream], by simpa [tcpStream] using hm⟩
      · obtain ⟨n, h1, h2, h3⟩ := ih (k - (tcpMessage m.1).length) (by simp [tcpStream] at hk ⊢; omega)
        refine ⟨n + 1, by simpa using h1, ?_, ?_⟩
        · simp [tcpStream] at h2 hm ⊢; omega
        · simp [tcpStream] at h3 hm ⊢; omega
  obtain ⟨n, h1, h2, h3⟩ := key ms k hk
  refine ⟨n, h1, h2, h3, ?_⟩
  obtain ⟨xs, m, ys, rfl, rfl⟩ : ∃ xs m ys, ms = xs ++ m :: ys ∧ n = xs.length :=
    ⟨ms.take n, ms[n], ms.drop (n + 1), by rw [List.cons_getElem_drop_succ, List.take_append_drop],
      by rw [List.length_take]; omega⟩
  have t1 : (xs ++ m :: ys).take xs.length = xs := List.take_left
  have t2 : (xs ++ m :: ys).take (xs.length + 1) = xs ++ [m] := by
    rw [List.take_length_add_append]; rfl
  rw [t2] at h3
  rw [t1] at h2 ⊢
  have e3 : tcpStream ((xs ++ [m]).map (·.1)) = tcpStream (xs.map (·.1)) ++ tcpMessage m.1 := by simp [tcpStream]
  have e4 : tcpStream ((xs ++ m :: ys).map (·.1)) =
      tcpStream (xs.map (·.1)) ++ (tcpMessage m.1 ++ tcpStream (ys.map (·.1))) := by simp [tcpStream]
  rw [e3, List.length_append] at h3
  obtain ⟨r, rfl⟩ : ∃ r, k = (tcpStream (xs.map (·.1))).length + r := ⟨k - (tcpStream (xs.map (·.1))).length, by omega⟩
  have e5 : (tcpStream ((xs ++ m :: ys).map (·.1))).take ((tcpStream (xs.map (·.1))).length + r) =
      tcpStream (xs.map (·.1)) ++ (tcpMessage m.1).take r := by
    rw [e4, List.take_length_add_append, List.take_append_of_le_length (by omega)]
  rw [e5]
  refine ⟨?_, C128_incomplete cfg m.1 _ (h m (by simp)).1 r (by omega)⟩
  have := C128_messages cfg xs [] ((tcpMessage m.1).take r) (fun x hx => h x (by simp [hx]))
  simpa using this
example := C128_cut ⟨true, true, true⟩
  [([0, 1, 1, 0, 0, 1, 0, 0, 0, 0, 0, 0, 1, 97, 0, 0, 1, 0, 1], ⟨⟨1, ⟨1, 0⟩, 1, 0, 0, 0⟩, [⟨[[97]], .rr .A, .IN, false⟩], [], [], []⟩)]
  (fun m hm => by rw [List.mem_singleton.mp hm]; exact ⟨by decide, by decide +kernel⟩) 7 (by decide)

theorem readTransfer_stops (cfg : Cfg) (soa : ResourceRecord) (others : List ResourceRecord)
    (hs : soa.rdata.type = .SOA) (ho : ∀ r ∈ others, r.rdata.type ≠ .SOA) :
    ∀ (ms : List (Bytes × Packet)) (got : List ResourceRecord) (n : Nat) (pre post : Bytes), ms.length ≤ n →
      (∀ m ∈ ms, m.1.length < 65536 ∧ Packet.parse cfg m.1 = .ok m.2 ∧ m.2.answers ≠ []) → ms ≠ [] →
      got ++ (ms.map (·.2.answers)).flatten = transfer soa others →
      readTransfer cfg n got (pre ++ tcpStream (ms.map (·.1)) ++ post) pre.length =
        (.ok (transfer soa others), pre.length + (tcpStream (ms.map (·.1))).length) := by
  have hall : ((transfer soa others).filter (fun r => r.rdata.type == .SOA)).length = 2 := by
    have : others.filter (fun r => r.rdata.type == .SOA) = [] := by
      rw [List.filter_eq_nil_iff]
      intro r hr
      simpa using ho r hr
    simp [transfer, List.filter_append, this, hs]
  intro ms
  induction ms with
  | nil => intro _ _ _ _ _ _ h; exact absurd rfl h
  | cons m ms ih =>
    intro got n pre post hn hm _ hg
    obtain ⟨n, rfl⟩ : ∃ k, n = k + 1 := ⟨n - 1, by simp at hn; omega⟩
    have hm1 := hm m (by simp)
    have h1 := readMessage_behind cfg hm1.1 pre (tcpStream (ms.map (·.1)) ++ post)
    rw [hm1.2.1] at h1
    have e : pre ++ tcpStream ((m :: ms).map (·.1)) ++ post =
        pre ++ tcpMessage m.1 ++ (tcpStream (ms.map (·.1)) ++ post) := by simp [tcpStream]
    have l : (tcpStream ((m :: ms).map (·.1))).length = (tcpMessage m.1).length + (tcpStream (ms.map (·.1))).length := by
      simp [tcpStream]
    rw [e, l]
    unfold readTransfer
    rw [bind_right h1]
    simp only [List.map_cons, List.flatten_cons] at hg
    by_cases hl : ms = []
    · subst hl
      simp only [List.map_nil, List.flatten_nil, List.append_nil] at hg
      simp only [hg, hall]
      simp [tcpStream]
      rfl
    · have hne : ((ms.map (·.2.answers)).flatten) ≠ [] := by
        intro he
        obtain ⟨x, xs, rfl⟩ := List.exists_cons_of_ne_nil hl
        simp only [List.map_cons, List.flatten_cons, List.append_eq_nil_iff] at he
        exact (hm x (by simp)).2.2 he.1
      have hpre : ∃ ys, (transfer soa others) = (got ++ m.2.answers) ++ ys ++ [soa] := by
        have e2 : (got ++ m.2.answers) ++ (ms.map (·.2.answers)).flatten = (soa :: others) ++ [soa] := by
          rw [List.append_assoc, hg]; rfl
        rw [← List.dropLast_append_getLast hne, ← List.append_assoc] at e2
        have := List.append_inj_left' e2 rfl
        exact ⟨((ms.map (·.2.answers)).flatten).dropLast, by rw [this]; rfl⟩
      obtain ⟨ys, hy⟩ := hpre
      have hc : ¬ (((got ++ m.2.answers).filter (fun r => r.rdata.type == .SOA)).length ≥ 2) := by
        intro hc
        rw [hy] at hall
        simp only [List.filter_append, List.length_append, List.filter_cons, hs] at hall hc
        simp at hall
        omega
      simp only [if_neg hc]
      have h2 := ih (got ++ m.2.answers) n (pre ++ tcpMessage m.1) post (by simp at hn; omega)
        (fun x hx => hm x (by simp [hx])) hl (by rw [List.append_assoc]; exact hg)
      rw [← List.append_assoc]
      simp only [List.length_append] at h2
      rw [h2, Nat.add_assoc]

/-- A message of a transfer that is written by the crate: without compression, if no record in it is one whose length the
plain writer gets wrong (C27), or with compression, if the hash function has no collision and the message has at most
16384 octets (C28). -/
def Sent (cfg : Cfg) (h : Hash) (p : Packet) (b : Bytes) : Prop :=
  (p.toBytes cfg = .ok b ∧ b.length < 65536 ∧ ∀ r ∈ records p, sizeError r.rdata = 0) ∨
  (p.toBytesCompressed cfg h = .ok b ∧ b.length ≤ 16384 ∧ CountsOk p ∧ NoCollision h (packetNames p))

theorem sent_read {cfg : Cfg} {h : Hash} {p : Packet} {b : Bytes} (hs : Sent cfg h p b) (hp : PacketOk cfg 191 p)
    (hf : ∀ r ∈ records p, r.rdata.type ≠ .SSHFP) : b.length < 65536 ∧ Packet.parse cfg b = .ok (withCounts p) := by
  rcases hs with ⟨h1, h2, h3⟩ | ⟨h1, h2, h3, h4⟩
  · refine ⟨h2, ?_⟩
    obtain ⟨b', h5, h6⟩ := C27_packet_round_trip_partial cfg p hp (fun r hr => ⟨hf r hr, h3 r hr⟩)
    rw [h1] at h5
    cases h5
    simpa using (h6 []).1
  · refine ⟨by omega, ?_⟩
    have := (C28_packet_exact cfg h p hp h3 h4 b [] h1 h2).mpr hf
    rw [C27_counts p h3]
    simpa using this

/-- C128 (partial): a zone transfer arrives.  The records of a zone, with its SOA record first and last, are put into the
answers of messages, in whatever portions, the messages written with or without compression, each with its length before
it.  A caller that reads messages until it has the second SOA record has all the records in their order, and what stands
behind the last message has not been touched.  What is missing: records of the type SSHFP (false, see
`C128_counterexample`), and messages which the writers get wrong (see `Sent`). -/
theorem C128_transfer_partial (cfg : Cfg) (h : Hash) (soa : ResourceRecord) (others : List ResourceRecord)
    (hs : soa.rdata.type = .SOA) (ho : ∀ r ∈ others, r.rdata.type ≠ .SOA) (ms : List (Bytes × Packet))
    (hm : ∀ m ∈ ms, Sent cfg h m.2 m.1 ∧ PacketOk cfg 191 m.2 ∧ (∀ r ∈ records m.2, r.rdata.type ≠ .SSHFP) ∧
      m.2.answers ≠ [])
    (ht : (ms.map (·.2.answers)).flatten = transfer soa others) (pre post : Bytes) (n : Nat) (hn : ms.length ≤ n) :
    readTransfer cfg n [] (pre ++ tcpStream (ms.map (·.1)) ++ post) pre.length =
      (.ok (transfer soa others), pre.length + (tcpStream (ms.map (·.1))).length) := by
  have hne : ms ≠ [] := by rintro rfl; simp [transfer] at ht
  have := readTransfer_stops cfg soa others hs ho (ms.map (fun m => (m.1, withCounts m.2))) [] n pre post
    (by simpa using hn) ?_ (by simpa using hne) ?_
  · simpa [Function.comp_def] using this
  · intro m hx
    obtain ⟨x, hy, rfl⟩ := List.mem_map.mp hx
    obtain ⟨h1, h2, h3, h4⟩ := hm x hy
    exact ⟨(sent_read h1 h2 h3).1, (sent_read h1 h2 h3).2, h4⟩
  · rw [← ht]
    simp only [List.map_map, List.nil_append]
    rfl

/-- The message of a transfer with one record: what `Packet::new_reply` and `add_answer` make, for instance. -/
def oneRecord (id : UInt16) (fl : Flags) (r : ResourceRecord) : Packet := ⟨⟨id, fl, 0, 1, 0, 0⟩, [], [r], [], []⟩

theorem oneRecord_bytes {cfg : Cfg} {id : UInt16} {fl : Flags} {r : ResourceRecord} {b : Bytes}
    (h : r.toBytes cfg = .ok b) : (oneRecord id fl r).toBytes cfg = .ok ((oneRecord id fl r).headerBytes ++ b) := by
  have h' : Packet.recordsBytes cfg [r] (oneRecord id fl r).headerBytes = .ok ((oneRecord id fl r).headerBytes ++ b) := by
    simp only [Packet.recordsBytes, h]; rfl
  show (do
    let bin ← Packet.recordsBytes cfg [r] (oneRecord id fl r).headerBytes
    let bin ← Packet.recordsBytes cfg [] bin
    Packet.recordsBytes cfg [] bin) = _
  rw [h']
  rfl

/-- C128: every zone can be transferred in this way whose records are written rightly and have less than 65524 octets:
with each record in a message of its own that is written without compression. -/
theorem C128_possible (cfg : Cfg) (id : UInt16) (fl : Flags) (soa : ResourceRecord) (others : List ResourceRecord)
    (hs : soa.rdata.type = .SOA) (ho : ∀ r ∈ others, r.rdata.type ≠ .SOA)
    (hr : ∀ r ∈ transfer soa others, RecordOk cfg 191 r ∧ r.rdata.type ≠ .SSHFP ∧ sizeError r.rdata = 0 ∧
      ∃ b, r.toBytes cfg = .ok b ∧ b.length < 65524) :
    ∃ bs : List Bytes, List.Forall₂ (fun r b => (oneRecord id fl r).toBytes cfg = .ok b) (transfer soa others) bs ∧
      ∀ (pre post : Bytes) (n : Nat), (transfer soa others).length ≤ n →
        readTransfer cfg n [] (pre ++ tcpStream bs ++ post) pre.length =
          (.ok (transfer soa others), pre.length + (tcpStream bs).length) := by
  have key : ∀ rs : List ResourceRecord, (∀ r ∈ rs, RecordOk cfg 191 r ∧ r.rdata.type ≠ .SSHFP ∧ sizeError r.rdata = 0 ∧
      ∃ b, r.toBytes cfg = .ok b ∧ b.length < 65524) →
      ∃ ms : List (Bytes × Packet), List.Forall₂ (fun r b => (oneRecord id fl r).toBytes cfg = .ok b) rs (ms.map (·.1)) ∧
        (ms.map (·.2.answers)).flatten = rs ∧ ms.length = rs.length ∧
        ∀ m ∈ ms, Sent cfg (fun _ => 0) m.2 m.1 ∧ PacketOk cfg 191 m.2 ∧
          (∀ r ∈ records m.2, r.rdata.type ≠ .SSHFP) ∧ m.2.answers ≠ [] := by
    intro rs
    induction rs with
    | nil => intro _; exact ⟨[], .nil, rfl, rfl, by simp⟩
    | cons r rs ih =>
      intro hr
      obtain ⟨ms, h1, h2, h3, h4⟩ := ih (fun x hx => hr x (by simp [hx]))
      obtain ⟨r1, r2, r3, b, r4, r5⟩ := hr r (by simp)
      have hb := oneRecord_bytes (id := id) (fl := fl) r4
      refine ⟨(_, oneRecord id fl r) :: ms, .cons hb h1, ?_, by simp [h3], ?_⟩
      · simp only [List.map_cons, List.flatten_cons, h2]; rfl
      · intro m hm
        rcases List.mem_cons.mp hm with rfl | hm
        · have hrec : ∀ x ∈ records (oneRecord id fl r), x = r := by simp [records, oneRecord]
          refine ⟨.inl ⟨hb, ?_, fun x hx => by rw [hrec x hx]; exact r3⟩,
            ⟨by simp [oneRecord], fun x hx => by rw [hrec x hx]; exact r1, by simp [oneRecord], by simp [oneRecord],
              by simp [oneRecord], by simp [oneRecord]⟩, fun x hx => by rw [hrec x hx]; exact r2, by simp [oneRecord]⟩
          have l : (oneRecord id fl r).headerBytes.length = 12 := rfl
          rw [List.length_append, l]
          omega
        · exact h4 m hm
  obtain ⟨ms, h1, h2, h3, h4⟩ := key _ hr
  exact ⟨ms.map (·.1), h1, fun pre post n hn =>
    C128_transfer_partial cfg _ soa others hs ho ms h4 h2 pre post n (by rw [h3]; exact hn)⟩

/-- C128: an incremental transfer (RFC 1995, QTYPE 251) cannot be asked for: no question has this type. -/
theorem C128_incremental_not_written (q : QType) : q.toU16 ≠ 251 := by
  cases q with
  | rr t => cases t <;> decide
  | _ => decide

/-- C128: and a message whose first question asks for one is refused with `InvalidType(251)`. -/
theorem C128_incremental_refused (cfg : Cfg) (id qd an au ad : UInt16) (f1 f2 : UInt8) (n : List Bytes) (rest : Bytes)
    (hn : ∀ l ∈ n, 1 ≤ l.length ∧ l.length ≤ 63) (hq : qd ≠ 0) :
    Packet.parse cfg (octets16 id ++ [f1, f2] ++ octets16 qd ++ octets16 an ++ octets16 au ++ octets16 ad ++
      nameOctets n ++ octets16 251 ++ rest) = .err (.invalidType 251) := by
  generalize hd : octets16 id ++ [f1, f2] ++ octets16 qd ++ octets16 an ++ octets16 au ++ octets16 ad ++
      nameOctets n ++ octets16 251 ++ rest = d
  have hd1 : d = Items.octets (headerItems ⟨id, ⟨f1, f2⟩, qd, an, au, ad⟩) ++ (nameOctets n ++ octets16 251 ++ rest) := by
    rw [← hd]
    simp [Items.octets, headerItems, Item.octets, List.append_assoc]
  have hh : Items.At Decodes d 0 (headerItems ⟨id, ⟨f1, f2⟩, qd, an, au, ad⟩) 12 := by
    have h1 : Items.At Decodes ([] ++ Items.octets (headerItems ⟨id, ⟨f1, f2⟩, qd, an, au, ad⟩)) ([] : Bytes).length
        (headerItems ⟨id, ⟨f1, f2⟩, qd, an, au, ad⟩)
        ([] ++ Items.octets (headerItems ⟨id, ⟨f1, f2⟩, qd, an, au, ad⟩)).length :=
      items_decode (Nat.le_refl 191) _ [] (by simp [headerItems, Item.Fits]) (by simp [headerItems, Item.Open])
    have h2 := items_extend decodes_extends (by simp [headerItems, Item.Open]) h1 (nameOctets n ++ octets16 251 ++ rest)
    rw [hd1]
    exact h2
  have hz : Items.At Decodes d 12 [.name n, .u16 251] (12 + (nameOctets n).length + 2) := by
    have h1 := items_decode (Nat.le_refl 191) [.name n, .u16 251]
      (Items.octets (headerItems ⟨id, ⟨f1, f2⟩, qd, an, au, ad⟩)) (by
        simp only [List.mem_cons, List.not_mem_nil, or_false]
        rintro it (rfl | rfl) <;> first | trivial | skip
        exact fun l hl => ⟨(hn l hl).1, by have := (hn l hl).2; omega⟩) (by simp [Item.Open])
    have h2 := items_extend decodes_extends (by simp [Item.Open]) h1 rest
    have e : Items.octets (headerItems ⟨id, ⟨f1, f2⟩, qd, an, au, ad⟩) ++ Items.octets [.name n, .u16 251] ++ rest = d := by
      rw [hd1]
      simp [Items.octets, Item.octets]
    rw [e] at h2
    have l : (Items.octets (headerItems ⟨id, ⟨f1, f2⟩, qd, an, au, ad⟩)).length = 12 := rfl
    rw [List.length_append, l] at h2
    have l2 : (Items.octets [.name n, .u16 251]).length = (nameOctets n).length + 2 := by
      simp [Items.octets, Item.octets, octets16]
    rw [l2, ← Nat.add_assoc] at h2
    exact h2
  obtain ⟨k, hz1, k2, hz2, -⟩ := hz
  unfold Packet.parse Packet.parseBuf
  rw [bind_right ((Header.parse_ok (N := Decodes)).mpr hh)]
  refine bind_err (times_err _ [] _ _ rfl ?_ ?_)
  · exact Nat.pos_of_ne_zero fun h => hq (UInt16.toNat_inj.mp h)
  · unfold Question.parse
    rw [bind_right hz1, bind_right (extractU16_ok.mpr hz2)]
    refine bind_err ?_
    cases cfg with
    | mk a b c => cases a <;> cases b <;> cases c <;> rfl

/-! ## Examples -/

def exSoa : ResourceRecord := ⟨[[97]], .SOA, false, .IN, 5, .SOA ⟨[[98], [97]], [[99], [97]], 1, 2, 3, 4, 5⟩⟩
def exAddress : ResourceRecord := ⟨[[98], [97]], .A, false, .IN, 5, .A ⟨0xC0000201⟩⟩

/-- The answers of a message of a transfer. -/
def exPortion (rs : List ResourceRecord) : Packet := ⟨⟨7, ⟨0x84, 0⟩, 0, UInt16.ofNat rs.length, 0, 0⟩, [], rs, [], []⟩

theorem exSoa_ok (cfg : Cfg) : RecordOk cfg 191 exSoa :=
  ⟨by decide, by simp [exSoa, Readable, dnssecTypes], rfl, trivial, by decide, fun h => absurd h (by decide), by
    simp only [exSoa, Writable]; decide, fun b hb => by cases hb; decide⟩

theorem exAddress_ok (cfg : Cfg) : RecordOk cfg 191 exAddress :=
  ⟨by decide, by simp [exAddress, Readable, dnssecTypes], rfl, trivial, by decide, fun h => absurd h (by decide), trivial,
    fun b hb => by cases hb; decide⟩

theorem exNames {rs : List ResourceRecord} (h : ∀ r ∈ rs, r = exSoa ∨ r = exAddress) :
    NoCollision exHash (packetNames (exPortion rs)) := by
  have key : ∀ a ∈ ([[[97]], [[98], [97]], [[99], [97]]] : List Fqdn).flatMap List.tails,
      ∀ b ∈ ([[[97]], [[98], [97]], [[99], [97]]] : List Fqdn).flatMap List.tails, exHash a = exHash b → a = b := by
    decide +kernel
  have hm : ∀ n ∈ packetNames (exPortion rs), n ∈ ([[[97]], [[98], [97]], [[99], [97]]] : List Fqdn) := by
    intro n hn
    simp only [packetNames, exPortion, records, List.append_nil, List.map_nil, List.nil_append,
      List.mem_flatMap] at hn
    obtain ⟨r, hr, hn⟩ := hn
    rcases h r hr with rfl | rfl
    · revert n; decide
    · revert n; decide
  rintro a b ⟨n, hn, ha⟩ ⟨m, hn', hb⟩ h
  exact key a (List.mem_flatMap.mpr ⟨n, hm n hn, (List.mem_tails _ _).mpr ha⟩) b
    (List.mem_flatMap.mpr ⟨m, hm m hn', (List.mem_tails _ _).mpr hb⟩) h

theorem exPortion_ok (cfg : Cfg) {rs : List ResourceRecord} (h : ∀ r ∈ rs, r = exSoa ∨ r = exAddress)
    (hl : rs.length < 65536) : PacketOk cfg 191 (exPortion rs) ∧
      (∀ r ∈ records (exPortion rs), r.rdata.type ≠ .SSHFP) ∧ ∀ r ∈ records (exPortion rs), sizeError r.rdata = 0 := by
  have hr : ∀ r ∈ records (exPortion rs), r = exSoa ∨ r = exAddress := by
    intro r hr
    simp only [records, exPortion, List.append_nil] at hr
    exact h r hr
  refine ⟨⟨by simp [exPortion], fun r hx => ?_, by simp [exPortion], hl, by simp [exPortion], by simp [exPortion]⟩,
    fun r hx => ?_, fun r hx => ?_⟩
  · rcases hr r hx with rfl | rfl
    · exact exSoa_ok cfg
    · exact exAddress_ok cfg
  · rcases hr r hx with rfl | rfl <;> decide
  · rcases hr r hx with rfl | rfl <;> rfl

/-- C128: a transfer in two messages, of which the first is written with compression (and is shorter than without) and the
second without. -/
example (cfg : Cfg) (pre post : Bytes) : ∃ a b c : Bytes,
    (exPortion [exSoa, exAddress]).toBytesCompressed cfg exHash = .ok a ∧ (exPortion [exSoa]).toBytes cfg = .ok b ∧
    (exPortion [exSoa, exAddress]).toBytes cfg = .ok c ∧ a.length < c.length ∧
    readTransfer cfg 2 [] (pre ++ tcpStream [a, b] ++ post) pre.length =
      (.ok [exSoa, exAddress, exSoa], pre.length + (tcpStream [a, b]).length) := by
  have h1 : ∃ a c, (exPortion [exSoa, exAddress]).toBytesCompressed cfg exHash = .ok a ∧ a.length ≤ 16384 ∧
      (exPortion [exSoa, exAddress]).toBytes cfg = .ok c ∧ a.length < c.length := by
    obtain ⟨x, y, z⟩ := cfg
    cases x <;> cases y <;> cases z <;> exact ⟨_, _, rfl, by decide +kernel, rfl, by decide +kernel⟩
  have h2 : ∃ b, (exPortion [exSoa]).toBytes cfg = .ok b ∧ b.length < 65536 := by
    obtain ⟨x, y, z⟩ := cfg
    cases x <;> cases y <;> cases z <;> exact ⟨_, rfl, by decide +kernel⟩
  obtain ⟨a, c, a1, a2, a3, a4⟩ := h1
  obtain ⟨b, b1, b2⟩ := h2
  obtain ⟨p1, p2, -⟩ := exPortion_ok cfg (rs := [exSoa, exAddress]) (by simp) (by decide)
  obtain ⟨q1, q2, q3⟩ := exPortion_ok cfg (rs := [exSoa]) (by simp) (by decide)
  refine ⟨a, b, c, a1, b1, a3, a4, ?_⟩
  refine C128_transfer_partial cfg exHash exSoa [exAddress] rfl (by decide)
    [(a, exPortion [exSoa, exAddress]), (b, exPortion [exSoa])] ?_ rfl pre post 2 (by simp)
  intro m hm
  simp only [List.mem_cons, List.not_mem_nil, or_false] at hm
  rcases hm with rfl | rfl
  · exact ⟨.inr ⟨a1, a2, ⟨rfl, rfl, rfl, rfl⟩, exNames (by simp)⟩, p1, p2, by simp [exPortion]⟩
  · exact ⟨.inl ⟨b1, b2, q3⟩, q1, q2, by simp [exPortion]⟩

/-- C128: a connection cut in the second of two messages: the first is read. -/
example : (tcpStream [[0, 1, 0, 0, 0, 0, 0, 0, 0, 0, 0, 0], [0, 2, 0, 0, 0, 0, 0, 0, 0, 0, 0, 0]]).take 20 =
      [0, 12, 0, 1, 0, 0, 0, 0, 0, 0, 0, 0, 0, 0, 0, 12, 0, 2, 0, 0] ∧
    Parser.times 1 (readMessage ⟨true, true, true⟩) [0, 12, 0, 1, 0, 0, 0, 0, 0, 0, 0, 0, 0, 0, 0, 12, 0, 2, 0, 0] 0 =
      (.ok [⟨⟨1, ⟨0, 0⟩, 0, 0, 0, 0⟩, [], [], [], []⟩], 14) ∧
    (readMessage ⟨true, true, true⟩ [0, 12, 0, 1, 0, 0, 0, 0, 0, 0, 0, 0, 0, 0, 0, 12, 0, 2, 0, 0] 14).1 =
      .err .lengthViolation := by decide +kernel

/-- C128: a zone that can be transferred with a message for each record. -/
example (cfg : Cfg) (r : ResourceRecord) (h : r ∈ transfer exSoa [exAddress]) : RecordOk cfg 191 r ∧
    r.rdata.type ≠ .SSHFP ∧ sizeError r.rdata = 0 ∧ ∃ b, r.toBytes cfg = .ok b ∧ b.length < 65524 := by
  simp only [transfer, List.cons_append, List.nil_append, List.mem_cons, List.not_mem_nil, or_false] at h
  obtain ⟨x, y, z⟩ := cfg
  rcases h with rfl | rfl | rfl
  · exact ⟨exSoa_ok _, by decide, rfl, by cases x <;> cases y <;> cases z <;> exact ⟨_, rfl, by decide +kernel⟩⟩
  · exact ⟨exAddress_ok _, by decide, rfl, by cases x <;> cases y <;> cases z <;> exact ⟨_, rfl, by decide +kernel⟩⟩
  · exact ⟨exSoa_ok _, by decide, rfl, by cases x <;> cases y <;> cases z <;> exact ⟨_, rfl, by decide +kernel⟩⟩

/-- C128: a request for an incremental transfer. -/
example : Packet.parse ⟨true, true, true⟩ [0, 1, 0, 0, 0, 1, 0, 0, 0, 0, 0, 0, 1, 97, 0, 0, 251, 0, 1] =
    .err (.invalidType 251) :=
  C128_incremental_refused ⟨true, true, true⟩ 1 1 0 0 0 0 0 [[97]] [0, 1] (by simp) (by decide)

def bareSoa : ResourceRecord := ⟨[], .SOA, false, .IN, 5, .SOA ⟨[], [], 1, 2, 3, 4, 5⟩⟩

def bareSshfp (b : Bytes) : ResourceRecord := ⟨[], .SSHFP, false, .IN, 5, .SSHFP ⟨.RSA, .SHA1, b⟩⟩
def bareSignature : ResourceRecord :=
  ⟨[], .RRSIG, false, .IN, 5, .RRSIG ⟨.A, .ED25519, 1, 5, 2, 1, 7, [], [1, 2, 3]⟩⟩

/-- The octets of the message with the SSHFP record. -/
def sshfpOctets : Bytes :=
  [0, 7, 132, 0, 0, 0, 0, 3, 0, 0, 0, 0, 0, 0, 6, 0, 1, 0, 0, 0, 5, 0, 22, 0, 0, 0, 0, 0, 1, 0, 0, 0, 2, 0, 0, 0, 3, 0,
   0, 0, 4, 0, 0, 0, 5, 0, 0, 44, 0, 1, 0, 0, 0, 5, 0, 5, 1, 1, 1, 2, 3, 0, 0, 6, 0, 1, 0, 0, 0, 5, 0, 22, 0, 0, 0, 0,
   0, 1, 0, 0, 0, 2, 0, 0, 0, 3, 0, 0, 0, 4, 0, 0, 0, 5]

theorem bare_ok {r : ResourceRecord} (h : RecordOk ⟨true, true, true⟩ 63 r) :
    PacketOk ⟨true, true, true⟩ 63 (exPortion (transfer bareSoa [r])) := by
  have hs : RecordOk ⟨true, true, true⟩ 63 bareSoa :=
    ⟨by decide, by simp [bareSoa, Readable], rfl, trivial, by decide, fun h => absurd h (by decide), by
      simp only [bareSoa, Writable]; decide, fun b hb => by cases hb; decide⟩
  refine ⟨by simp [exPortion], ?_, by simp [exPortion], by simp [exPortion, transfer], by simp [exPortion],
    by simp [exPortion]⟩
  simp only [records, exPortion, transfer, List.append_nil, List.cons_append, List.nil_append, List.mem_cons,
    List.not_mem_nil, or_false]
  rintro x (rfl | rfl | rfl)
  · exact hs
  · exact h
  · exact hs

/-- C128 is false for records of the type SSHFP: the transfer of this zone is read, without an error, as that of a zone
with another fingerprint, whether the message is written with compression (with any hash function) or without. -/
theorem C128_counterexample (h : Hash) : ∃ (r s : ResourceRecord) (a : Bytes),
    r.rdata = .SSHFP ⟨.RSA, .SHA1, [1, 2, 3]⟩ ∧ s.rdata = .SSHFP ⟨.RSA, .SHA1, [2]⟩ ∧
    PacketOk ⟨true, true, true⟩ 63 (exPortion (transfer bareSoa [r])) ∧
    (exPortion (transfer bareSoa [r])).toBytes ⟨true, true, true⟩ = .ok a ∧
    (exPortion (transfer bareSoa [r])).toBytesCompressed ⟨true, true, true⟩ h = .ok a ∧
    ∀ n, readTransfer ⟨true, true, true⟩ (n + 1) [] (tcpStream [a]) 0 =
      (.ok (transfer bareSoa [s]), (tcpStream [a]).length) := by
  have hc : (exPortion (transfer bareSoa [bareSshfp [1, 2, 3]])).toBytesCompressed ⟨true, true, true⟩ h =
      (exPortion (transfer bareSoa [bareSshfp [1, 2, 3]])).toBytesCompressed ⟨true, true, true⟩ (fun _ => 0) := rfl
  have hz : (exPortion (transfer bareSoa [bareSshfp [1, 2, 3]])).toBytesCompressed ⟨true, true, true⟩ (fun _ => 0) =
      .ok sshfpOctets := by decide +kernel
  have hp : Packet.parse ⟨true, true, true⟩ sshfpOctets = .ok (exPortion (transfer bareSoa [bareSshfp [2]])) := by
    decide +kernel
  refine ⟨bareSshfp [1, 2, 3], bareSshfp [2], sshfpOctets, rfl, rfl, bare_ok ?_, by decide +kernel, hc.trans hz, fun n => ?_⟩
  · exact ⟨by decide, by simp [bareSshfp, Readable], rfl, trivial, by decide, fun h => absurd h (by decide), trivial,
      fun b hb => by cases hb; decide⟩
  · have := readTransfer_stops ⟨true, true, true⟩ bareSoa [bareSshfp [2]] rfl (by decide)
      [(sshfpOctets, exPortion (transfer bareSoa [bareSshfp [2]]))] [] (n + 1) [] [] (by simp) (fun m hm => by
        rw [List.mem_singleton] at hm
        subst hm
        exact ⟨by simp [sshfpOctets], hp, by simp [exPortion, transfer]⟩) (by simp) rfl
    simpa using this

/-- C128 is false for signed zones whose messages are written without compression: the reader reports an error. -/
theorem C128_signed_counterexample : ∃ (r : ResourceRecord) (a : Bytes), r.rdata.type = .RRSIG ∧
    PacketOk ⟨true, true, true⟩ 63 (exPortion (transfer bareSoa [r])) ∧
    (exPortion (transfer bareSoa [r])).toBytes ⟨true, true, true⟩ = .ok a ∧
    ∀ n, (readTransfer ⟨true, true, true⟩ (n + 1) [] (tcpStream [a]) 0).1 = .err .lengthViolation := by
  obtain ⟨a, h1, h2⟩ : ∃ a, (exPortion (transfer bareSoa [bareSignature])).toBytes ⟨true, true, true⟩ = .ok a ∧
      (readMessage ⟨true, true, true⟩ (tcpStream [a]) 0).1 = .err .lengthViolation := ⟨_, rfl, by decide +kernel⟩
  refine ⟨bareSignature, a, rfl, bare_ok ?_, h1, fun n => ?_⟩
  · exact ⟨by decide, by simp [bareSignature, Readable], rfl, trivial, by decide, fun h => absurd h (by decide), by
      simp only [bareSignature, Writable]; decide, fun b hb => by cases hb; decide⟩
  · unfold readTransfer
    exact bind_err h2

end Dns
