import Verif.Lemmas.PacketParse

/-! C20–C24: the message header. -/

namespace Dns
open Spec Buf

/-! ## C20 -/

/-- The two flag octets of RFC 1035 section 4.1.1. -/
structure FlagOctets (h : Header) (hi lo : UInt8) (opcode z rcode : Nat) : Prop where
  opcode_lt : opcode < 16
  z_lt : z < 8
  rcode_lt : rcode < 16
  hi : hi.toNat = h.queryResponse.toNat * 128 + opcode * 8 + h.authoritativeAnswer.toNat * 4
    + h.truncation.toNat * 2 + h.recursionDesired.toNat
  lo : lo.toNat = h.recursionAvailable.toNat * 128 + z * 16 + rcode

theorem flags_hi (b : UInt8) : b.toNat = (Flags.getField b 7 1 != 0).toNat * 128
    + (Flags.getField b 3 4).toNat * 8 + (Flags.getField b 2 1 != 0).toNat * 4
    + (Flags.getField b 1 1 != 0).toNat * 2 + (Flags.getField b 0 1 != 0).toNat := by
  revert b; apply forall_u8; decide +kernel

theorem flags_lo (b : UInt8) : b.toNat = (Flags.getField b 7 1 != 0).toNat * 128
    + (Flags.getField b 4 3).toNat * 16 + (Flags.getField b 0 4).toNat := by
  revert b; apply forall_u8; decide +kernel

theorem field_lt (b : UInt8) : (Flags.getField b 3 4).toNat < 16 ∧ (Flags.getField b 4 3).toNat < 8 ∧
    (Flags.getField b 0 4).toNat < 16 := by
  revert b; apply forall_u8; decide +kernel

theorem opcode_number (v : UInt8) (hv : v.toNat < 16) (o : OpCode) : OpCode.ofU8 v = o ↔
    opcodeNumber o = min v.toNat 3 := by
  revert v o
  have : ∀ n : Fin 256, ∀ o ∈ [OpCode.standardQuery, .inverseQuery, .serverStatusRequest, .reserved],
    (UInt8.ofNat n.val).toNat < 16 → (OpCode.ofU8 (UInt8.ofNat n.val) = o ↔
    opcodeNumber o = min (UInt8.ofNat n.val).toNat 3) := by decide +kernel
  intro v hv o
  have := this ⟨v.toNat, v.toNat_lt⟩ o (by cases o <;> simp) (by simpa using hv)
  simpa using this

theorem rcode_number (v : UInt8) (c : ResponseCode) : ResponseCode.ofU8 v = .ok c ↔
    rcodeNumber c = v.toNat := by
  revert v c
  have : ∀ n : Fin 256, ∀ c ∈ [ResponseCode.noError, .formatError, .serverFailure, .nameError,
      .notImplemented, .refused, .yxDomain, .yxRRSet, .nxRRSet, .notAuth, .notZone],
    (ResponseCode.ofU8 (UInt8.ofNat n.val) = .ok c ↔ rcodeNumber c = (UInt8.ofNat n.val).toNat) := by
    decide +kernel
  intro v c
  have := this ⟨v.toNat, v.toNat_lt⟩ c (by cases c <;> simp)
  simpa using this

theorem responseCode_ok (h : Header) (c : ResponseCode) :
    h.responseCode = .ok c ↔ rcodeNumber c = h.flags.rcode.toNat := by
  rw [← rcode_number]
  unfold Header.responseCode
  split <;> simp_all

/-- C20: `to_bytes` is the 12 octets of RFC 1035 section 4.1.1: ID, QR/Opcode/AA/TC/RD, RA/Z/RCODE
and the four counts; the values in the flag octets are the ones the getters report. -/
theorem C20_header_layout (h : Header) :
    ∃ hi lo opcode z rcode,
      h.toBytes = octets16 h.id ++ [hi, lo] ++ octets16 h.quesCount ++ octets16 h.ansCount
        ++ octets16 h.authCount ++ octets16 h.addCount ∧
      h.toBytes.length = 12 ∧ FlagOctets h hi lo opcode z rcode ∧
      opcodeNumber h.opcode = min opcode 3 ∧
      (∀ c, h.responseCode = .ok c ↔ rcodeNumber c = rcode) := by
  refine ⟨h.flags.hi, h.flags.lo, h.flags.opcode.toNat, h.flags.z.toNat, h.flags.rcode.toNat,
    ?_, ?_, ⟨(field_lt _).1, (field_lt _).2.1, (field_lt _).2.2, flags_hi _, flags_lo _⟩, ?_, ?_⟩
  · simp [Header.toBytes, u16be_eq]
  · simp [Header.toBytes, u16be_eq, octets16]
  · exact (opcode_number _ (field_lt _).1 _).mp rfl
  · intro c
    exact responseCode_ok h c

/-- C20: written and read back, at any place of any message. -/
theorem C20_header_round_trip (h : Header) (pre post : Bytes) :
    Header.parse (pre ++ h.toBytes ++ post) pre.length = (.ok h, pre.length + 12) := by
  rw [Header.parse_ok (N := fun _ _ _ _ => False)]
  have hb : h.toBytes = Items.octets (headerItems h) := by
    simp [Header.toBytes, u16be_eq, Items.octets, headerItems, Item.octets]
  have key : ∀ (its : List Item) (pre : Bytes), (∀ it ∈ its, ∃ v, it = .u8 v ∨ ∃ v, it = .u16 v) →
      Items.At (fun _ _ _ _ => False) (pre ++ Items.octets its ++ post) pre.length its
        (pre.length + (Items.octets its).length) := by
    intro its
    induction its with
    | nil => intro pre _; simp [Items.At, Items.octets]
    | cons it its ih =>
      intro pre hit
      have h1 := ih (pre ++ it.octets) (fun x hx => hit x (List.mem_cons_of_mem _ hx))
      have h2 : Items.octets (it :: its) = it.octets ++ Items.octets its := by simp [Items.octets]
      refine ⟨pre.length + it.octets.length, ?_, ?_⟩
      · obtain ⟨v, rfl | ⟨v, rfl⟩⟩ := hit it List.mem_cons_self
        · simp only [Item.At, h2]
          rw [← List.append_assoc, List.append_assoc (pre ++ _)]
          exact octets_mid _ _ _
        · simp only [Item.At, h2]
          rw [← List.append_assoc, List.append_assoc (pre ++ _)]
          exact octets_mid _ _ _
      · rw [h2]
        simp only [List.length_append, List.append_assoc, Nat.add_assoc] at h1 ⊢
        exact h1
  rw [hb]
  have := key (headerItems h) pre (by simp [headerItems])
  simpa [headerItems, Items.octets, Item.octets, octets16] using this

/-- C20: conversely a parsed header re-encodes to the 12 octets it was read from. -/
theorem C20_header_parse_write (d : Bytes) (i j : Nat) (h : Header)
    (hp : Header.parse d i = (.ok h, j)) : Octets d i h.toBytes j ∧ j = i + 12 := by
  have := (Header.parse_ok (N := fun _ _ _ _ => False)).mp hp
  have hb : Octets d i h.toBytes j := by
    simp only [headerItems, Items.At, Item.At] at this
    obtain ⟨k1, h1, k2, h2, k3, h3, k4, h4, k5, h5, k6, h6, k7, h7, rfl⟩ := this
    simp only [Header.toBytes, u16be_eq]
    have e2 : Octets d k1 [h.flags.hi, h.flags.lo] k3 := octets_append (b := [_]).mpr ⟨_, h2, h3⟩
    exact octets_append.mpr ⟨_, octets_append.mpr ⟨_, octets_append.mpr ⟨_, octets_append.mpr ⟨_,
      octets_append.mpr ⟨_, h1, e2⟩, h4⟩, h5⟩, h6⟩, h7⟩
  refine ⟨hb, ?_⟩
  rw [hb.end_eq]
  simp [Header.toBytes, u16be_eq, octets16]
example : Octets [9, 0, 1, 0x81, 0, 0, 0, 0, 0, 0, 0, 0, 2] 1 (Header.toBytes ⟨1, ⟨0x81, 0⟩, 0, 0, 0, 2⟩) 13 :=
  (C20_header_parse_write _ 1 13 ⟨1, ⟨0x81, 0⟩, 0, 0, 0, 2⟩ (by decide)).1

/-- C20: every 12 octets are accepted as a header. -/
theorem C20_every_header_parses (d : Bytes) (i : Nat) (hi : i + 12 ≤ d.length) :
    ∃ h, Header.parse d i = (.ok h, i + 12) := by
  have hb : ∃ b, b.length = 12 ∧ Octets d i b (i + 12) := by
    refine ⟨(d.drop i).take 12, by simp; omega, octets_iff.mpr ⟨by simp; omega, by omega, ?_⟩⟩
    congr 1; simp; omega
  obtain ⟨b, hl, pre, post, rfl, rfl, -⟩ := hb
  have ex16 : ∀ x y : UInt8, ∃ v : UInt16, octets16 v = [x, y] := by
    intro x y
    refine ⟨UInt16.ofNat (ofBE [x, y]), ?_⟩
    rw [← u16be_eq, u16be]
    have hx := x.toNat_lt
    have hy := y.toNat_lt
    rw [UInt16.toNat_ofNat_of_lt' (by simp [ofBE, UInt16.size]; omega)]
    exact toBE_ofBE [x, y]
  match b, hl with
  | [a0, a1, a2, a3, a4, a5, a6, a7, a8, a9, a10, a11], _ =>
    obtain ⟨v0, e0⟩ := ex16 a0 a1
    obtain ⟨v1, e1⟩ := ex16 a4 a5
    obtain ⟨v2, e2⟩ := ex16 a6 a7
    obtain ⟨v3, e3⟩ := ex16 a8 a9
    obtain ⟨v4, e4⟩ := ex16 a10 a11
    refine ⟨⟨v0, ⟨a2, a3⟩, v1, v2, v3, v4⟩, ?_⟩
    have := C20_header_round_trip ⟨v0, ⟨a2, a3⟩, v1, v2, v3, v4⟩ pre post
    simpa [Header.toBytes, u16be_eq, e0, e1, e2, e3, e4] using this

example : Header.parse [0xAB, 0xCD, 0x81, 0x80, 0, 1, 0, 2, 0, 0, 0, 0] 0
    = (.ok ⟨0xABCD, ⟨0x81, 0x80⟩, 1, 2, 0, 0⟩, 12) := by decide +kernel

/-! ## C21 -/

/-- What the getters of a header report (and the reserved bits `z`, visible in `to_bytes`). -/
structure HeaderView where
  id : UInt16
  queryResponse : Bool
  opcode : OpCode
  authoritativeAnswer : Bool
  truncation : Bool
  recursionDesired : Bool
  recursionAvailable : Bool
  z : UInt8
  responseCode : Res ResponseCode
  counts : UInt16 × UInt16 × UInt16 × UInt16

def Header.view (h : Header) : HeaderView :=
  ⟨h.id, h.queryResponse, h.opcode, h.authoritativeAnswer, h.truncation, h.recursionDesired,
    h.recursionAvailable, h.flags.z, h.responseCode, h.quesCount, h.ansCount, h.authCount, h.addCount⟩

theorem set_opcode (b : UInt8) : ∀ v ∈ [(0 : UInt8), 1, 2, 3],
    Flags.getField (Flags.setField b 3 4 v) 3 4 = v ∧
    ∀ s ∈ [0, 1, 2, 7], Flags.getField (Flags.setField b 3 4 v) s 1 = Flags.getField b s 1 := by
  revert b; apply forall_u8; decide +kernel

theorem set_rcode (b : UInt8) : ∀ v ∈ [(0 : UInt8), 1, 2, 3, 4, 5, 6, 7, 8, 9, 10],
    Flags.getField (Flags.setField b 0 4 v) 0 4 = v ∧
    ∀ f ∈ [(4, 3), (7, 1)], Flags.getField (Flags.setField b 0 4 v) f.1 f.2
      = Flags.getField b f.1 f.2 := by
  revert b; apply forall_u8; decide +kernel

/-- Facts about fields of one octet, for the proofs below. -/
theorem hi_bit (b : UInt8) (v : Bool) :
    ((Flags.getField (Flags.setField b 0 1 (b2u v)) 0 1 != 0) = v) ∧
    ((Flags.getField (Flags.setField b 1 1 (b2u v)) 1 1 != 0) = v) ∧
    ((Flags.getField (Flags.setField b 2 1 (b2u v)) 2 1 != 0) = v) ∧
    ((Flags.getField (Flags.setField b 7 1 (b2u v)) 7 1 != 0) = v) ∧
    (∀ f ∈ [(1, 1), (2, 1), (3, 4), (7, 1)],
      Flags.getField (Flags.setField b 0 1 (b2u v)) f.1 f.2 = Flags.getField b f.1 f.2) ∧
    (∀ f ∈ [(0, 1), (2, 1), (3, 4), (7, 1)],
      Flags.getField (Flags.setField b 1 1 (b2u v)) f.1 f.2 = Flags.getField b f.1 f.2) ∧
    (∀ f ∈ [(0, 1), (1, 1), (3, 4), (7, 1)],
      Flags.getField (Flags.setField b 2 1 (b2u v)) f.1 f.2 = Flags.getField b f.1 f.2) ∧
    (∀ f ∈ [(0, 1), (1, 1), (2, 1), (3, 4)],
      Flags.getField (Flags.setField b 7 1 (b2u v)) f.1 f.2 = Flags.getField b f.1 f.2) := by
  revert b v; apply forall_u8; decide +kernel

theorem C21_set_recursion_desired (h : Header) (v : Bool) :
    (h.setRecursionDesired v).view = { h.view with recursionDesired := v } := by
  have := hi_bit h.flags.hi v
  simp_all [Header.view, Header.setRecursionDesired, Header.queryResponse, Header.opcode,
    Header.authoritativeAnswer, Header.truncation, Header.recursionDesired,
    Header.recursionAvailable, Header.responseCode, Flags.setRd, Flags.qr, Flags.opcode, Flags.aa,
    Flags.tc, Flags.rd, Flags.ra, Flags.z, Flags.rcode]

theorem C21_set_truncation (h : Header) (v : Bool) :
    (h.setTruncation v).view = { h.view with truncation := v } := by
  have := hi_bit h.flags.hi v
  simp_all [Header.view, Header.setTruncation, Header.queryResponse, Header.opcode,
    Header.authoritativeAnswer, Header.truncation, Header.recursionDesired,
    Header.recursionAvailable, Header.responseCode, Flags.setTc, Flags.qr, Flags.opcode, Flags.aa,
    Flags.tc, Flags.rd, Flags.ra, Flags.z, Flags.rcode]

theorem C21_set_authoritative_answer (h : Header) (v : Bool) :
    (h.setAuthoritativeAnswer v).view = { h.view with authoritativeAnswer := v } := by
  have := hi_bit h.flags.hi v
  simp_all [Header.view, Header.setAuthoritativeAnswer, Header.queryResponse, Header.opcode,
    Header.authoritativeAnswer, Header.truncation, Header.recursionDesired,
    Header.recursionAvailable, Header.responseCode, Flags.setAa, Flags.qr, Flags.opcode, Flags.aa,
    Flags.tc, Flags.rd, Flags.ra, Flags.z, Flags.rcode]

theorem opcode_ofU8_toU8 (o : OpCode) : OpCode.ofU8 o.toU8 = o ∧ o.toU8 ∈ [(0 : UInt8), 1, 2, 3] := by
  cases o <;> decide

theorem C21_set_opcode (h : Header) (o : OpCode) :
    (h.setOpcode o).view = { h.view with opcode := o } := by
  have := set_opcode h.flags.hi o.toU8 (opcode_ofU8_toU8 o).2
  have := (opcode_ofU8_toU8 o).1
  simp_all [Header.view, Header.setOpcode, Header.queryResponse, Header.opcode,
    Header.authoritativeAnswer, Header.truncation, Header.recursionDesired,
    Header.recursionAvailable, Header.responseCode, Flags.setOpcode, Flags.qr, Flags.opcode, Flags.aa,
    Flags.tc, Flags.rd, Flags.ra, Flags.z, Flags.rcode]

theorem rcode_ofU8_toU8 (c : ResponseCode) : ResponseCode.ofU8 c.toU8 = .ok c ∧
    c.toU8 ∈ [(0 : UInt8), 1, 2, 3, 4, 5, 6, 7, 8, 9, 10] := by
  cases c <;> decide

theorem lo_ra (b : UInt8) (v : Bool) :
    ((Flags.getField (Flags.setField b 7 1 (b2u v)) 7 1 != 0) = v) ∧
    (Flags.getField (Flags.setField b 7 1 (b2u v)) 4 3 = Flags.getField b 4 3) ∧
    (Flags.getField (Flags.setField b 7 1 (b2u v)) 0 4 = Flags.getField b 0 4) := by
  revert b v; apply forall_u8; decide +kernel

/-- `set_query_response(true)` sets QR only; `set_query_response(false)` also clears RA and RCODE. -/
theorem C21_set_query_response (h : Header) (v : Bool) :
    (h.setQueryResponse v).view =
      if v then { h.view with queryResponse := true }
      else { h.view with queryResponse := false, recursionAvailable := false, responseCode := .ok .noError } := by
  have h1 := hi_bit h.flags.hi v
  have h2 := lo_ra h.flags.lo false
  have h3 := set_rcode (Flags.setField h.flags.lo 7 1 0) 0 (by decide)
  cases v <;>
  simp_all [Header.view, Header.setQueryResponse, Header.queryResponse, Header.opcode,
    Header.authoritativeAnswer, Header.truncation, Header.recursionDesired,
    Header.recursionAvailable, Header.responseCode, Flags.setQr, Flags.setRa, Flags.setRcode,
    Flags.qr, Flags.opcode, Flags.aa, Flags.tc, Flags.rd, Flags.ra, Flags.z, Flags.rcode, b2u,
    ResponseCode.toU8, ResponseCode.ofU8]

/-- `set_response_code`: a code other than `NoError` forces QR. -/
theorem C21_set_response_code (h : Header) (c : ResponseCode) :
    (h.setResponseCode c).view =
      if c = .noError then { h.view with responseCode := .ok .noError }
      else { h.view with responseCode := .ok c, queryResponse := true } := by
  have h1 := hi_bit h.flags.hi true
  have h3 := set_rcode h.flags.lo c.toU8 (rcode_ofU8_toU8 c).2
  have h4 := (rcode_ofU8_toU8 c).1
  by_cases hc : c = .noError <;>
  simp_all [Header.view, Header.setResponseCode, Header.queryResponse, Header.opcode,
    Header.authoritativeAnswer, Header.truncation, Header.recursionDesired,
    Header.recursionAvailable, Header.responseCode, Flags.setQr, Flags.setRcode,
    Flags.qr, Flags.opcode, Flags.aa, Flags.tc, Flags.rd, Flags.ra, Flags.z, Flags.rcode, b2u]

/-- `set_recursion_available(true)` forces QR. -/
theorem C21_set_recursion_available (h : Header) (v : Bool) :
    (h.setRecursionAvailable v).view =
      if v then { h.view with recursionAvailable := true, queryResponse := true }
      else { h.view with recursionAvailable := false } := by
  have h1 := hi_bit h.flags.hi true
  have h2 := lo_ra h.flags.lo v
  cases v <;>
  simp_all [Header.view, Header.setRecursionAvailable, Header.queryResponse, Header.opcode,
    Header.authoritativeAnswer, Header.truncation, Header.recursionDesired,
    Header.recursionAvailable, Header.responseCode, Flags.setQr, Flags.setRa,
    Flags.qr, Flags.opcode, Flags.aa, Flags.tc, Flags.rd, Flags.ra, Flags.z, Flags.rcode, b2u]

/-- C21 in one statement: each setter changes what it names and nothing else, except for the
documented couplings. -/
theorem C21_setters_independent (h : Header) (v : Bool) (o : OpCode) (c : ResponseCode) :
    (h.setRecursionDesired v).view = { h.view with recursionDesired := v } ∧
    (h.setTruncation v).view = { h.view with truncation := v } ∧
    (h.setAuthoritativeAnswer v).view = { h.view with authoritativeAnswer := v } ∧
    (h.setOpcode o).view = { h.view with opcode := o } ∧
    (h.setQueryResponse v).view =
      (if v then { h.view with queryResponse := true }
       else { h.view with queryResponse := false, recursionAvailable := false,
                          responseCode := .ok .noError }) ∧
    (h.setResponseCode c).view =
      (if c = .noError then { h.view with responseCode := .ok .noError }
       else { h.view with responseCode := .ok c, queryResponse := true }) ∧
    (h.setRecursionAvailable v).view =
      (if v then { h.view with recursionAvailable := true, queryResponse := true }
       else { h.view with recursionAvailable := false }) :=
  ⟨C21_set_recursion_desired h v, C21_set_truncation h v, C21_set_authoritative_answer h v,
    C21_set_opcode h o, C21_set_query_response h v, C21_set_response_code h c,
    C21_set_recursion_available h v⟩

example : (Header.setResponseCode ⟨7, ⟨0x01, 0x30⟩, 1, 2, 3, 4⟩ .refused).flags = ⟨0x81, 0x35⟩ := by
  decide

/-! ## C22 -/

/-- C21: what the constructors give: `new_query(id, rd)` is a standard query with this id and RD, and
`new_reply(id, o)` a response with this id and opcode; everything else is clear, and all counts are 0. -/
theorem C21_constructors (id : UInt16) (rd : Bool) (o : OpCode) :
    (Header.newQuery id rd).view =
      { id, queryResponse := false, opcode := .standardQuery, authoritativeAnswer := false,
        truncation := false, recursionDesired := rd, recursionAvailable := false, z := 0,
        responseCode := .ok .noError, counts := (0, 0, 0, 0) } ∧
    (Header.newReply id o).view =
      { id, queryResponse := true, opcode := o, authoritativeAnswer := false,
        truncation := false, recursionDesired := false, recursionAvailable := false, z := 0,
        responseCode := .ok .noError, counts := (0, 0, 0, 0) } ∧
    Header.default.view =
      { id := 0, queryResponse := false, opcode := .standardQuery, authoritativeAnswer := false,
        truncation := false, recursionDesired := false, recursionAvailable := false, z := 0,
        responseCode := .ok .noError, counts := (0, 0, 0, 0) } := by
  refine ⟨?_, ?_, ?_⟩
  all_goals
    simp only [Header.view, Header.newQuery, Header.newReply, Header.default, Header.queryResponse,
      Header.opcode, Header.authoritativeAnswer, Header.truncation, Header.recursionDesired,
      Header.recursionAvailable, Header.responseCode, HeaderView.mk.injEq, true_and, and_true]
  · cases rd <;> decide
  · cases o <;> decide
  · decide

/-- A constructor or setter call on a header. -/
inductive HeaderCall where
  | setRecursionDesired (v : Bool) | setTruncation (v : Bool) | setAuthoritativeAnswer (v : Bool)
  | setOpcode (o : OpCode) | setQueryResponse (v : Bool) | setResponseCode (c : ResponseCode)
  | setRecursionAvailable (v : Bool)

def HeaderCall.run (h : Header) : HeaderCall → Header
  | .setRecursionDesired v => h.setRecursionDesired v
  | .setTruncation v => h.setTruncation v
  | .setAuthoritativeAnswer v => h.setAuthoritativeAnswer v
  | .setOpcode o => h.setOpcode o
  | .setQueryResponse v => h.setQueryResponse v
  | .setResponseCode c => h.setResponseCode c
  | .setRecursionAvailable v => h.setRecursionAvailable v

/-- Where a header comes from. -/
inductive HeaderStart : Header → Prop
  | default : HeaderStart .default
  | newQuery (id : UInt16) (rd : Bool) : HeaderStart (.newQuery id rd)
  | newReply (id : UInt16) (o : OpCode) : HeaderStart (.newReply id o)

/-- C22: after every history of setter calls a header with QR clear has RA clear and the response
code `NoError`. -/
theorem C22_query_has_no_server_fields (h0 : Header) (h0s : HeaderStart h0) (calls : List HeaderCall)
    (hq : (calls.foldl HeaderCall.run h0).queryResponse = false) :
    (calls.foldl HeaderCall.run h0).recursionAvailable = false ∧
    (calls.foldl HeaderCall.run h0).responseCode = .ok .noError := by
  have inv : ∀ (calls : List HeaderCall) (h : Header),
      (h.view.queryResponse = false → h.view.recursionAvailable = false ∧ h.view.responseCode = .ok .noError) →
      ((calls.foldl HeaderCall.run h).view.queryResponse = false →
        (calls.foldl HeaderCall.run h).view.recursionAvailable = false ∧
        (calls.foldl HeaderCall.run h).view.responseCode = .ok .noError) := by
    intro calls
    induction calls with
    | nil => intro h hi; exact hi
    | cons c calls ih =>
      intro h hi
      refine ih (c.run h) ?_
      cases c with
      | setRecursionDesired v => rw [HeaderCall.run, C21_set_recursion_desired]; exact hi
      | setTruncation v => rw [HeaderCall.run, C21_set_truncation]; exact hi
      | setAuthoritativeAnswer v => rw [HeaderCall.run, C21_set_authoritative_answer]; exact hi
      | setOpcode o => rw [HeaderCall.run, C21_set_opcode]; exact hi
      | setQueryResponse v => rw [HeaderCall.run, C21_set_query_response]; cases v <;> simp
      | setResponseCode c =>
        rw [HeaderCall.run, C21_set_response_code]
        by_cases hc : c = .noError
        · simp only [hc, if_true]; intro h1; exact ⟨(hi h1).1, trivial⟩
        · simp [hc]
      | setRecursionAvailable v =>
        rw [HeaderCall.run, C21_set_recursion_available]
        cases v
        · simp only [Bool.false_eq_true, if_false]; intro h1; exact ⟨trivial, (hi h1).2⟩
        · simp
  refine inv calls h0 ?_ hq
  cases h0s with
  | default => intro _; decide
  | newQuery id rd =>
    intro _
    simp only [Header.view, Header.newQuery, Header.responseCode, Header.recursionAvailable]
    cases rd <;> decide
  | newReply id o =>
    simp only [Header.view, Header.newReply, Header.queryResponse]
    cases o <;> exact fun h1 => absurd h1 (by decide)

example : ((([.setResponseCode .refused, .setRecursionAvailable true, .setQueryResponse false,
    .setTruncation true] : List HeaderCall).foldl HeaderCall.run (.newQuery 5 true)).queryResponse) = false := by
  decide

/-! ## C23 -/

/-- C23 (partial): for a header that was read, `response_code()` returns the code that is on the wire (the
low four bits of the fourth octet) if it is one of the eleven codes the crate knows (0 to 10), and panics
otherwise.  What is missing: the codes 11 to 15 (false, see the counterexample). -/
theorem C23_response_code_partial (d : Bytes) (i j : Nat) (h : Header)
    (hp : Header.parse d i = (.ok h, j)) :
    ∃ b : UInt8, d[i + 3]? = some b ∧
      (b.toNat % 16 ≤ 10 → ∃ c, h.responseCode = .ok c ∧ rcodeNumber c = b.toNat % 16) ∧
      (10 < b.toNat % 16 → h.responseCode = .panic .unwrap) := by
  have key : ∀ b : UInt8, b.toNat % 16 ≤ 10 →
      ∃ c ∈ [ResponseCode.noError, .formatError, .serverFailure, .nameError, .notImplemented, .refused,
        .yxDomain, .yxRRSet, .nxRRSet, .notAuth, .notZone],
        rcodeNumber c = (Flags.getField b 0 4).toNat ∧ rcodeNumber c = b.toNat % 16 := by
    apply forall_u8; decide +kernel
  have key2 : ∀ b : UInt8, 10 < b.toNat % 16 → (Flags.getField b 0 4).toNat = b.toNat % 16 := by
    apply forall_u8; decide +kernel
  obtain ⟨⟨pre, post, rfl, rfl, -⟩, -⟩ := C20_header_parse_write d i j h hp
  refine ⟨h.flags.lo, ?_, fun hr => ?_, fun hr => ?_⟩
  · rw [List.append_assoc, List.getElem?_append_right (by omega)]
    simp [Header.toBytes, u16be_eq, octets16]
  · obtain ⟨c, -, h1, h2⟩ := key _ hr
    exact ⟨c, (responseCode_ok h c).mpr h1, h2⟩
  · have hn : ∀ c, h.responseCode ≠ .ok c := by
      intro c hc
      have h1 := (responseCode_ok h c).mp hc
      have h2 := key2 _ hr
      have h3 : rcodeNumber c ≤ 10 := by cases c <;> decide
      have h4 : (h.flags.rcode).toNat = (Flags.getField h.flags.lo 0 4).toNat := rfl
      omega
    unfold Header.responseCode at hn ⊢
    split
    · rename_i r hr'
      rw [hr'] at hn
      exact absurd rfl (hn r)
    · rfl

/-- C23: a header with the code 5. -/
example : ∃ h, Header.parse [0, 0, 0x80, 0x05, 0, 0, 0, 0, 0, 0, 0, 0] 0 = (.ok h, 12) ∧
    h.responseCode = .ok .refused := ⟨⟨0, ⟨0x80, 5⟩, 0, 0, 0, 0⟩, by decide +kernel⟩

/-- C23: headers built with the API only always have a code. -/
theorem C23_response_code_built (h0 : Header) (h0s : HeaderStart h0) (calls : List HeaderCall) :
    ∃ c, (calls.foldl HeaderCall.run h0).responseCode = .ok c := by
  have inv : ∀ (calls : List HeaderCall) (h : Header), (∃ c, h.view.responseCode = .ok c) →
      ∃ c, (calls.foldl HeaderCall.run h).view.responseCode = .ok c := by
    intro calls
    induction calls with
    | nil => intro h hi; exact hi
    | cons c calls ih =>
      intro h hi
      refine ih (c.run h) ?_
      cases c with
      | setRecursionDesired v => rw [HeaderCall.run, C21_set_recursion_desired]; exact hi
      | setTruncation v => rw [HeaderCall.run, C21_set_truncation]; exact hi
      | setAuthoritativeAnswer v => rw [HeaderCall.run, C21_set_authoritative_answer]; exact hi
      | setOpcode o => rw [HeaderCall.run, C21_set_opcode]; exact hi
      | setQueryResponse v =>
        rw [HeaderCall.run, C21_set_query_response]
        cases v
        · exact ⟨.noError, rfl⟩
        · exact hi
      | setResponseCode c =>
        rw [HeaderCall.run, C21_set_response_code]
        split
        · exact ⟨.noError, rfl⟩
        · exact ⟨c, rfl⟩
      | setRecursionAvailable v =>
        rw [HeaderCall.run, C21_set_recursion_available]
        cases v <;> exact hi
  refine inv calls h0 ?_
  cases h0s with
  | default => exact ⟨.noError, by decide⟩
  | newQuery id rd =>
    refine ⟨.noError, ?_⟩
    simp only [Header.view, Header.newQuery, Header.responseCode]
    cases rd <;> decide
  | newReply id o =>
    refine ⟨.noError, ?_⟩
    simp only [Header.view, Header.newReply, Header.responseCode]
    cases o <;> decide
example (id : UInt16) := C23_response_code_built (.newReply id .standardQuery) (.newReply id .standardQuery)
  [.setResponseCode .refused, .setTruncation true]

/-- C23 is false for parsed headers: with RCODE 11 `response_code()` panics. -/
theorem C23_counterexample :
    ∃ h, Header.parse [0, 0, 0x80, 0x0B, 0, 0, 0, 0, 0, 0, 0, 0] 0 = (.ok h, 12) ∧
      h.responseCode = .panic .unwrap :=
  ⟨⟨0, ⟨0x80, 0x0B⟩, 0, 0, 0, 0⟩, by decide +kernel⟩

example : Header.parse [0, 0, 0x80, 0x05, 0, 0, 0, 0, 0, 0, 0, 0] 0
    = (.ok ⟨0, ⟨0x80, 5⟩, 0, 0, 0, 0⟩, 12) ∧ (5 : UInt8).toNat % 16 ≤ 10 := by decide +kernel

/-! ## C24 -/

/-- C24: `opcode()` returns what `set_opcode` or `new_reply` got; for a parsed header it is the wire
opcode for 0, 1, 2 and `Reserved` otherwise, and the opcode on the wire does not change when the
header is written again. -/
theorem C24_opcode_preserved :
    (∀ (h : Header) (o : OpCode), (h.setOpcode o).opcode = o) ∧
    (∀ (id : UInt16) (o : OpCode), (Header.newReply id o).opcode = o) ∧
    (∀ (d : Bytes) (i j : Nat) (h : Header), Header.parse d i = (.ok h, j) →
      ∃ b : UInt8, d[i + 2]? = some b ∧ opcodeNumber h.opcode = min (b.toNat / 8 % 16) 3 ∧
        h.toBytes[2]? = some b) := by
  refine ⟨?_, ?_, ?_⟩
  · intro h o
    exact congrArg HeaderView.opcode (C21_set_opcode h o)
  · intro id o
    simp only [Header.newReply, Header.opcode]
    cases o <;> decide
  · intro d i j h hp
    obtain ⟨⟨pre, post, rfl, rfl, -⟩, -⟩ := C20_header_parse_write d i j h hp
    refine ⟨h.flags.hi, ?_, ?_, ?_⟩
    · rw [List.append_assoc, List.getElem?_append_right (by omega)]
      simp [Header.toBytes, u16be_eq, octets16]
    · have h1 : opcodeNumber h.opcode = min h.flags.opcode.toNat 3 :=
        (opcode_number _ (field_lt _).1 _).mp rfl
      rw [h1]
      have h2 : ∀ b : UInt8, (Flags.getField b 3 4).toNat = b.toNat / 8 % 16 := by
        apply forall_u8; decide +kernel
      rw [← h2]; rfl
    · simp [Header.toBytes, u16be_eq, octets16]

example : Header.parse [0, 0, 0x28, 0, 0, 0, 0, 0, 0, 0, 0, 0] 0
    = (.ok ⟨0, ⟨0x28, 0⟩, 0, 0, 0, 0⟩, 12) := by decide +kernel

end Dns
