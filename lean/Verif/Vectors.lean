import Verif.Model.SipHash
import Verif.Model.Packet
import Verif.Model.Dnssec
import Verif.Model.Accessors

/-
The unit tests of /repo, run on the model: they are tests, not proofs, and no claim rests on them.
They check that the model computes what the tests in /repo say the code computes.
Tests that call cryptographic libraries are not included, except for what does not depend on them.
-/

namespace Dns.Vectors
open Buf

/-- Both features, checked arithmetic (`cargo test --all-features`). -/
def cfg : Cfg := ⟨true, true, true⟩

/-- The hash function of the crate (src/util.rs) on a machine of 64 bits with the low octet first. -/
def hash : Hash := Target.hashFqdn ⟨false, 8⟩

/-- `"..."` as octets. -/
def str (s : String) : Bytes := s.toUTF8.toList

/-- src/lib.rs:54 `GOOGLE_QUERY_SAMPLE` -/
def googleQuery : Bytes :=
  [0, 3, 1, 0, 0, 1, 0, 0, 0, 0, 0, 0, 6, 103, 111, 111, 103, 108, 101, 3, 99, 111, 109, 0, 0,
   1, 0, 1]

/-- src/lib.rs:58 `GOOGLE_REPLY_SAMPLE_ONE` -/
def googleReply1 : Bytes :=
  [0, 3, 129, 128, 0, 1, 0, 11, 0, 0, 0, 0, 6, 103, 111, 111, 103, 108, 101, 3, 99, 111, 109,
   0, 0, 1, 0, 1, 192, 12, 0, 1, 0, 1, 0, 0, 0, 4, 0, 4, 74, 125, 236, 35, 192, 12, 0, 1, 0, 1,
   0, 0, 0, 4, 0, 4, 74, 125, 236, 37, 192, 12, 0, 1, 0, 1, 0, 0, 0, 4, 0, 4, 74, 125, 236, 39,
   192, 12, 0, 1, 0, 1, 0, 0, 0, 4, 0, 4, 74, 125, 236, 32, 192, 12, 0, 1, 0, 1, 0, 0, 0, 4, 0,
   4, 74, 125, 236, 40, 192, 12, 0, 1, 0, 1, 0, 0, 0, 4, 0, 4, 74, 125, 236, 33, 192, 12, 0, 1,
   0, 1, 0, 0, 0, 4, 0, 4, 74, 125, 236, 41, 192, 12, 0, 1, 0, 1, 0, 0, 0, 4, 0, 4, 74, 125,
   236, 34, 192, 12, 0, 1, 0, 1, 0, 0, 0, 4, 0, 4, 74, 125, 236, 36, 192, 12, 0, 1, 0, 1, 0, 0,
   0, 4, 0, 4, 74, 125, 236, 46, 192, 12, 0, 1, 0, 1, 0, 0, 0, 4, 0, 4, 74, 125, 236, 38]

/-- src/lib.rs:73 `GOOGLE_REPLY_SAMPLE_TWO` -/
def googleReply2 : Bytes :=
  [213, 173, 129, 128, 0, 1, 0, 5, 0, 0, 0, 0, 3, 119, 119, 119, 6, 103, 111, 111, 103, 108,
   101, 3, 99, 111, 109, 0, 0, 1, 0, 1, 192, 12, 0, 5, 0, 1, 0, 0, 0, 5, 0, 8, 3, 119, 119,
   119, 1, 108, 192, 16, 192, 44, 0, 1, 0, 1, 0, 0, 0, 5, 0, 4, 66, 249, 91, 104, 192, 44, 0,
   1, 0, 1, 0, 0, 0, 5, 0, 4, 66, 249, 91, 99, 192, 44, 0, 1, 0, 1, 0, 0, 0, 5, 0, 4, 66, 249,
   91, 103, 192, 44, 0, 1, 0, 1, 0, 0, 0, 5, 0, 4, 66, 249, 91, 147]

/-- src/lib.rs:82 `IPHONE_MDNS_QUERY_RESPONSE` -/
def iphone : Bytes :=
  [0, 0, 132, 0, 0, 0, 0, 11, 0, 0, 0, 6, 15, 105, 80, 104, 111, 110, 101, 32, 118, 111, 110,
   32, 84, 105, 109, 111, 7, 95, 114, 100, 108, 105, 110, 107, 4, 95, 116, 99, 112, 5, 108,
   111, 99, 97, 108, 0, 0, 16, 128, 1, 0, 0, 17, 148, 0, 53, 22, 114, 112, 66, 65, 61, 49, 55,
   58, 53, 65, 58, 52, 49, 58, 48, 70, 58, 56, 70, 58, 57, 57, 11, 114, 112, 86, 114, 61, 52,
   52, 48, 46, 49, 48, 17, 114, 112, 65, 68, 61, 100, 54, 50, 49, 97, 50, 55, 49, 51, 98, 98,
   55, 9, 95, 115, 101, 114, 118, 105, 99, 101, 115, 7, 95, 100, 110, 115, 45, 115, 100, 4, 95,
   117, 100, 112, 192, 41, 0, 12, 0, 1, 0, 0, 17, 148, 0, 2, 192, 28, 192, 28, 0, 12, 0, 1, 0,
   0, 17, 148, 0, 2, 192, 12, 15, 105, 80, 104, 111, 110, 101, 32, 118, 111, 110, 32, 84, 105,
   109, 111, 12, 95, 100, 101, 118, 105, 99, 101, 45, 105, 110, 102, 111, 192, 36, 0, 16, 0, 1,
   0, 0, 17, 148, 0, 13, 12, 109, 111, 100, 101, 108, 61, 78, 56, 52, 49, 65, 80, 192, 12, 0,
   33, 128, 1, 0, 0, 0, 120, 0, 24, 0, 0, 0, 0, 192, 4, 15, 105, 80, 104, 111, 110, 101, 45,
   118, 111, 110, 45, 84, 105, 109, 111, 192, 41, 1, 51, 1, 70, 1, 56, 1, 48, 1, 66, 1, 69, 1,
   49, 1, 69, 1, 52, 1, 56, 1, 51, 1, 53, 1, 51, 1, 53, 1, 52, 1, 49, 1, 48, 1, 48, 1, 48, 1,
   48, 1, 48, 1, 48, 1, 48, 1, 48, 1, 48, 1, 48, 1, 48, 1, 48, 1, 48, 1, 56, 1, 69, 1, 70, 3,
   105, 112, 54, 4, 97, 114, 112, 97, 0, 0, 12, 128, 1, 0, 0, 0, 120, 0, 2, 192, 234, 2, 50,
   49, 3, 49, 55, 56, 3, 49, 54, 56, 3, 49, 57, 50, 7, 105, 110, 45, 97, 100, 100, 114, 193,
   64, 0, 12, 128, 1, 0, 0, 0, 120, 0, 2, 192, 234, 1, 49, 1, 54, 1, 53, 1, 68, 1, 51, 1, 55,
   1, 50, 1, 70, 1, 67, 1, 57, 1, 49, 1, 48, 1, 55, 1, 52, 1, 52, 1, 49, 1, 48, 1, 66, 1, 68,
   1, 51, 1, 48, 1, 52, 1, 52, 1, 50, 1, 57, 1, 48, 1, 49, 1, 56, 1, 50, 1, 48, 1, 65, 1, 50,
   193, 60, 0, 12, 128, 1, 0, 0, 0, 120, 0, 2, 192, 234, 192, 234, 0, 28, 128, 1, 0, 0, 0, 120,
   0, 16, 254, 128, 0, 0, 0, 0, 0, 0, 20, 83, 83, 132, 225, 235, 8, 243, 192, 234, 0, 1, 128,
   1, 0, 0, 0, 120, 0, 4, 192, 168, 178, 21, 192, 234, 0, 28, 128, 1, 0, 0, 0, 120, 0, 16, 42,
   2, 129, 9, 36, 64, 61, 176, 20, 71, 1, 156, 242, 115, 213, 97, 192, 12, 0, 47, 128, 1, 0, 0,
   17, 148, 0, 9, 192, 12, 0, 5, 0, 0, 128, 0, 64, 192, 252, 0, 47, 128, 1, 0, 0, 0, 120, 0, 6,
   192, 252, 0, 2, 0, 8, 193, 82, 0, 47, 128, 1, 0, 0, 0, 120, 0, 6, 193, 82, 0, 2, 0, 8, 193,
   119, 0, 47, 128, 1, 0, 0, 0, 120, 0, 6, 193, 119, 0, 2, 0, 8, 192, 234, 0, 47, 128, 1, 0, 0,
   0, 120, 0, 8, 192, 234, 0, 4, 64, 0, 0, 8, 0, 0, 41, 5, 160, 0, 0, 17, 148, 0, 18, 0, 4, 0,
   14, 0, 14, 246, 175, 231, 138, 170, 230, 238, 176, 202, 144, 228, 227]

/-- src/lib.rs:126 `MYSTERY` -/
def mystery : Bytes :=
  [0, 0, 0, 0, 0, 5, 0, 0, 0, 7, 0, 1, 15, 87, 111, 104, 110, 194, 173, 122, 105, 109, 109,
   101, 114, 32, 84, 86, 15, 95, 99, 111, 109, 112, 97, 110, 105, 111, 110, 45, 108, 105, 110,
   107, 4, 95, 116, 99, 112, 5, 108, 111, 99, 97, 108, 0, 0, 255, 0, 1, 15, 87, 111, 104, 110,
   194, 173, 122, 105, 109, 109, 101, 114, 32, 84, 86, 8, 95, 97, 105, 114, 112, 108, 97, 121,
   192, 44, 0, 255, 0, 1, 28, 52, 48, 67, 66, 67, 48, 67, 68, 52, 49, 54, 68, 64, 87, 111, 104,
   110, 194, 173, 122, 105, 109, 109, 101, 114, 32, 84, 86, 5, 95, 114, 97, 111, 112, 192, 44,
   0, 255, 0, 1, 29, 55, 48, 45, 51, 53, 45, 54, 48, 45, 54, 51, 46, 49, 32, 87, 111, 104, 110,
   194, 173, 122, 105, 109, 109, 101, 114, 32, 84, 86, 12, 95, 115, 108, 101, 101, 112, 45,
   112, 114, 111, 120, 121, 4, 95, 117, 100, 112, 192, 49, 0, 255, 0, 1, 13, 87, 111, 104, 110,
   122, 105, 109, 109, 101, 114, 45, 84, 86, 192, 49, 0, 255, 128, 1, 192, 12, 0, 33, 0, 1, 0,
   0, 0, 120, 0, 8, 0, 0, 0, 0, 192, 1, 192, 186, 192, 60, 0, 33, 0, 1, 0, 0, 0, 120, 0, 8, 0,
   0, 0, 0, 27, 88, 192, 186, 192, 91, 0, 33, 0, 1, 0, 0, 0, 120, 0, 8, 0, 0, 0, 0, 27, 88,
   192, 186, 192, 132, 0, 33, 0, 1, 0, 0, 0, 120, 0, 8, 0, 0, 0, 0, 224, 43, 192, 186, 192,
   186, 0, 28, 0, 1, 0, 0, 0, 120, 0, 16, 254, 128, 0, 0, 0, 0, 0, 0, 28, 128, 158, 163, 99, 0,
   198, 99, 192, 186, 0, 28, 0, 1, 0, 0, 0, 120, 0, 16, 42, 2, 129, 9, 36, 64, 61, 176, 24,
   141, 142, 89, 200, 125, 229, 119, 192, 186, 0, 1, 0, 1, 0, 0, 0, 120, 0, 4, 192, 168, 178,
   32, 0, 0, 41, 5, 160, 0, 0, 17, 148, 0, 18, 0, 4, 0, 14, 0, 186, 64, 203, 192, 205, 65, 109,
   64, 203, 192, 205, 65, 107]

/-- src/lib.rs:154 `MDNS_INCLUDING_NSEC` -/
def mdnsNsec : Bytes :=
  [0, 0, 132, 0, 0, 0, 0, 1, 0, 0, 0, 1, 9, 80, 105, 101, 116, 32, 240, 159, 171, 168, 15, 95,
   99, 111, 109, 112, 97, 110, 105, 111, 110, 45, 108, 105, 110, 107, 4, 95, 116, 99, 112, 5,
   108, 111, 99, 97, 108, 0, 0, 16, 128, 1, 0, 0, 17, 148, 0, 130, 7, 114, 112, 77, 97, 99, 61,
   48, 17, 114, 112, 72, 78, 61, 101, 97, 51, 100, 51, 100, 57, 100, 56, 99, 50, 98, 12, 114,
   112, 70, 108, 61, 48, 120, 51, 48, 48, 48, 48, 17, 114, 112, 72, 65, 61, 100, 51, 56, 98,
   97, 55, 56, 99, 102, 52, 97, 54, 13, 114, 112, 86, 114, 61, 53, 48, 48, 46, 54, 48, 46, 52,
   17, 114, 112, 65, 68, 61, 55, 101, 57, 98, 51, 53, 52, 49, 52, 56, 56, 55, 17, 114, 112, 72,
   73, 61, 57, 54, 57, 101, 48, 97, 48, 51, 53, 53, 52, 51, 22, 114, 112, 66, 65, 61, 48, 68,
   58, 52, 57, 58, 48, 56, 58, 67, 66, 58, 52, 49, 58, 53, 68, 192, 12, 0, 47, 128, 1, 0, 0,
   17, 148, 0, 9, 192, 12, 0, 5, 0, 0, 128, 0, 64]

/-- src/lib.rs:181-204 `build_query_correct` -/
example : (do
    let p ← Packet.default.addQuestion cfg (.new (.new (str "_srv._udp.local")) (.rr .TXT) .IN)
    let p ← p.addQuestion cfg (.new (.ofLabels [str "_srv2", str "_udp", str "local"]) (.rr .TXT) .IN)
    let b ← p.toBytes cfg
    let q ← Packet.parse cfg b
    return q.questions.map (fun x => x.qName.display) : Res (List Bytes)) =
    .ok [str "_srv._udp.local", str "_srv2._udp.local"] := by decide +kernel

/-- src/lib.rs:206-218 `parse_query_google_com` -/
example : (do
    let p ← Packet.parse cfg googleQuery
    let b ← p.toBytesCompressed cfg hash
    return (p.questions.map (fun x => (x.qName.display, x.qType, x.qClass)), b) :
      Res (List (Bytes × QType × QClass) × Bytes)) =
    .ok ([(str "google.com", .rr .A, .IN)], googleQuery) := by decide +kernel

/-- src/lib.rs:220-235 `build_query_google_com` -/
example : (Packet.withQuestions 3 true [.new (.new (str "google.com")) (.rr .A) .IN]).toBytes cfg =
    .ok googleQuery := by decide +kernel

/-- src/lib.rs:237-268 `parse_reply_google_com` -/
example : (do
    let p ← Packet.parse cfg googleReply1
    let b ← p.toBytesCompressed cfg hash
    return (p.questions.length, p.answers.length,
      p.answers.all (fun r => r.name.display = str "google.com" && r.type == .A && r.class_ == .IN
        && r.ttl == 4 && decide (r.rdata.byteSize cfg = .ok 4)),
      (p.answers.map (fun r => r.rdata)).head?, b) :
      Res (Nat × Nat × Bool × Option RecordData × Bytes)) =
    .ok (1, 11, true, some (.A ⟨1249766435⟩), googleReply1) := by decide +kernel

/-- src/lib.rs:270-321 `parse_complex_reply_google_com` -/
example : (do
    let p ← Packet.parse cfg googleReply2
    let rc ← p.header.responseCode
    return decide (p.header.id = 0xD5AD ∧ p.header.opcode = .standardQuery ∧ p.header.recursionDesired = true ∧
      p.header.recursionAvailable = true ∧ rc = .noError ∧ p.header.queryResponse = true ∧
      p.header.authoritativeAnswer = false ∧
      p.questions = [.new (.new (str "www.google.com")) (.rr .A) .IN] ∧ p.answers.length = 5 ∧
      p.toBytesCompressed cfg hash = .ok googleReply2) : Res Bool) = .ok true := by decide +kernel
example : (do
    let p ← Packet.parse cfg googleReply2
    return (p.answers.head?,
      p.answers.tail.all (fun r => r.name.display = str "www.l.google.com" && r.type == .A && r.class_ == .IN
        && r.ttl == 5 && decide (r.rdata.byteSize cfg = .ok 4))) : Res (Option ResourceRecord × Bool)) =
    .ok (some (.new (.new (str "www.google.com")) .CNAME .IN 5 (.CNAME ⟨.new (str "www.l.google.com")⟩)), true) := by
  decide +kernel

/-- src/lib.rs:297-301 -/
example : RecordData.toBytes cfg (.CNAME ⟨.new (str "www.l.google.com")⟩) =
    .ok [3, 119, 119, 119, 1, 108, 6, 103, 111, 111, 103, 108, 101, 3, 99, 111, 109, 0] := by decide +kernel

/-- src/lib.rs:323-386 `build_complex_reply_google_com` -/
example : (do
    let h := { Header.default with id := 0xD5AD }
    let h := ((((h.setOpcode .standardQuery).setResponseCode .noError).setRecursionAvailable true
      |>.setRecursionDesired true).setQueryResponse true).setAuthoritativeAnswer false
    let p := (Packet.newReply 3).setHeader h
    let p ← p.addQuestion cfg (.new (.new (str "www.google.com")) (.rr .A) .IN)
    let p ← p.addAnswer cfg (.new (.new (str "www.google.com")) .CNAME .IN 5 (.CNAME ⟨.new (str "www.l.google.com")⟩))
    let p ← p.addAnswer cfg (.new (.new (str "www.l.google.com")) .A .IN 5 (.A ⟨0x42f95b68⟩))
    let p ← p.addAnswer cfg (.new (.new (str "www.l.google.com")) .A .IN 5 (.A ⟨0x42f95b63⟩))
    let p ← p.addAnswer cfg (.new (.new (str "www.l.google.com")) .A .IN 5 (.A ⟨0x42f95b67⟩))
    let p ← p.addAnswer cfg (.new (.new (str "www.l.google.com")) .A .IN 5 (.A ⟨0x42f95b93⟩))
    p.toBytesCompressed cfg hash) = .ok googleReply2 := by decide +kernel

/-- Parse, count the sections and write with compression. -/
def again (d : Bytes) : Res (List UInt16 × List Nat × Bytes) := do
  let p ← Packet.parse cfg d
  let b ← p.toBytesCompressed cfg hash
  return ([p.header.quesCount, p.header.ansCount, p.header.authCount, p.header.addCount],
    [p.questions.length, p.answers.length, p.authorities.length, p.additional.length], b)

/-- src/lib.rs:388-408 `parse_mystery` -/
example : again mystery = .ok ([5, 0, 7, 1], [5, 0, 7, 1], mystery) := by decide +kernel

/-- src/lib.rs:410-430 `parse_iphone_mds_query_response` -/
example : again iphone = .ok ([0, 11, 0, 6], [0, 11, 0, 6], iphone) := by decide +kernel

/-- src/lib.rs:432-462 `parse_something_with_nsec` -/
example : again mdnsNsec = .ok ([0, 1, 0, 1], [0, 1, 0, 1], mdnsNsec) := by decide +kernel
example : (do
    let p ← Packet.parse cfg mdnsNsec
    return (p.header.opcode, (p.answers ++ p.additional).map (fun r => (r.type, r.class_, r.name.display))) : Res _) =
    .ok (.standardQuery, [(.TXT, .IN, str "Piet 🫨._companion-link._tcp.local"),
      (.NSEC, .IN, str "Piet 🫨._companion-link._tcp.local")]) := by decide +kernel

/-- src/buffer.rs:198-207 `slice_range` -/
example : ((do
    advance 2
    let a ← peekBytes 3
    let b ← extractBytes 3
    let c ← peekBytes 4
    return [a, b, c] : Parser (List Bytes)) [1, 2, 3, 4, 5, 6, 7, 8, 9, 0] 0).1 =
    .ok [[3, 4, 5], [3, 4, 5], [6, 7, 8, 9]] := by decide +kernel

/-- src/fqdn.rs:250-257 `fqdn_link_local` -/
example : (Fqdn.new (str "_airplay._tcp.local")).isLinkLocal = true ∧
    (Fqdn.new (str "google.com")).isLinkLocal = false := by decide +kernel

/-- src/fqdn.rs:259-287 `parse_root`, `build_root` -/
example : ∀ s ∈ [str ".", str ""], (Fqdn.new s).byteSize = 1 ∧ (Fqdn.new s).toBytes = [0] ∧
    (Fqdn.new s).display = [] ∧ (Fqdn.new s).isRoot = true := by decide +kernel

/-- src/fqdn.rs:289-301 `ordering` -/
example : let a := Fqdn.new (str "google.com")
    (a.cmp (.new (str "www.google.com")), a.cmp (.new (str "aaa.de")), a.cmp (.new (str "google.de")), a.cmp a) =
    (.lt, .gt, .lt, .eq) := by decide +kernel

/-- src/rdata/apl.rs:147-158 `parse`, 160-169 `build` -/
example : (Apl.parse [0, 1, 4, 132, 192, 168, 178, 12] 0).1 = .ok ⟨4, true, .ipV4 0xC0A8B20C⟩ ∧
    Apl.byteSize ⟨4, true, .ipV4 0xC0A8B20C⟩ = 8 ∧
    Apl.toBytes ⟨4, true, .ipV4 0xC0A8B20C⟩ = [0, 1, 4, 132, 192, 168, 178, 12] := by decide +kernel

/-- src/rdata/dhcid.rs:141-144 the digest of the tests -/
def dhcidDigest : Bytes :=
  [99, 111, 192, 184, 39, 28, 130, 130, 91, 177, 172, 92, 65, 207, 83, 81, 170, 105, 180, 254,
   189, 148, 232, 241, 124, 219, 149, 0, 13, 164, 140, 64]

/-- src/rdata/dhcid.rs:138-156 `parse` -/
example : (Dhcid.parse (0x00 :: 0x02 :: 0x01 :: dhcidDigest) 0).1 = .ok ⟨.DUID, dhcidDigest⟩ := by decide +kernel

/-- src/rdata/dhcid.rs:158-177 `build`: the octets that are hashed (RFC 4701, section 3.6.1), and the
record for the digest SHA-256 gives for them. -/
example : let r : Dhcid := (Dhcid.new (fun m : Bytes =>
        if m = [0, 1, 0, 6, 65, 45, 241, 102, 1, 2, 3, 4, 5, 6, 4, 99, 104, 105, 54, 7, 101, 120, 97, 109, 112, 108, 101, 3, 99, 111, 109, 0] then dhcidDigest
        else ([] : Bytes)) .DUID [0, 1, 0, 6, 65, 45, 241, 102, 1, 2, 3, 4, 5, 6] (Fqdn.new (str "chi6.example.com")))
    r.byteSize = 35 ∧ r.toBytes = 0x00 :: 0x02 :: 0x01 :: dhcidDigest := by decide +kernel

/-- src/rdata/hip.rs:108-112 -/
def hit : Bytes := [32, 1, 0, 16, 123, 26, 116, 223, 54, 86, 57, 204, 57, 241, 213, 120]
/-- src/rdata/hip.rs:112 -/
def hipKey : Bytes :=
  str "AwEAAbdxyhNuSutc5EMzxTs9LBPCIkOFH8cIvM4p9+LrV4e19WzK00+CI6zBCQTdtWsuxKbWIy87UOoJTwkUs7lBu+Upr1gsNrut79ryra+bSRGQb1slImA8YVJyuIDsj7kwzG7jnERNqnWxZ48AWkskmdHaVDP4BcelrTI3rMXdXF5D"

/-- src/rdata/hip.rs:106-131 `parse` -/
example : let d := [16, 2] ++ u16be (lenU16 hipKey.length) ++ hit ++ hipKey
      ++ (Fqdn.new (str "rvs1.example.com.")).toBytes
    let r : Hip := ⟨.DSA, hit, hipKey, some [.new (str "rvs1.example.com.")]⟩
    (Hip.parse d 0).1 = .ok r ∧ r.byteSize = d.length ∧ r.toBytes = d := by decide +kernel

/-- src/rdata/hip.rs:133-169 `build` -/
example : Hip.toBytes ⟨.DSA, hit, hipKey, some [.new (str "rvs1.example.com."), .new (str "rvs2.example.com.")]⟩ =
  [16, 2, 0, 176, 32, 1, 0, 16, 123, 26, 116, 223, 54, 86, 57, 204, 57, 241, 213, 120, 65, 119,
   69, 65, 65, 98, 100, 120, 121, 104, 78, 117, 83, 117, 116, 99, 53, 69, 77, 122, 120, 84,
   115, 57, 76, 66, 80, 67, 73, 107, 79, 70, 72, 56, 99, 73, 118, 77, 52, 112, 57, 43, 76, 114,
   86, 52, 101, 49, 57, 87, 122, 75, 48, 48, 43, 67, 73, 54, 122, 66, 67, 81, 84, 100, 116, 87,
   115, 117, 120, 75, 98, 87, 73, 121, 56, 55, 85, 79, 111, 74, 84, 119, 107, 85, 115, 55, 108,
   66, 117, 43, 85, 112, 114, 49, 103, 115, 78, 114, 117, 116, 55, 57, 114, 121, 114, 97, 43,
   98, 83, 82, 71, 81, 98, 49, 115, 108, 73, 109, 65, 56, 89, 86, 74, 121, 117, 73, 68, 115,
   106, 55, 107, 119, 122, 71, 55, 106, 110, 69, 82, 78, 113, 110, 87, 120, 90, 52, 56, 65, 87,
   107, 115, 107, 109, 100, 72, 97, 86, 68, 80, 52, 66, 99, 101, 108, 114, 84, 73, 51, 114, 77,
   88, 100, 88, 70, 53, 68, 4, 114, 118, 115, 49, 7, 101, 120, 97, 109, 112, 108, 101, 3, 99,
   111, 109, 0, 4, 114, 118, 115, 50, 7, 101, 120, 97, 109, 112, 108, 101, 3, 99, 111, 109, 0] := by decide +kernel

/-- src/rdata/ipseckey.rs:146-159 `parse` -/
example : let d := [10, 0, 2, 46] ++ str "AQNRU3mG7TVTO2BkR47usntb102uFJtugbo6BSGvgqt4AQ=="
    let r : IpSecKey := ⟨10, .DSA, .none, str "AQNRU3mG7TVTO2BkR47usntb102uFJtugbo6BSGvgqt4AQ=="⟩
    (IpSecKey.parse d 0).1 = .ok r ∧ r.gateway.gatewayType = 0 ∧ r.byteSize = d.length ∧ r.toBytes = d := by
  decide +kernel

/-- src/rdata/ipseckey.rs:161-178 `build` -/
example : IpSecKey.toBytes ⟨10, .DSA, .ipV4 0xC0000226, str "AQNRU3mG7TVTO2BkR47usntb102uFJtugbo6BSGvgqt4AQ=="⟩ =
  [10, 1, 2, 192, 0, 2, 38, 65, 81, 78, 82, 85, 51, 109, 71, 55, 84, 86, 84, 79, 50, 66, 107,
   82, 52, 55, 117, 115, 110, 116, 98, 49, 48, 50, 117, 70, 74, 116, 117, 103, 98, 111, 54, 66,
   83, 71, 118, 103, 113, 116, 52, 65, 81, 61, 61] := by decide +kernel

/-- src/rdata/svcb.rs:305-316 `param_key_ordering` -/
example : ParamKey.ofU16 65432 = .ok (.private 65432) ∧ ParamKey.alpn.ord < (ParamKey.private 65432).ord := by
  decide +kernel

/-- src/rdata/svcb.rs:318-336 `parse` -/
example : (Svcb.parse cfg
  [0, 5, 4, 115, 118, 99, 52, 7, 101, 120, 97, 109, 112, 108, 101, 3, 110, 101, 116, 0, 0, 1,
   0, 4, 3, 98, 97, 114, 0, 3, 0, 2, 31, 68, 0, 0, 0, 2, 0, 1] 0).1 =
    .ok ⟨5, .new (str "svc4.example.net."), [.mandatory [.alpn], .alpn [str "bar"], .port 8004]⟩ := by
  decide +kernel

/-- src/rdata/svcb.rs:338-359 `build` -/
example : let r : Svcb := ⟨10, .new (str "foo.example.org."),
      btInsert Param.ord (.ipV4Hint 0xC0000201) (btInsert Param.ord
        (.mandatory (btInsert ParamKey.ord .alpn (btInsert ParamKey.ord .ipV4Hint [])))
        (btInsert Param.ord (.alpn [str "h2", str "h3-19"]) []))⟩
    r.byteSize = 60 ∧ r.toBytes cfg = .ok
  [0, 10, 3, 102, 111, 111, 7, 101, 120, 97, 109, 112, 108, 101, 3, 111, 114, 103, 0, 0, 0, 0,
   4, 0, 1, 0, 4, 0, 1, 0, 9, 2, 104, 50, 5, 104, 51, 45, 49, 57, 0, 4, 0, 4, 192, 0, 2, 1] := by decide +kernel

/-- src/rdata/tkey.rs:192-236 `parse`, `build` -/
example : let d : Bytes :=
  [13, 56, 57, 110, 51, 109, 68, 103, 88, 48, 55, 50, 112, 112, 7, 115, 101, 114, 118, 101,
   114, 49, 7, 101, 120, 97, 109, 112, 108, 101, 3, 99, 111, 109, 0, 0, 0, 48, 57, 0, 0, 221,
   213, 0, 2, 0, 0, 0, 10, 0, 1, 2, 3, 4, 5, 6, 7, 8, 9, 0, 0]
    let r : Tkey := ⟨.new (str "89n3mDgX072pp.server1.example.com"), 12345, 56789, .diffieHellmanExchange, .none,
      [0, 1, 2, 3, 4, 5, 6, 7, 8, 9], []⟩
    (Tkey.parse d 0).1 = .ok r ∧ r.byteSize = 61 ∧ r.toBytes = d := by decide +kernel

/-- src/rdata/tsig.rs:163-209 `parse`, `build` -/
example : let d : Bytes :=
  [8, 72, 77, 65, 67, 45, 77, 68, 53, 7, 83, 73, 71, 45, 65, 76, 71, 3, 82, 69, 71, 3, 73, 78,
   84, 0, 0, 0, 102, 79, 162, 15, 0, 15, 0, 10, 0, 1, 2, 3, 4, 5, 6, 7, 8, 9, 0, 1, 0, 0, 0, 3,
   11, 22, 33]
    let r : Tsig := ⟨.new (str "HMAC-MD5.SIG-ALG.REG.INT"), 1716494863, 15, [0, 1, 2, 3, 4, 5, 6, 7, 8, 9], 1, .none,
      [11, 22, 33]⟩
    (Tsig.parse d 0).1 = .ok r ∧ r.byteSize = d.length ∧ r.toBytes = d := by decide +kernel

/-- src/rdata/dnssec.rs:991-1030 `parse_nsec` -/
example : (Nsec.parse cfg [0, 0, 6, 0x40, 0, 0x80, 8, 0, 3] 0).1 = .ok ⟨[], [.A, .TXT, .AAAA, .RRSIG, .NSEC]⟩ ∧
    (Nsec.parse cfg [0, 0, 7, 0x62, 0, 0x80, 8, 0, 3, 0x80] 0).1 =
      .ok ⟨[], [.A, .NS, .SOA, .TXT, .AAAA, .RRSIG, .NSEC, .DNSKEY]⟩ ∧
    btInsert RecordType.ord .URI (btInsert RecordType.ord .PTR
      [.A, .NS, .SOA, .TXT, .AAAA, .RRSIG, .NSEC, .DNSKEY]) =
      [.A, .NS, .SOA, .PTR, .TXT, .AAAA, .RRSIG, .NSEC, .DNSKEY, .URI] := by decide +kernel

/-- src/rdata/dnssec.rs:1032-1047 `build_nsec` -/
example : Nsec.byteSize cfg ⟨.new (str "."), [.A, .MX, .RRSIG, .NSEC, .URI, .CAA]⟩ = .ok 12 ∧
    Nsec.toBytes cfg ⟨.new (str "."), [.A, .MX, .RRSIG, .NSEC, .URI, .CAA]⟩ =
      .ok [0, 0, 6, 0x40, 1, 0, 0, 0, 3, 1, 1, 0xC0] := by decide +kernel

/-- src/rdata/dnssec.rs:1053-1055, decoded -/
def miekKey : Bytes :=
  [3, 1, 0, 1, 195, 68, 83, 174, 203, 36, 142, 70, 18, 1, 125, 64, 179, 106, 44, 237, 82, 50,
   173, 68, 118, 132, 58, 19, 215, 252, 230, 22, 180, 147, 71, 176, 64, 96, 155, 151, 37, 182,
   243, 126, 134, 137, 91, 38, 234, 79, 10, 175, 145, 2, 34, 131, 9, 233, 246, 86, 127, 112,
   144, 73, 15, 114, 113, 103, 211, 200, 225, 223, 152, 141, 222, 67, 253, 66, 162, 248, 91,
   219, 46, 27, 2, 98, 255, 211, 179, 225, 172, 190, 232, 205, 96, 86, 223, 0, 95, 51, 125,
   249, 22, 223, 113, 142, 213, 199, 63, 46, 243, 180, 38, 213, 246, 166, 120, 77, 80, 211, 91,
   242, 50, 131, 67, 226, 194, 10, 23, 85, 235, 51]
/-- src/rdata/dnssec.rs:1100-1104, decoded -/
def miekKey2 : Bytes :=
  [3, 1, 0, 1, 191, 188, 148, 99, 66, 196, 152, 11, 75, 202, 216, 85, 234, 250, 18, 113, 213,
   184, 137, 16, 14, 8, 93, 141, 219, 94, 192, 60, 212, 220, 110, 81, 236, 246, 204, 108, 165,
   81, 188, 125, 140, 107, 186, 80, 201, 135, 30, 161, 170, 150, 101, 8, 171, 74, 62, 246, 122,
   227, 214, 124, 252, 80, 156, 204, 189, 185, 192, 178, 148, 15, 133, 184, 127, 92, 74, 50,
   28, 61, 254, 15, 168, 151, 221, 186, 145, 228, 245, 126, 132, 5, 136, 241, 172, 34, 216,
   226, 157, 127, 200, 28, 32, 200, 18, 17, 38, 214, 109, 2, 163, 55, 113, 224, 7, 217, 106,
   47, 16, 144, 250, 173, 59, 78, 184, 122, 57, 2, 91, 137]

/-- src/rdata/dnssec.rs:1049-1069 `build_ds` and 1133: the key tags. -/
example : DnsKey.computeKeyTag cfg { DnsKey.new .RSA_SHA256 miekKey with zoneKey := true } = .ok 12051 ∧
    DnsKey.computeKeyTag cfg { DnsKey.new .RSA_SHA1 miekKey2 with zoneKey := true } = .ok 37350 := by
  decide +kernel

/-- src/rdata/dnssec.rs:1049-1069 `build_ds`: the printed digest. -/
example : Ds.hexDigest ⟨12051, .RSA_SHA256, .SHA1, [181, 18, 27, 219, 91, 141, 134, 208, 204, 95, 250, 251, 170, 171, 226, 108, 62, 32, 186, 193]⟩ =
    str "B5121BDB5B8D86D0CC5FFAFBAAABE26C3E20BAC1" := by decide +kernel

end Dns.Vectors
