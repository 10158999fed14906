# Formal model of tglane/maybe-dns in Lean 4

`/verif/lean` is a Lake project (`lake build`).

* `Verif/Model/*`: the model of the Rust code in `/repo/src`, function by function.  Every definition
  cites the file and lines it models, and says where it is simpler than the code.
* `Verif/Spec/*`: small specifications, written from the RFCs without the model's helpers: wire formats
  as lists of fields, the relation "this octet string denotes this name", registries, canonical form.
* `Verif/Lemmas/*`: helper lemmas.
* `Verif/Props/*`: the theorems about the properties of `properties.jsonl` (`C01_...` belongs to C01), each
  with an `example` beside it that a concrete, non-trivial case meets its hypotheses.
* `Verif/Vectors.lean`: the data of the unit tests in `/repo/src/lib.rs` and of the RFCs evaluated in the model.
  These are tests of the fidelity of the model, not proofs.
* `seeded/LOG.jsonl`: wrong programs the theorems were tested against.
* `MANIFEST.json`: property → theorems.

## Trusted base

* The kernel of Lean 4.33.0 (and that it is run on the sources here).  No compiler is trusted:
  `native_decide` and `bv_decide` are not used; `decide +kernel` only evaluates closed terms in the kernel
  and is used for examples, witnesses of false properties, and finite tables.
* The axioms of Lean: `propext`, `Classical.choice`, `Quot.sound`.  No axioms are added, there is no `sorry`.
  The list at the end of this file says which theorem depends on which.
* Mathlib and the Lean library are used as checked by the same kernel.
* That the model is the code.  The code cannot be run here; the model was written from the text of
  `/repo/src`, and checked with the test vectors in `Vectors.lean` and by reading it against the source
  again after the mutation tests.
* That the specifications say what the RFCs say.

## Modelling decisions

* **Octets** are `List UInt8`; `u8/u16/u32/u64` are `UInt8/16/32/64`, `u128` is `BitVec 128`; `usize` is
  `Nat`.  The overflow of `usize` in the public buffer calls is modelled separately
  (`advanceUsize`, `subBufferUsize`, ...; C01, C02), and the two versions are shown to agree below 2^64.  `Model/Word.lean` has the width of `usize` as a parameter; C138 shows that 32 and 64 bits read the same.
  Slices of Rust have less than 2^63 octets, so parsers never get there except by SVCB lengths in
  release builds, which is modelled (`hang`/`panic`/wrap) where it happens.
* **Outcome.**  Every fallible function returns `Res α = ok a | err e | panic k | hang`.
  `panic` is an explicit value: slice index out of range, arithmetic overflow with overflow checks,
  `unwrap` of an `Err`, `todo!()`.  `hang` is a loop that never ends.
* **Parsers** are `Bytes → Nat → Res α × Nat`: data and position give the outcome and the position the
  `DnsBuffer` is left with, also after an error.
* **Build configuration** `Cfg {overflowChecks, mdns, dnssec}`: the features of the crate and
  debug/release arithmetic are quantified over in every theorem.
* **`extract_fqdn`** is an unbounded loop in the code.  The model is a step function iterated with
  fuel; theorems show that the fuel used is enough: running out of it is equivalent to the loop
  never ending for any amount of fuel (C09).
* **Hash** (`DefaultHasher`, util.rs) is a parameter `List Bytes → UInt64`; theorems that need it assume
  that it has no collisions on the suffixes of the names that occur (`NoCollision`); this is a real gap of the
  code, not of the model: a collision makes the compressor write a pointer to a wrong name.  The function of the crate,
  SipHash-1-3 of the labels (SipHash.lean, after the standard library), is one instance: it meets the assumption unless
  SipHash has a collision on what is hashed for these names (C83).
* **HashMap** of OPT is an association list in iteration order with distinct keys, and theorems are for all
  orders; the reader of the model keeps the order of first occurrence, and C110 shows what changes when the
  map has another one.  The map of names to offsets is a function `UInt64 → Option Nat`.  **BTreeSet** is a strictly
  increasing list.  `Vec::binary_search` is a parameter with its documented contract (`Search.Valid`);
  the two algorithms the standard library has had are shown to meet it (TimedSet.lean, C122).
* **String** is octets; `from_utf8`, `from_utf8_lossy` and `String::from_utf8` are modelled after the
  algorithm of the standard library and shown to accept exactly UTF-8 (C44).
* **Cryptography** (`Crypto`: signing, verification, digests of ring/openssl/sha crates) is a structure of
  functions that every theorem quantifies over; where a theorem needs it, it assumes what a signature
  scheme has to provide (verification accepts what was signed; binding).
* **Time** is a parameter.
* **base64** is modelled by RFC 4648 (standard alphabet, padding), as documented by the crate.
* **Mutation** (`&mut self`) is a function from the old to the new value; histories of calls are lists of calls
  (`BufCall`, `HeaderCall`, `PacketCall`, ...) folded over the state.

## What is modelled

| source | model | left out |
|--------|-------|----------|
| buffer.rs | Buffer.lean: all calls | `Debug` |
| byteconvertible.rs | methods of each type | `ByteConvertible` of the code enumerations is the number table |
| error.rs | Basic.lean: `DnsError`; Errors.lean: conversions and texts | `Debug` |
| fqdn.rs | Fqdn.lean, Buffer.lean, Unsafe.lean (`from_utf8_unchecked`) | `From<&str>` (= `new`), `TryFrom<&mut DnsBuffer>` (= `extract_fqdn`) |
| header.rs | Header.lean: layout, flags, setters, getters, codes | `Debug` |
| packet.rs | Packet.lean, Caught.lean (after a panic), Accessors.lean, Constructors.lean, Unsafe.lean (raw writes) | iterators over sections are the lists |
| question.rs, resource.rs | Types.lean, Packet.lean, Accessors.lean, CompressedSize.lean | getters that are field reads |
| resource_record_set.rs | RRSet.lean, Constructors.lean | |
| util.rs | hash as parameter and SipHash.lean; bit helper in Header.lean | |
| rdata/mod.rs | RecordData.lean, Accessors.lean | macro-generated conversions are one function each |
| rdata/{a,aaaa,cname,hinfo,minfo,mx,ns,null,ptr,soa,srv,txt,uri,wks,eui48,eui64,openpgpkey}.rs | RDataBasic.lean, RDataMore.lean, Constructors.lean, Address.lean | – (`TryFrom<&str>` of addresses calls the parser of std, which is not in the repository; Address.lean models it after the source of std) |
| rdata/{apl,caa,dhcid,hip,ipseckey,loc,naptr,opt,sshfp,tkey,tlsa,tsig}.rs | RDataMore.lean, Constructors.lean, Dnssec.lean (DHCID), Output.lean (`println!` in tsig.rs) | |
| rdata/csync.rs, bitmaps of NSEC | RDataBitmap.lean | |
| rdata/svcb.rs | RDataSvcb.lean | |
| rdata/dnssec.rs | RDataDnssec.lean, Dnssec.lean, Constructors.lean | bodies of the cryptographic libraries; key parsing errors are part of the oracle |
| lib.rs | Vectors.lean (its tests) | |

Memory reserved by the counts of the header is modelled in Reserved.lean (C123).  Not modelled: allocation failure, exhaustion of stack or heap, `Debug` and the
cryptographic primitives.  Run time is modelled for reading messages (Timed.lean, C105) and for writing them with compression (TimedWrite.lean, C106) and for writing record sets (TimedSet.lean, C122), in steps; inserting into a
set or a map counts as part of the round that does it.  The undefined behaviour of `from_utf8_unchecked` (Display of a label that is not UTF-8) and of
the unaligned writes in `Packet::to_bytes` is modelled in Unsafe.lean (C104); all other theorems are about the octets
written where the behaviour is defined.

## How the proofs are organised

A wire format is a list of `Spec.Item`s (`u8`, `u16`, `u32`, `name`, `str`, `rest`, ...).
`Items.At N d i its j` says that the octets of `d` from `i` to `j` are these items, where the relation `N` says
what a name looks like (with or without compression pointers); `Items.octets` is the plain encoding.
`Spec.RData cfg r its` relates record data to the items of its RFC.  For every type there are four lemmas: what
the parser returns is related to the items it read (`parse_ok`), every well-formed list of items is read
(`parse_complete`), what is written are the items (`write_ok`), and writing followed by reading is the identity
(`read_back`, `read_back_compressed`).  Records, questions and packets are composed of these by induction over the sections.
Statements about all parsers at once (C05, C30, C31, C32) are predicates on parsers closed under `bind`.

## Where the code does not do what the property says

Each of these is a theorem with a concrete witness (`..._counterexample`) or an exact characterisation.

* `byte_size()` differs from the octets written for OPT, CAA (tag not counted), RRSIG (one octet), SVCB (four octets per
  parameter); `to_bytes()` therefore writes a wrong RDLENGTH for these (C27, C33, C35, C36, C49).  The compressed
  encoder writes the right one.
* SSHFP is written without, but read with, a length octet (C27, C28, C37).
* A name whose pointers lead into a cycle is read for ever (a label followed by a pointer to it, C09, C32); a name
  that reaches the end of the data panics (C10, C31).
* Labels of 64 to 191 octets and names of more than 255 octets are read (C58).
* Bitmaps: the reader overflows for window 255 in debug builds (C31); the writer writes windows for an empty
  set and wrong ones without a type below 256 (C38, C43).
* `take_authorities` resets the answer count, `with_questions` leaves the question count 0, and `to_bytes_compressed`
  writes the counts as they are (C25).
* `response_code()` fails for codes 11 to 15 (C23).
* CDS and CDNSKEY (59, 60) can be built and written but not read (C39).
* Classes 1 to 4 given as UDP payload size, and from 32768 on, do not survive (C40).
* HIP with an empty list of servers is read back without a list (C67).
* APL: lengths are masked with 0x7E, one item only, trailing zero octets are kept (C37, C38).
* IPSECKEY without gateway writes an octet 0x2E (C37, C38); algorithm numbers of IPSECKEY/HIP are exchanged, SSHFP
  Ed448 is 5 instead of 6 (C61).
* TSIG: the time signed is cut to 48 bits (excluded by `Writable`).
* SVCB: value lengths are ignored for port, hints and others (C46), unknown keys are refused and hints with several
  addresses are misread (C78), values of 65532 octets and more panic in debug builds (C66), `Ord` and `Eq` of keys and parameters
  disagree (C75).
* DNSSEC: validity times are in milliseconds (C54), RSA/SHA-256, RSA/SHA-512 and DSA signatures made by the crate do not
  verify (C51), key tags of RSA/MD5 are wrong (C50), `verify` checks none of the fields (C77), names are not
  lowered and duplicates are kept (C73), wildcard labels are counted (C72).
* FQDN: equality and order are case sensitive and from the left (C74, C76), `label_count` wraps at 256 and `is_empty` is never
  true (C16), `Display` of labels that are not UTF-8 is undefined behaviour (C15).
* SRV, NAPTR and NSEC names are compressed although RFC 3597 forbids it (C63).
* Compression pointers to offsets from 16384 on are written, cut to 14 bits (C62).
* Release builds: `advance` and `sub_buffer` with huge lengths wrap around (C01, C02).

## Mutation tests

`seeded/LOG.jsonl` has one line per wrong program: the definition of the model that was edited, the edit, the claim it breaks, the
theorems that failed to build, and the theorems that were added or tightened because the claim was still proved.  Each
mutant was built in a copy of the project.  A claim counts as failed if one of its theorems, or a lemma it
depends on, no longer builds.

## Properties

Status `partial`: only a part is proved (suffix `_partial`) because the full statement is false of the code (shown by a witness theorem) or needs the stated restriction.

| id | property | modelled | how it is proved | status | what is proved, what is missing |
|----|----------|----------|------------------|--------|---------------------------------|
| C01 | Buffer position never leaves the data | all public calls of `DnsBuffer`, with 64-bit `usize` arithmetic (panic or wrap-around) | invariant, induction over histories of calls; witness for the release-build wrap-around | partial | Proved for all histories of calls except sub_buffer(n) in a build without overflow checks when position+n exceeds usize::MAX; C01_sub_buffer_counterexample shows the invariant fails there. |
| C02 | A primitive read is all or nothing | the same | case analysis of each call; the `Nat` versions used by the parsers are shown to agree below 2^64 | partial | Proved for every request with position+n below 2^64 (integer reads and extract_u16_as: no restriction). advance(usize::MAX) in a release build returns Ok and moves backwards: C02_advance_counterexample. |
| C03 | peek_bytes is a pure look-ahead | `peek_bytes` | unfolding against `Octets` | proved | as stated |
| C04 | Integers are big-endian | integer readers | big-endian codec lemmas, against `valueOf` (positional value of octets) | proved | as stated |
| C05 | A sub-buffer confines its reader | `sub_buffer` and every RDATA parser | two-run statement: equality of `take`; `Bounded` closed under bind | proved | as stated |
| C06 | Character strings are length-prefixed | `extract_character_string`, `extract_string` | iff with the octets of the format | proved | as stated |
| C07 | Decoded names are the names RFC 1035 denotes | name decoder loop as a step function | induction over steps against the inductive relation `DecodesW` | proved | Length octets 64..191 (reserved by the RFC, see C58) are read as lengths; C07_decoded_name_rfc1035 gives the RFC relation for labels up to 63 octets. |
| C08 | Every legal name is decoded | the same | induction over the relation, with the bound on pointers as hypothesis of the relation | proved | as stated |
| C09 | Decoding a name terminates | the same | non-termination = a repeated state; pigeonhole on positions; exact characterisation; witness | partial | False as stated (C09_counterexample: self pointer; label followed by a pointer to it). Proved: the call runs for ever exactly when the reader follows a cycle; without pointer octets it always ends. |
| C10 | Decoding a name never panics | the same | exact characterisation of panics; witness | partial | False as stated (C10_counterexample). Proved: it panics exactly when the reader gets to the end of the data or to a label one octet too long. |
| C11 | Reading a name consumes only its in-place encoding | the same | induction: position after the call is behind the first pointer or the root | proved | as stated |
| C12 | Forward pointers are refused | the same | step lemma | proved | as stated |
| C13 | Names survive the wire | `FQDN::to_bytes` and the decoder | induction over labels, at every offset of every message | proved | Exact: a name is read back if and only if each label has 1 to 191 octets (C13_name_exact). |
| C14 | FQDN byte_size is the wire size | `byte_size` | induction | proved | as stated |
| C15 | Text form of names | `FQDN::new`, `Display`, `TryFrom<&[u8]>` | induction over the characters; witness | partial | Display is UTF-8 if and only if the labels are (C15_display_utf8_exact); labels read from the wire need not be (C15_display_utf8_counterexample). Everything else is proved for every string and name; append_label and From<&[&str]> agree with new exactly if the labels are not empty and have no dots. |
| C16 | Predicates on names | `is_root`, `is_link_local`, `label_count`, `is_empty` | unfolding; witnesses | partial | label_count is right if and only if there are less than 256 labels (C16_label_count_exact), and is_empty is never true (counterexample theorems); is_root and is_link_local are proved. |
| C17 | Compressed names decode to themselves | `to_bytes_compressed`, the map of offsets, the decoder | invariant over the history of names: every map entry points to an occurrence that decodes to the suffix | proved | as stated |
| C18 | Compression pointers point backwards to a name | the same | the same invariant | proved | as stated |
| C19 | Compression never makes a message longer | both encoders of a packet | induction over sections | proved | For every packet without empty labels and every hash function; C19_empty_label shows why the restriction is in the statement. |
| C20 | Headers survive the wire with the RFC 1035 layout | `Header::to_bytes`, `TryFrom` | bit-level lemmas against `headerItems` | proved | as stated |
| C21 | Header setters do not disturb other fields | header setters | bit-level lemmas; induction over histories of calls | proved | as stated |
| C22 | A query never carries server-only fields | `new_query` | unfolding | proved | as stated |
| C23 | response_code() is total | `response_code` | case analysis of the 16 codes; witness | partial | False for parsed headers with RCODE 11..15 (C23_counterexample); proved for 0..10 and for all headers built with the API. |
| C24 | Opcode is preserved | `opcode` | case analysis | proved | as stated |
| C25 | Header counts always equal section lengths | packet mutators | invariant over histories; witnesses | partial | Counts equal the section lengths (modulo 65536, exactly when sections stay below) after every history of the section calls that avoids take_authorities, with_questions and the *_mut accessors; with those the property is false (counterexamples), take_authorities resets the wrong counter and with_questions sets none. |
| C26 | to_bytes writes the true counts | `Packet::to_bytes` | unfolding | proved | as stated |
| C27 | Packets survive the wire (uncompressed) | `Packet::to_bytes`, `TryFrom` | composition of the per-type lemmas over lists of `Item` | partial | False for SSHFP, OPT, RRSIG, CAA with a tag and SVCB with parameters (C27_counterexamples); proved for all packets of the other types, any number of records, any content that fits the fields, labels up to 191 octets. C27_record_exact shows that exactly these records are read back; C27_packet_exact and C27_apart_exact the same for packets (in which no SVCB record with parameters is followed by a record of the root: such a packet can be read back by coincidence, C27_coincidence). C27_any_record_exact and C27_any_packet_exact assume nothing about the values: of all records and packets written with less than 65536 octets, exactly those that can be represented (RecordOk, PacketOk), without the types named, are read back; texts of more than 255 octets, classes that are not canonical, sets out of order and the like are never read back by accident. |
| C28 | Packets survive the wire (compressed) | `Packet::to_bytes_compressed`, `TryFrom` | the same with the invariant of C17 | partial | False for SSHFP (C28_counterexample), for hash collisions (C83_counterexample, for every hash function) and for messages of more than 16384 octets (C28_offset_counterexample); proved for all other packets. C28_packet_exact: read back if and only if there is no SSHFP record. C28_any_packet_exact assumes nothing about the values: of all packets whose compressed form has at most 16384 octets (and no hash collisions among their names), exactly those that can be represented, with correct counts and without SSHFP records, are read back. |
| C29 | Parsed counts match parsed sections | `TryFrom` for packets | induction over the counted loops | proved | as stated |
| C30 | Parsing looks at a prefix only | all parsers | predicate `Extends` closed under bind; for names induction over steps | proved | as stated |
| C31 | Parsing a packet never panics | all parsers | predicate `Safe` closed under bind, exact set of panics | partial | False (C31_counterexample: truncated names, bitmaps of window 255, odd SVCB lengths). Proved: the messages that panic, in every build, are characterised exactly (iff), with the kind of panic. |
| C32 | Parsing a packet terminates | all parsers | the same; exact set of non-terminating messages | partial | False (C32_counterexample: pointer cycles). Proved for every message: Packet::try_from returns exactly when no name it gets to leads into a pointer cycle. |
| C33 | Packet byte_size is the wire size | `Packet::byte_size` | induction; exact error; witness | partial | False for OPT, RRSIG, CAA, SVCB (C33_counterexample); the exact error is proved for every packet. Questions: proved. |
| C34 | A record occupies exactly its RDLENGTH | `TryFrom` for records | unfolding | proved | as stated |
| C35 | RDLENGTH written equals RDATA written | record writers | per type; witness | partial | Compressed form: proved for every record. Uncompressed form: false for OPT, RRSIG, CAA, SVCB (C35_counterexample), proved for all others; C35_exact: the field is right if and only if the data are no OPT and RRSIG data, no CAA data with a tag and no SVCB data with parameters. |
| C36 | RDATA byte_size is the RDATA wire size | `byte_size` of all types | per type; exact error; witnesses | partial | False for OPT, RRSIG, CAA, SVCB (C36_counterexamples); the exact difference is proved for every value of every type, and C36_exact says for which values the size is right. |
| C37 | RDATA parsers read the RFC layout | 35 RDATA parsers | per type, against `Spec.RData` (lists of fields); witnesses | partial | Completeness for every RDATA type at every offset with compressed names, soundness for all but SSHFP/APL/SVCB/IPSECKEY-none; false for SSHFP, IPSECKEY without gateway and odd-length APL addresses (counterexamples). C37_sshfp_read, C37_ipseckey_read and C37_apl_read say exactly what is read for these; SVCB see C45 to C47 and C78. |
| C38 | RDATA writers write the RFC layout | 35 RDATA writers | per type, against the strict layouts; witnesses | partial | False for IPSECKEY without gateway, APL addresses with trailing zero octets, and type bitmaps without a type below 256 (counterexamples). C38_write_exact: a value of any type that fits the fields is written as the RFC prescribes if and only if it is none of these. |
| C39 | Type codes convert without loss | code tables | whole-table case analysis plus arithmetic over all 65536 numbers (no enumeration) | partial | Numbers as registered, distinct, read back, errors carry the number; false for CDS/CDNSKEY, whose numbers 59/60 are not read (counterexample). |
| C40 | Classes convert without loss | classes | the same | partial | Exact characterisation (iff); false for UdpPayloadSize 1..4 and from 32768 on (counterexample). |
| C41 | mDNS flag bits survive | class fields of questions and records | bit lemmas | proved | Flag round trip for questions and for records of every type (class with one name and top bit free, see C40; labels of 1 to 191 octets), class field bits written, class and flag read, bit ignored without mdns. |
| C42 | Unknown types are reported, not misread | type fields | unfolding, induction over sections | proved | At record, question and message level; message level: in any of the three sections after any number of good records. |
| C43 | Type bitmaps denote the set | bitmap reader and writer | induction over the windows and the sorted list, against bit membership | proved | Writer and reader, both record types; reader also complete. |
| C44 | Strings returned by the parser are valid UTF-8 | String fields | UTF-8 validity as image of scalar values; induction | proved | All String fields of RDATA (TXT, CAA tag, NAPTR regexp); UTF-8 defined by the scalar-value encoding of the Lean prelude. |
| C45 | SVCB parameters are a sorted set without duplicate keys | `Svcb::add_parameter`, reader, writer | induction over insertions | proved | Every history of insertions, every parsed record, order of the written parameters. |
| C46 | SVCB parameter lengths frame the parameters | SVCB parameter reader and writer | per key; witnesses | partial | Exact frame for mandatory, alpn, ech and private parameters, and exact consumption for the others, whose length field is ignored (counterexample); written length exact up to 65535 octets without, 65531 with overflow checks (panic above, counterexample). |
| C47 | OPT options are a map | OPT options | association lists with distinct keys up to permutation | proved | HashMap modelled as association list with distinct keys in any order. |
| C48 | Canonical RRset bytes do not depend on record order | `RRSet::to_bytes` | sortedness and permutation, for every contract-abiding `binary_search` | proved | binary_search is a parameter constrained by its documented contract (Search.Valid); the octet format against SortedRecords for owner names without empty labels. |
| C49 | RRset byte_size is the wire size | `RRSet::byte_size` | induction; witness | partial | Exact difference proved; right for all types except OPT, RRSIG, CAA and SVCB, where it is false (counterexample). |
| C50 | Key tag is the RFC 4034 Appendix B checksum | `key_tag` | sum over octets against Appendix B; witness | partial | False for RSA/MD5 (C50_counterexample). For all other algorithms: right for keys up to 131066 octets (a record holds at most 65531); C50_key_tag_exact says what happens for keys of any length: right without overflow checks, with them a panic if the sum does not fit 32 bits (C50_overflow_counterexample). |
| C51 | Signer and verifier agree on the signed octets | `from_dnskey`, `verify` | unfolding with oracles; witnesses | partial | Same octets for all algorithms; a fresh signature verifies for all algorithms but RSA/SHA-256, RSA/SHA-512 (never verifies, proved) and DSA (counterexample). The cryptographic libraries are oracles. |
| C52 | DS digest covers owner name and DNSKEY RDATA | `Ds::from_dnskey` | unfolding with oracles | proved | Digest functions are parameters. |
| C53 | Verification refuses foreign keys | `verify` | unfolding with oracles | proved | For every oracle; acceptance is equivalent to acceptance by the library, under the key encoded in the DNSKEY record, of exactly the RFC 4034 octets. |
| C54 | RRSIG validity times are in seconds | RRSIG times | unfolding; witness | partial | False: the fields are in milliseconds (counterexample); the partial theorem says exactly what they are, and C54_inception_exact and C54_whole_seconds for which times they are right. |
| C55 | FQDN ordering is a total order | `Ord` for FQDN | order laws | proved | as stated |
| C56 | Parse, write, parse is stable | reader, writers | `parsed` invariant (what is read can be written) and C27/C28 | partial | False for SSHFP, OPT, RRSIG, CAA, SVCB records (C56_counterexamples). Proved for every message that is read without them (uncompressed), and without SSHFP (compressed), provided the records do not become too long; C56_stable_exact, C56_apart_exact and C56_stable_compressed_exact show that exactly these messages are stable (uncompressed: unless an SVCB record with parameters is followed by a record of the root, see C27_coincidence). |
| C57 | A name read is bounded by the message | name decoder | bound on steps by distinct positions | proved | as stated |
| C58 | Reserved label types are rejected and names are at most 255 octets | name decoder | step lemma; witnesses | partial | False (C58_counterexample, C58_no_bound): 64-octet labels and names of any length are accepted. Proved exactly what is accepted: an octet 1-191 is a label length (C58_length_octets_partial, iff), 192-255 always a pointer (C58_no_label_from_pointer_partial), and a name written out is accepted iff all labels have 1-191 octets, whatever its total length (C58_accepted_partial). |
| C59 | Predicted compressed size of a name is the written size | `FQDN::byte_size_compressed` | induction over suffixes | proved | as stated |
| C60 | Different RRSIG fields or records give different signed octets | octets signed | injectivity of the item encodings | proved | The octets determine the fields, the records, and the owner, type, class and TTL of a non-empty set (C60_octets_determine); hence two RRSIGs that verify with the same binding signature agree (C60_signature_binds). |
| C61 | Numbers of algorithms, types and codes are those of the IANA registries | all enumerations | comparison with transcribed registries | partial | All enumerations but Algorithm (SSHFP Ed448 is 5 not 6; IPSECKEY/HIP RSA and DSA exchanged) and SHA-512 digest (unassigned) agree with the registries; counterexample theorem states exactly which values differ. |
| C62 | Compression pointers are representable | `to_bytes_compressed` | invariant on offsets; witness built from a long message | partial | False for messages of more than 16384 octets (C62_offset_counterexample); proved below that size. Exactly (C62_pointer_exact): a pointer designates the offset of the first occurrence modulo 16384, so it is right if and only if that offset is below 16384. |
| C63 | Only names in RDATA that may be compressed are compressed | RDATA writers | per type; witnesses | partial | All types but SRV, NAPTR and NSEC, for which it is false (counterexamples for every hash function). compression_allowed() is true for exactly these, TXT and the types that may be compressed, and the writer follows it (C63_compression_allowed, C63_not_allowed_not_compressed, C63_allowed_compressed). |
| C64 | Predicted compressed size of questions and records is the written size | `byte_size_compressed` of questions, RDATA, records | per type, induction | proved | Sizes proved equal to the written lengths. The map that byte_size_compressed leaves behind has other offsets than the one to_bytes_compressed leaves (C64_map_counterexample). |
| C65 | The type of a record and the type of its data agree | `RData`, record setters | per type; reader; histories; witness | partial | The 35 data types agree with their record types, and records that are read do. False for records made with new, set_record_type, set_data, data_mut (C65_counterexample). |
| C66 | Writing never fails | writers | per type; exact; witness | partial | Exact: in release builds every packet is written, in builds with overflow checks all but those with SVCB parameter values of 65532 to 65535 octets, for which to_bytes panics (C66_counterexample). Such a parameter cannot be received: every packet that was read is written by both writers, in every build (C66_received). |
| C67 | Different packets are written differently | writers | from C27/C28 by reading; witness | partial | False in general: C67_option_counterexample (an OPT option without data), C67_size_counterexample (an SVCB record whose computed size exceeds 65535), C67_counterexample (HIP with an empty list of servers); with compression C67_collision_counterexample (for every hash function) and C67_offset_counterexample (more than 16384 octets). Proved for to_bytes (C67_distinct_partial) for all packets that can be represented on the wire except those with the first two, and for to_bytes_compressed (C67_distinct_compressed_partial) with records of all types, up to 16384 octets and without collisions. |
| C68 | A packet contains what was put into it | packet mutators | induction over histories | proved | as stated |
| C69 | CSYNC flags are what was set last | CSYNC `Flags` | induction over histories | proved | Every history of setter calls from new or read flags; the written bits are 1 for immediate plus 2 for soaminimum. |
| C70 | The printed digest of a DS record is its digest | `hex_digest` | induction over octets | proved | Two digits per octet, reading them back gives the digest, injective. |
| C71 | DHCID digests are over the canonical name | `Dhcid::new` | unfolding with an abstract hash; witness | partial | False in general: Dhcid::new does not lower the case, so spellings of one name give different digests (witness). C71_dhcid_exact: right if and only if the name has no upper case letters, unless the hash has a collision. |
| C72 | The fields of a signature describe what was signed | `from_dnskey` | unfolding; witnesses | partial | All fields proved for names without asterisk label and with fewer than 256 labels, signer = owner. False: a wildcard label is counted, and 256 labels wrap to 0 (witnesses). C72_labels_exact: the number of labels is right if and only if neither is the case. |
| C73 | What is signed is the canonical form of the set | `RRSet::to_bytes`, DS digest | against the canonical form of RFC 4034 6; witnesses | partial | False: names are not lowered, duplicates are kept, DS digests depend on the spelling (witnesses). C73_canonical_exact and C73_ds_exact: right if and only if there are no upper case letters and no duplicates. |
| C74 | Names are compared without regard to case | `Eq` for FQDN | against case folding; witness | partial | Equality is sound, and complete for names without upper case letters. False otherwise: equality is case sensitive (witness). C74_equality_exact: a name equals all its spellings if and only if it has no letters. |
| C75 | The order of SVCB keys and parameters agrees with equality | `Ord`/`Eq` of SVCB keys and parameters | case analysis; witnesses | partial | Proved for keys that can be read and for the parameters of one record. False for keys made by hand and for parameters with the same key and different values (witnesses). |
| C76 | The order of names is the canonical order | `Ord` for FQDN | against RFC 4034 6.1; witness | partial | Proved for names directly below the same parent. False in general: names are compared from the left (witness). Exactly (C76_exact): for names with different first labels below different parents the order is right if and only if the first labels are ordered like the parents; any two parents have children in the wrong order (C76_wrong). |
| C77 | Only usable signatures are accepted | `verify` | against the conditions of RFC 4035 5.3.1; witness | partial | Signatures made by from_dnskey with a zone key meet the conditions. False of verify, which checks none of the fields but the algorithm: for all keys and all contents of the fields (C77_checks_nothing). |
| C78 | Legal SVCB records are read as what they say | SVCB reader | against RFC 9460 legality; witnesses | partial | Exact: a legal record is read with its keys and values if and only if all parameters are supported. False for hints with several addresses and for unknown keys (witnesses). |
| C79 | Constructors put their arguments where the wire format says | constructors | unfolding against lists of fields | partial | NSEC and CSYNC exactly if one of the types is in the first window (C79_types_exact; otherwise a block without types is written, false). OPT, HIP, TKEY, TSIG, LOC, SSHFP and SVCB are built from public fields or covered by C38 |
| C80 | Header flags and codes arrive | packet getters, writers, reader | prefix lemmas and C20 | proved | for every packet that can be read at all, with any octets following; sender and receiver may be different builds; and the first four octets of messages made with new_query, with_questions, new_reply and default, filled by any history of add calls |
| C81 | The printed key and signature are base64 | base64 texts | induction over groups of three octets | proved | the base64 crate is modelled by its documented behaviour (RFC 4648 standard alphabet with padding) |
| C82 | A message built with the API arrives as it was built | whole API path: build, write, read | C25, C68, C27, C28 composed over histories of calls | partial | False for SSHFP records (C82_counterexample). Exactly: with compression (at most 16384 octets, no hash collisions) a message arrives as built if and only if all that was added can be represented and none is an SSHFP record (C82_compressed_exact); plain (less than 65536 octets) if and only if, besides, no OPT, RRSIG, CAA or SVCB record with parameters is added (C82_plain_exact). C82_reply_partial is the request/response corollary. |
| C83 | Name compression does not depend on the hash function | compression map with the hash as parameter; the hash of the crate in Model/SipHash.lean | simulation between two hash functions over all writers; pigeonhole for the witness | partial | Proved for all hash functions without collisions on the suffixes of the names of the packet; the function of the crate (SipHash-1-3 of the labels, on machines of every byte order and word size) is one of them unless SipHash itself collides, since the hashed octets determine the name (C83_hashed_octets, C83_machines_partial). False otherwise: for every 64-bit hash function there is a packet that is read back with a wrong name (pigeonhole, C83_counterexample). |
| C84 | The build profile does not change results | the build as a parameter of every function of the model | relation between two runs (Lemmas/Agree, Lemmas/Builds): same outcome unless the first one stops at an overflow; compositional over binds and loops | partial | Proved up to overflow: both profiles have the same outcome unless the debug profile panics with an arithmetic overflow. Without that exception it is false (witness: a bitmap for window 255 that is read as type A in release builds, an odd mandatory parameter). |
| C85 | The feature dnssec only adds types | record and query types with and without the feature | the same relation with the errors for the types of the feature excused; the converse by the characterisation of what is read | proved | Same outcomes up to the errors for the types of the feature, characterisation of the packets read without the feature, and equality of what is written. |
| C86 | The feature mdns only adds two bits | class fields with and without the feature | the same relation, with the value mapped by erasing the two bits | proved | Outcome of reading, equality of what is written without the bits, and exchange between the builds. |
| C87 | A short message cannot make the reader build a large packet | reader of messages | every question and record is at a place of the message; induction over the sections | proved | Bound on questions and records by the octets of the message; the bound is reached. |
| C88 | Compression does not change the meaning of a message | both writers and the reader | composition of C27 and C28; witnesses for the difference | partial | False for packets with wrong counts and with records whose size is computed wrongly (witnesses). Proved for packets that can be represented, with right counts and sizes, no SSHFP, no hash collision, up to 16384 octets; for packets without SSHFP exactly (C88_exact without SVCB parameters, C88_apart_exact also with them, if no record of the root follows). |
| C89 | Errors name a number that is in the message | errors as data, with their numbers; every reader | an error predicate carried compositionally through all parsers (Lemmas/Blames) | proved | For every message and build; errors of other crates carry no number. |
| C90 | Errors name what is wrong | as C89 | the same predicate; witnesses for the codes reported under another name | partial | False: TLSA selectors, TSIG errors and DHCID digest types are reported under the name of another kind of code for which the number is valid, CDS as unknown; signing reports wrong numbers (witnesses). Proved for all other errors of reading. |
| C91 | Errors can be printed and told apart | Display and source of DnsError; the texts of errors of other crates are a parameter | left inverse of the text; the chain of sources by induction | partial | False: source() of an error is the error itself, so that the chain never ends (proved). Proved: different errors have different texts. |
| C92 | Messages are written part by part | both writers | both are a fold over the list of parts; fold over an append | proved | Layout of the plain form, prefix property of both forms, shorter packets can be written. |
| C93 | Repeated names are compressed | compressing writer of whole packets | invariant of the map of names: it has every ending of every name written (Closed, Knows); by induction over the parts | proved | For hash functions without collisions on the names of the packet (with collisions the ends of a name may not be remembered). |
| C94 | The memory for a packet is at most quadratic in the message | reader of messages | weight of items against the octets they occupy; induction over lists and loops; the growth is reached by a family of messages, using C28, C19 and C93 | proved | Bounds on names, strings and collections; that the growth is really quadratic is proved for a family of messages. |
| C95 | Comparisons are total orders | the Ord implementations | every comparison is that of numbers given to the values; names by C55 | proved | For all values. That parameters and their keys may compare as equal without being equal is C75; equality of names under the order is C55. |
| C96 | Addresses can be given as text | TryFrom<&str> of A and Aaaa with the parser of std behind it | every reader of the parser accepts exactly the texts of a grammar and leaves the rest; induction over the groups | proved | The parser of std::net that the code calls is part of the model (it is not in the repository); texts are their octets. |
| C97 | What is written is a message of RFC 1035 | `Packet.toBytes`, `Packet.toBytesCompressed` and everything below; `Spec.SentMessage` (Spec/Conform.lean): messages with RDATA of `Spec.RDataStrict` that fill RDLENGTH exactly. | Both directions: induction over the sections with the invariant that the map of names points to occurrences of the names; the converse by uniqueness of names and of the encodings of the data whose size is wrong. False for OPT, RRSIG, CAA, SVCB with parameters (without compression) and for data that are not `WrittenWell`: exact conditions and counterexamples. | partial | Proved for all packets whose data are WrittenWell (with to_bytes also: no OPT, RRSIG or CAA records and no SVCB parameters), SSHFP included, and these conditions are exact (C97_plain_exact, C97_compressed_exact); false otherwise (C97_counterexample_opt, C97_counterexample_nsec). In which data names may be compressed is C63. |
| C98 | Length of a digest | `SecAlgorithm.len`, `SecAlgorithm.signData`; hash functions are parameters with the output lengths of their standards. | Case analysis over the algorithms. False for Ed25519 and Ed448 (counterexample). | partial | Proved for all algorithms that sign a digest and for those without length; false for Ed25519 and Ed448, whose len() is neither None nor a length of a digest or signature. |
| C99 | A message of another implementation is read as what it says | `Packet.parse` and everything below; `Spec.ReceivedMessage` (Spec/Receive.lean): messages with names of `Spec.LegalName` and RDATA of `Spec.RDataStrict`. | Completeness of the parsers of names, items and data (C08, C37) lifted to messages by induction over the sections; the converse by uniqueness of the heads of records and of the encodings of SSHFP, IPSECKEY and APL. False for SSHFP, IPSECKEY without gateway and APL addresses with an odd number of octets: exact condition and counterexamples. | partial | False as stated: SSHFP, IPSECKEY without gateway and APL addresses of an odd number of octets are misread (C99_counterexamples). C99_exact: a message is read as what it says if and only if none of its data is of these; C99_liberal_partial: also with RDATA that a sender should not write but whose meaning is clear. |
| C100 | A signed answer verifies at the receiver | `Rrsig::from_dnskey`, `verify`, `Packet::to_bytes_compressed`, `TryFrom`; `Spec.Validates` (Spec/Signed.lean): what a receiver does with the packet. | Composition of C28 (the packet is read back), C48 (order of the records) and C51 (a fresh signature verifies). False with `to_bytes()`, which writes a wrong RDLENGTH for RRSIG: counterexample. | partial | Proved for to_bytes_compressed, for every set, packet, order of records and signature library (RSA/SHA-256, RSA/SHA-512 and DSA excepted, see C51; SSHFP records and messages above 16384 octets excepted, see C28). False with to_bytes, which writes a wrong RDLENGTH for RRSIG records (C100_counterexample); C100_plain_record and C100_plain: a signature written with to_bytes always arrives without its last octet, whatever the message. |
| C101 | Forwarding without compression keeps every octet | `Packet.parse`, `Packet.toBytes` and everything below; `Spec.SentMessage Spec.PlainName`. | Uniqueness of the strict encodings (type bitmaps, APL prefixes, class fields) lifted to messages by induction over the sections, with C97 and C99. False for SSHFP, data that are not `WrittenWell` or of which the size is wrong, and for the mDNS bits in builds without the feature: exact condition and counterexamples. | partial | False as stated: SSHFP is misread, OPT, RRSIG, CAA and SVCB with parameters get a wrong RDLENGTH (C101_counterexample_opt), IPSECKEY without gateway, APL addresses with trailing zeros and bitmaps without types of the first window are not written as prescribed, and builds without the feature mdns lose the bit of the class field (C101_counterexample_mdns). C101_forward_exact: exactly these. |
| C102 | Writing has no effect but its result | Model/Output.lean: the writers once more with the standard output, which may refuse lines; `println!` in tsig.rs. | A computation ends as without output after printing a list of lines, unless one is refused; composed along the writers by induction. False for TSIG: exact condition, the lines printed, counterexample. | partial | False for TSIG data: every time they are written (also for a compressed size, signing or verifying) a line `Test: [...]` is printed, and if the standard output is closed the call panics. Proved for everything without TSIG data (C102_silent_partial), the condition is exact (C102_exact), and C102_prints says which lines appear and what happens when one is refused. Output through the formatting traits Debug and Display is the caller's. |
| C103 | Nothing in the data of a received record is left unread | `RecordData.parse`, `ResourceRecord.parse`; `Spec.ToTheEnd`: the types with a field that extends to the end of the data. | For these types the items of the RDATA end with one that is only found at the end of the octets. For all others the items are found at the same places whatever follows, so any padding is ignored; exact division of the types, padded records in messages, counterexamples (an address of five octets; APL records with two addresses). | partial | True exactly for the types with a field that extends to the end of the data (C103_exact). For every other type whatever follows the data is ignored (C103_ignored), also in messages (C103_padded); the second and later addresses of APL records, which RFC 3123 allows, are lost (C103_counterexample). |
| C104 | The unsafe code is never undefined | Model/Unsafe.lean: `to_bytes` with an allocator (address and capacity of the memory), raw stores of 16 bits in the order of the machine, and `from_utf8_unchecked`, each of which is undefined outside its conditions. | The header octets of raw stores computed for both byte orders; in bounds for every allocator. False for odd addresses (exact: undefined iff the address is odd and the size is computed) and for names from the wire that are not UTF-8: exact conditions, counterexamples, and the theorem that names made from text with `new` and appended labels are fine. | partial | False: Packet::to_bytes casts the pointer of a Vec<u8> to *mut u16 and writes through it, which is undefined if the allocator returned an odd address (exactly then; never out of bounds; both byte orders give the same message), and Display of a name read from a message whose labels are not UTF-8 makes a str of octets that are not UTF-8 (exactly then). Proved for even addresses and for names made from text. |
| C105 | Reading a message takes at most quadratic time | Model/Timed.lean: all parsers once more, with the same text, in a monad that counts steps. | That the outcomes are those of the other model is proved (C105_same), not assumed. A predicate on parsers (at most so many steps for each octet consumed, and so many more) is closed under sequence, choice, loops and sub-buffers; a name takes at most 192 * (2 n + 3) steps because the loop cannot enter a position twice without going on for ever. False for cycles of pointers (counterexample); a family of messages that need quadratic time shows that the bound has the right order. | partial | Proved: messages that are not read for ever take at most 400 (n+2)^2 steps; messages without octets from 192 take at most 240 (n+1) steps and are never read for ever; the order is reached. False for messages with a cycle of pointers (counterexample). |
| C106 | Writing with compression takes at most quadratic time | Model/TimedWrite.lean: the compressing writers once more, counting steps. | That the outcomes are the same is proved (C106_same). Amortised: a label is only written when its suffix was not in the map, and then the suffix is inserted. All names of a packet read from n octets, with their suffixes, are among the names denoted at the n positions of the message, so this happens at most n times; each time at most 192 n octets are hashed. The length of the result is bounded type by type. A family of messages with one question shows that the order is reached. | proved | At most 800 (n+1)^2 steps and three for each octet of the result (C106_steps), at most 200 (n+1)^2 octets (C106_output), together at most 1400 (n+1)^2 steps (C106_time); the order is reached by one question (C106_reached). |
| C107 | No other way to compress the names gives a shorter message | both writers of whole packets; the ways to compress names are a separate specification (Spec/Shortest.lean) | invariant of the map: it has exactly the endings of the names written so far, whatever was chosen before, so that the greedy choice is the best name by name; induction over the parts. C107_least gives equality with the least sum. | proved | C107_shortest: at most as long as with any encoding of the names in the places that RFC 1035 allows; C107_least: with the names in SRV, NAPTR and NSEC data, which the crate compresses too, exactly the least number of octets. C107_other_data shows that names in the data of other types are not used as targets of pointers, where a pointer would be shorter. |
| C108 | Messages that stand one behind the other in a buffer can be read one after the other | `Packet.parseBuf` from any position; `readFramed` (Props/Stream.lean) is a caller that reads messages with a length before them through the calls of the crate. | The layout relations of names without pointers, items, questions, records and messages are moved behind any prefix (`octets_move`, `plainName_move`, `items_move`, `record_move`), then the exact reading lemmas give the result; the sequence by induction. Conversely two prefixes (16384 zeros, 16384 ones) show by induction on the name that one with a pointer is read differently behind one of them, and the layout of a message that is read the same everywhere is followed item by item. The counterexample is computed for every hash function through `twoQuestions_bytes`. | partial | Messages without compression, any number of them one behind the other with any octets around, are read one after the other with the position left behind the last; also with the two length octets of TCP, read with extract_u16, sub_buffer, try_from, advance; also what to_bytes writes. C108_exact: of the messages of RFC 1035 the crate reads at position 0, exactly those without compression are read as the same packet behind every prefix; C108_name_exact the same for names. C108_counterexample: for every hash function two messages written with compression, of which the second, read behind the first, is a query for the name of the first. |
| C109 | A message that has not arrived completely is refused with the error of length | `Packet.parse`, `Question.parse`, `ResourceRecord.parse` on the first octets of the data (`d.take k`). | `CutWell` (Lemmas/Cut.lean) says that a reader that reads the whole reads the same from the part if all it needs is there, and fails with the error of length or an index out of bounds otherwise; it is closed under sequencing, conditions and repetition and holds for names, headers, questions, records and messages. With C31 this gives the exact condition. For messages without compression `CutAs` carries the condition for the panic through the layout of the message, which gives the places where a cut panics in terms of the names of the questions and records. The counterexample is computed for every configuration. | partial | False in part: a message that is cut in the name of a question or record, before a length octet or before the last octet of a label, makes the crate panic instead (C109_counterexample, for every configuration). Proved: a message (question, record) that is cut is refused with the error of length or panics with an index out of bounds, nothing else; exactly when it panics, for all messages in terms of the names the reader gets to (C109_exact), and for messages without compression and what to_bytes writes in terms of the places of the names (C109_plain_exact, C109_written_exact). |
| C110 | Packets that compare equal are written to the same octets | `Packet.toBytes`, `Packet.toBytesCompressed`, `Packet.byteSize` on packets that are equal in the sense of the derived `PartialEq` (`SamePacket`, Spec/Equal.lean: equality of maps is that every code has the same value). | Equal maps with distinct codes are permutations of each other; a record is written to octets that are the same apart from the order of options, and as many, so that the map of names of the compressor stays the same (induction over the parts of C92). Exchanging the first two options of an OPT record shows that the condition is exact. The read theorems apply C28 to the other packet. | partial | False for OPT records with two or more options, whose HashMap has no fixed order (C110_counterexample; C110_exact: exactly these). For all equal packets: same octets apart from the order of options, same number of octets, same byte_size, and what is written with compression is read as a packet equal to both (C110_written, C110_size, C110_read, C110_stable). |
| C111 | A message read and written again with compression does not get longer | `Packet.parse` and `Packet.toBytesCompressed`; messages whose pointers lead to prior names are a separate specification (Spec/Placed.lean) that lists the places of names as they are written. | The layout gives for every name the number of octets it takes, which is one of the ways to encode the names one after the other (Spec/Shortest.lean), by induction over items, records and parts; with C107_least the crate needs at most as many. Conversely the map of the compressor holds only places of the layout (`Mapped`), so that its output is such a message (if it has at most 16384 octets) and hence the shortest. The three kinds of messages that get longer are computed. | partial | Proved for messages of RFC 1035 whose pointers lead to prior names in questions, owner names and data of the types the crate compresses, with data that are read and written as the RFCs demand: they are read, and written again they are not longer and read as the same packet; and what is written is the shortest such message (C111_shortest). False otherwise: a pointer into the target of an SVCB record, an APL prefix with trailing zeros and an NSEC bit map without the first window get longer (counterexamples). |
| C112 | The id and the flags of a message can be changed in place | `Packet.parse`, `Packet.toBytes` and `Packet.toBytesCompressed` on messages and packets of which identification and flags are replaced (`patch`, `repatch`, Spec/Patch.lean). | `Steady` (Lemmas/Steady.lean) says that a parser started behind a place to which no pointer leads does the same whatever stands before it; it is closed under sequencing, conditions and loops and holds for every type of data. For messages of RFC 1035 the layout is carried over item by item (`items_alike`), and conversely a name read the same with zeros and with ones before the place has no pointer there (`nameWith_from`). What is written is C92. | partial | False for names with a pointer into the first four octets (C112_counterexample); exactly those (C112_exact, for messages of RFC 1035 that are read). Proved for all octets without such pointers, whatever the outcome (C112_any), and for everything that is written (C112_written). |
| C113 | A record can be appended to an encoded message, and taken off again | `Packet.parse` and `ResourceRecord.parse` on messages of which ARCOUNT is replaced and octets are appended or cut off (`arcount`, `withAdditional`, Spec/Edit.lean), `Packet.toBytesCompressed` and `ResourceRecord.toBytes`. | The layout of a message with pointers to prior names (`PlacedMessage`, Spec/Placed.lean) only speaks of the octets of each name, question and record where they stand, so it carries over to every message that has the same octets there (`Shared`, Lemmas/PlacedEdit.lean). The layout with pointers to anywhere behind the header carries over as for C112. That such messages are read is C99, that the crate writes them C111. | partial | Proved for every message of RFC 1035 whose pointers lead to prior names, of any size: appended (C113_append_message as a statement about layouts, C113_append_partial for what is read), cut off (C113_remove_message, C113_remove_partial, with the place where to cut being where the last record is read), and one undoing the other (C113_undo, octet for octet); appending also for pointers to any place behind the header (C113_append_any_partial) and for what the crate itself writes (C113_own_partial). False for pointers to ARCOUNT (C113_counterexample). Data that are not ReadWell are not read at all (C99). |
| C114 | The TTL of a record can be changed in an encoded message | `Packet.parse`, `ResourceRecord.parse` and `extractFqdn` on messages of which four octets are replaced (`overwrite`, Spec/Edit.lean). | As for C113: the messages before and after share the octets before the TTL and those behind it; no name with pointers to prior names reads the TTL. | partial | Proved for every message of RFC 1035 whose pointers lead to prior names, every section, record and TTL (C114_message as a statement about layouts, so that changes can be repeated; C114_partial for what is read). False for pointers to a TTL (C114_counterexample). Data that are not ReadWell are not read at all (C99). |
| C115 | An encoded message can be shortened between its records | `Packet.parse` and `ResourceRecord.parse` on the first octets of messages behind another header (`reheaded`, `firstRecords`, Spec/Reply.lean). | The layout of the records of all sections is one list, of which every first part is laid out, too (`listPlaced_cuts`, `listPlaced_slice`); it is divided into the sections again, and carries over to the octets with the other header (`Shared`, as for C113). The last place within a limit by induction. | partial | For every message of RFC 1035 whose pointers lead to prior names: the places between records, and what the octets before each say (C115_message), for what the crate reads (C115_partial) and for a limit (C115_limit_partial). Missing: messages with other pointers (false: C115_counterexample) and data that are not ReadWell (see C99). |
| C116 | A reply can be made of the octets of the question | `Packet.parse` on octets of questions between another header and octets of records (`replyPacket`, `AnswerOctets`, Spec/Reply.lean), `Packet.toBytesCompressed` and `ResourceRecord.toBytes`. | The first question of a message with pointers to prior names is written out at position 12, so this place is known to the layout (`first_known`) and a pointer may lead there; the records behind it by induction. | partial | For every message of RFC 1035 whose pointers lead to prior names (C116_message), for what the crate reads (C116_partial) and for octets the crate writes (C116_own_partial). Missing: messages with other pointers (false: C116_counterexample) and data that are not ReadWell (see C99). |
| C117 | All TTLs of an encoded message can be changed at once | `Packet.parse`, `ResourceRecord.parse` and `extractFqdn` on octets that differ from a message at the places of TTLs (`withTtls`, Spec/Reply.lean). | Induction over the records: each carries over to octets that are the same before and behind its TTL (`record_retime`, `records_retime`); no name with pointers to prior names reads a TTL. | partial | For every message of RFC 1035 whose pointers lead to prior names: one place for each record, and any octets that differ only there (C117_message), for what the crate reads (C117_partial). Missing: messages with other pointers (false: C117_counterexample) and data that are not ReadWell (see C99). |
| C118 | Only what the zone has signed is accepted through a chain of trust | `Ds.ofDnsKey`, `Rrsig.fromDnsKey`, `Rrsig.verify`, `RRSet`, `Packet.parse`; what a receiver does is `Spec.ChainValidates`, the assumptions on the cryptography are `OnlyPreimage` and `NoForgery` (Spec/Chain.lean). | The octets of the digest determine owner and key (the name ends with its zero octet, and the flags, algorithm and key follow), and the octets that are signed determine the fields of the RRSIG and the records in sorted order (C52, C60); a received record is representable (`record_parsed`), so it is the one signed. | partial | DS records with the same digest stand for the same owner and key (no restriction). Whatever is received: the accepted key is the zone's, the accepted set one that was signed; partial: records that become too long when written again (Rewritable) - for these it is false, C118_counterexample: a TXT record that was never signed is accepted with the signature of another - and the checks of time and flags that the crate leaves to its user (C77). What is published validates, within the restrictions of C100. |
| C119 | Signatures are exchanged with other implementations | `Rrsig.verify`, `Rrsig.fromDnsKey`, `SecAlgorithm.signData`, `RRSet.toBytes` and `Packet.parse`; the RFCs are `Spec.RfcSigned` (Spec/Interop.lean), the schemes are a parameter (`Schemes`), and what the libraries document of the keys and signatures they take and give is `Implements`: it is an assumption on `ring`, `rsa`, `dsa` and `crrl`, which are not in /repo. | For sets in canonical form the octets verified are those of the RFC (C48, C38: sorted lists without repetitions are determined by their members). Then by algorithm: for EdDSA the libraries take what the RFCs define; for RSA the prefix makes the octets longer than the digest, and a signature is one of a single digest; DER starts with another octet than T; an uncompressed point has one octet more. | partial | Proved exactly: a signature of the RFCs over a set in canonical form is accepted iff the algorithm is Ed25519 or Ed448 (C119_accepts_exact, C119_message_exact for whole messages); what is made is a signature of the RFCs iff it is not RSA/MD5, RSA/SHA-1 or DSA. False otherwise: counterexamples for upper case letters and wildcards. Assumes what the cryptographic libraries document (Spec.Implements). |
| C120 | A signed set is accepted after what resolvers change on the way | `Rrsig.verify`, `Rrsig.fromDnsKey`, `RRSet.toBytes`; `Binding` (Spec/Dnssec.lean) says that a signature is good for one message only. | The octets verified determine owner name, type, class, TTL and the data up to order (C60), and sets that agree in these have the same octets (C48). | partial | Exactly which sets are accepted (C120_accepted_exact): same owner in the same spelling, type, class, TTL and data in any order. So it is true for the order and with the original TTL (C120_original_ttl_partial), and false for the TTL of cached records (C120_cached_exact) and for other spellings (C120_spelling_exact). |
| C121 | The octets of a record set are its records | `RRSet.toBytes` and `ResourceRecord.parse`, called again and again (`ReadOneByOne`, Spec/SetRead.lean). | The octets are the sorted list of the records with their true lengths (C48); each is read back by the lemma of C27 for the parts of a record, then induction over the list. For SSHFP every fingerprint that is read is shorter than the one written, so the sum of their lengths excludes that the records are read in any order. | partial | True for all types but SSHFP (C121_read_partial), and exactly for these (C121_exact). |
| C122 | A record set is put in canonical order with few comparisons, whatever the compiler | Model/TimedSet.lean: `RRSet.toBytes` once more, counting comparisons and steps, with the two algorithms of `binary_search_by` that the standard library has had (written down from its published text; not in /repo). | The loop invariant of each search gives what is documented (`Search.Valid`), so that C48 and the theorems about signatures apply to them; induction on the exponent of two bounds the comparisons. The moves are bounded by the number of vectors, and a family of sets, greatest data first, is inserted at the front each time. | proved | Both algorithms of binary_search do what is documented (C122_documented); the outcome does not depend on it (C122_any_compiler); at most m (log2 m + 2) comparisons (C122_comparisons), at most (log2 m + 5) n + m^2 steps and one for each octet of the name (C122_time); m^2 / 2 is reached (C122_reached). Writing the data of one record is counted as one step per octet. canonical_reorder, which sorts with sort_by_key and writes the data again for every comparison, is not counted. |
| C123 | Memory reserved before reading is in proportion to the message | Model/Reserved.lean: `Packet.parse` once more, with the list of the numbers given to `Vec::with_capacity` (packet.rs:351-377). The strings that `extract_string` reserves (at most 255 octets each) are not counted. | The outcome is that of `Packet.parse` (`C123_same`). A section that is read takes five octets at least for each element (C88), so only the section where reading stops can be larger than the message; its count has 16 bits. The counterexample is for every header: its layout is C20, and the first element fails behind its name. | partial | The statement is false of messages that are refused (C123_counterexample: any header and one more octet). Proved: the bound length/5 + 65535 for all messages, and exactly the lengths of the sections, within the message, for those accepted. |
| C124 | A query comes back as the texts it was made of | `Fqdn.new`, `Question.new`, `Packet.addQuestion`, `Packet.toBytes`, `Packet.toBytesCompressed`, `Packet.parse`, `Fqdn.display`. | If what is printed is what was asked, no label was longer than 191 octets, because a name that was read has no longer labels and printing it cannot make longer ones between dots; so the packet is representable and read back (C27, C28), and the printed name is the normal form of the text (C15). | partial | Exact for to_bytes and for to_bytes_compressed (iff): texts of pieces of 1 to 191 octets with single dots between them, types that can be read. False for others: a final dot is not printed (C124_counterexample; C124_normal_form says what is printed), labels of more than 191 octets are not read back. |
| C125 | A call that panics leaves the packet as it was | Model/Caught.lean: the four calls that add an element once more, with the packet they leave behind when they panic, in the order of the statements in the code. | The outcome is that of Model/Packet.lean (`C125_same`). A count of 16 bits overflows exactly at 65535. The counts after histories by an invariant that each call preserves, whether it returns or panics. | partial | False: C125_exact says when a call panics and what it leaves behind (the element added, the count unchanged), which is never the packet as it was (C125_counterexample); what to_bytes writes of it has a count of 0 (C125_lost). Proved: each count is the number of elements or 65535 after any history with caught panics (C125_counts_partial), and no panics without overflow checks (C125_release). |
| C126 | What is told with EDNS arrives | `ResourceRecord.parse`, `ResourceRecord.toBytes`, `ResourceRecord.toBytesCompressed`, `Packet.toBytes`, `Packet.parse`; the OPT record of RFC 6891 is `Spec.Edns` with its octets (Spec/Edns.lean). | The octets are a head of a record and options as C47 lays them out; the exact reading lemma of records gives what is read. The RDLENGTH written by `to_bytes` is wrong by 2 - 4 n for n options (C35): with at most one option the data read end within the first option, which is refused; for a packet the questions before it are read by uniqueness. | partial | Reading: all fields and options of every OPT record; the payload size exactly when it is less than 32768 and not 1 to 4 (C126_payload_exact, C126_counterexample). Writing: C126_written for to_bytes_compressed. False for to_bytes: C126_plain (never those octets), C126_plain_refused and C126_plain_query (at most one option: always refused). |
| C127 | Dynamic updates are read as what they say | Spec/Update.lean: prerequisites, updates and messages of RFC 2136 as octets (no regard to the crate); the readers and writers of records and messages as for C27 | the outcome of reading a record without data, for each type, from the readers at the end of the data; by induction over the records of a message; exact conditions (iff) for messages; counterexamples for every build | partial | False as stated (C127_counterexample, for every build). C127_nothing_exact: a record without data is read exactly for four types, panics exactly for those whose data begin with a name, is refused otherwise; C127_message_exact: exactly which update messages are read; C127_message_panics: exactly where they panic. Proved: what is read of every update message that is read (C127_message_read_partial, C127_with_data); what can be written (C127_written) and what not (C127_any_not_written). |
| C128 | Messages over TCP and zone transfers arrive | Spec/Transfer.lean: messages with their lengths, the records of a transfer; readMessage and readTransfer: a caller that reads a connection with the calls of the crate | by induction over the messages of the connection, from C27 and C28 for each message; a message of which octets are missing is refused by extract_u16 or extract_bytes; counterexamples computed by the kernel | partial | C128_messages, C128_incomplete, C128_cut hold without restriction for all messages that Packet::try_from reads. False as stated for zones with SSHFP records (C128_counterexample: silently another zone) and signed zones without compression (C128_signed_counterexample); C128_transfer_partial: all other zones in messages that the writers get right (to_bytes: no record of C27 with a wrong length, below 65536 octets; to_bytes_compressed: at most 16384 octets, no collisions), any portions, anything around. C128_possible: for every zone of such records there is such a way to send it. Incremental transfers: C128_incremental_not_written, C128_incremental_refused. |
| C129 | Denial of existence can be decided by comparing names | Spec/Denial.lean: the NSEC records of a zone and what they deny (RFC 4034, 4035), for any order; the order of FQDN and the reader of NSEC records as for C55 and C43 | by induction over the names of the zone, for any total order, then for the order of FQDN and the canonical order; counterexamples below every name from the first labels | partial | True of zones put in the order of FQDN (C129_own_order_partial) and of records among siblings without upper case letters (C129_siblings_partial). False of the records of other implementations: C129_existing_denied (below every name there is a zone in which a name that exists is denied), C129_missing_not_denied. C129_rfc: with the canonical order each missing name is denied by exactly one record and no existing name is (this validates the specification). C129_unknown_type_refused: records with a type the build does not know are refused. |
| C130 | A signature is used in the period it was made for | Spec/Period.lean: the checks of RFC 4035, section 5.3.1, with times compared as serial numbers (RFC 1982); from_dnskey and verify as for C51 | from the fields of a fresh signature (C50, C54, C72), exactly (iff), by arithmetic modulo 2^32; what a validator with these checks and verify accepts from C51 | partial | C130_exact tells exactly when a fresh signature is one to be used. C130_thousandth_partial: it is accepted in its period and at no other time if the caller gives a thousandth of the times, for sets at the apex. C130_replay_partial: what validates through a chain of trust and is in its period was signed by the zone, for such a period. With the times themselves it is false: a signature for d seconds is used for 1000 d seconds from another time on (C130_thousand_times), not at all in its period or long after it (C130_counterexample). False of every set below the apex (C130_below_apex) and of wildcards (C130_wildcard): such signatures are never to be used. |
| C131 | Names chosen by others are not taken for one another when a message is compressed | Spec/Confuse.lean: a packet with one name in the place of another one; Model/SipHash.lean: the hash function of the crate (SipHash-1-3 with the key 0, of the standard library) | a name with a hash that is in the map is written as the pointer that the map has; the map never loses an entry; by induction over the questions and records. The collision is computed by the kernel; what is read from C28 | partial | False: the hash function of the crate (SipHash-1-3 with the key 0, over the labels) has the same value for mbgcejclaefkakni.com and cgpmhhmiehfcfehk.com on machines of 64 bits with the low octet first (C131_collision, computed by the kernel). C131_confused: for every hash function and every two names with the same hash, a packet whose first question is for the one is written as the packet that has this name wherever it had the other one; C131_read_confused: so the reader takes all records of the second name for records of the first one; C131_counterexample: an alias from the first to the second name comes back as an alias of itself, with the address of the second name. Proved: C131_kept_partial, every representable packet is read back on every machine unless SipHash-1-3 collides on its names and their endings. Missing: packets with such names, SSHFP records (false). |
| C132 | Messages with transaction signatures are accepted exactly as they were signed | Spec/Tsig.lean: the digest of RFC 8945 (section 4.3) with an arbitrary MAC function, a sender and a receiver that use the API of the packet, and a receiver that cuts the octets with a DnsBuffer | what is written is read back (C27, C28), so what the receiver writes is what was signed; the other direction: the octets that are written, and the variables, determine the packet (injectivity of the writer and of the digest), so with a MAC that only the signer can make the packet accepted is one that was signed; cutting: the places of all parts of a message with a record behind it (C113) | partial | C132_accepted, C132_plain_partial, C132_compressed_partial: every message signed and sent is accepted with the packet, key and data it was signed with, for every MAC function. C132_authentic_partial: with a MAC that only signers can make, the packet accepted is one that was signed (key and algorithm up to case, as the RFC has it). C132_cut_partial: the octets that other software has signed are got back with a DnsBuffer. Missing because false: to_bytes with OPT (C132_edns_counterexample), receivers that write in another form than the sender (C132_other_writer_counterexample), SSHFP, compressed messages over 16384 octets, colliding names (C131). The MAC function itself is arbitrary (no HMAC in the crate). |
| C133 | Of two multicast hosts that want the same name exactly one keeps it | Spec/Probe.lean: a host that compares its records with those it has received, with the API; the order of RFC 6762, section 8.2 | what is read is what was sent (C27, C28); the order of lists of octet strings is total and comparing the other way round gives the opposite answer (C55); data are written as the RFCs demand (C38), so the keys are those of the RFC; sorted lists are equal iff they are permutations of each other | partial | C133_decided: whenever both packets are read as they were sent, the decisions of the two hosts are opposite, and equal only if the records are the same. C133_plain_partial, C133_compressed_partial: for all packets that are read back (C27, C28). C133_rfc_partial: the decision is that of RFC 6762 for all data that are written as the RFCs demand (WrittenWell, C38). False for SSHFP: C133_counterexample, both hosts keep the name. |
| C134 | A resolver accepts the replies to its queries and no others | Spec/Match.lean: a resolver that compares identification, QR and question, a server that copies them, with the API; the octets of a reply; the number of letters of a name | the parser reads header and question from the octets where RFC 1035 has them (Packet.parse_ok), names are determined by the octets (nameWith_unique); the ways to write a name are listed without repetition and counted, and the messages accepted for different queries are different, so there are as many of them; replies are read by C99, C27, C28 | partial | C134_accepted, C134_exact: the messages that are accepted, in terms of their octets. C134_one_query, C134_guesses, C134_guesses_exact: no message is accepted for two queries, and 2^(16 + letters) messages are necessary and enough for all identifications and cases of a name. C134_reply_partial, C134_exchange_partial, C134_exchange_compressed_partial: replies are accepted if their records are read (C99, C27, C28). False for replies with records of unknown types: C134_unknown_type, C134_counterexample. |
| C135 | A multicast responder sends what the other host does not know | Spec/Known.lean: hosts that announce, a host that hears and asks again, a responder that compares, with the API; the rule of RFC 6762, section 7.1 | announcements and queries arrive as they were sent (C27, C28; the hypotheses are kept by the changes of TTL and bit), and filters over the lists of records are compared element by element | partial | C135_answered: exactly the records that are not known are sent, whenever the messages are read as what they say. C135_plain_partial, C135_compressed_partial: for all announcements and queries that are read back (C27, C28); C135_refresh_partial: for one responder. False for SSHFP (C135_counterexample: known records are sent, unknown ones are not) and with == (C135_equal_useless). |
| C136 | The cache of a multicast host has the records that are valid | Spec/Flush.lean: a listener with a cache, with the API; which records are valid after a history of announcements (RFC 6762, section 10) | by induction over the messages, with the records in the cache at the beginning; each announcement arrives as it was sent (C27, C28); counterexamples computed by the kernel for every build | partial | C136_cache: for any octets, the cache is what is valid of what they are read as (unreadable messages change nothing). C136_listen_partial: for announcements written with to_bytes or to_bytes_compressed, mixed. C136_last, C136_goodbye: what validity means for unique records and for records with the TTL 0. Missing because false: SSHFP (C136_counterexample), names in other case (C136_case_counterexample), a listener without the feature mdns (C136_feature_counterexample); and the limits of the writers as in C27 and C28. |
| C137 | The attributes of a service arrive | Spec/Service.lean: attributes, their strings, a client that looks for a key (RFC 6763, section 6), the octets of a TXT record; the reader and writer of TXT as for C27 | from_utf8_lossy leaves the ASCII octets of a key, so splitting and reading can be exchanged; by induction over key and strings; exactly (iff) from what from_utf8_lossy does not change; sending from C27 and C28 | partial | C137_received: what is found in the TXT record of any software is what from_utf8_lossy makes of the values. C137_received_exact: the attributes are found as they were said iff all values are UTF-8. C137_sent_partial: for a service that uses the crate, with to_bytes and to_bytes_compressed. C137_strings validates the specification. Missing because false: values that are not UTF-8 (C137_counterexample). |
| C138 | The word size of the machine does not change what is read | the functions whose result may depend on the width of usize, with the width as a parameter: the two loops of SVCB, what calls them up to the packet, and the buffer calls (Model/Word.lean) | induction over the rounds of a loop: a length above the rest of the data ends in the same error whatever it is, and a wrapped length is above it for both widths | proved | Model/Word.lean has the width of usize as a parameter; C138_packet and C138_record compare 32 and 64 bits with the model of the other claims, C138_buffer the calls of the buffer. C138_limit and C138_limit_small show that the limits in the statement are needed. |
| C139 | Default values are the empty values and arrive | the derived default values (Model/Default.lean), the writers and readers as for C27 and C28 | from the exact theorems about records and packets (C27, C28, C38), by cases over the types with a default value | partial | C139_empty: names, headers and packets. C139_record_exact, C139_packet_exact: data with a default value arrive exactly if they are no CAA data (refused by the reader, C139_counterexample) and, without compression, no OPT data (C36). C139_rfc_exact: written as the RFCs prescribe exactly if not CSYNC. |
| C140 | A client that follows the aliases of an answer finds the records the answer gives | Spec/Alias.lean: the program of a client, and what an answer says (an inductive relation up to the spelling of names); reader and writer as for C28 | rounds of the program and steps of the relation correspond by induction; the number of rounds suffices because the owners on a path without a circle are different records; C28 for the way from the server | partial | C140_sound: for any octets. C140_found_partial, C140_sent_partial: everything is found if every name has one spelling in question and answer. False otherwise, since == of names regards case: C140_counterexample, for every name with a letter. |
| C141 | Writing without compression takes time in proportion to what is read and written | Model/TimedPlain.lean: the writer without compression once more, counting the octets written and copied and the rounds of the loops, also of those that compute sizes | the outcome is that of `Packet.to_bytes` (`C141_same`); by induction over labels, questions and records, with the octets of the names of a record among those of its data for each type; labels that were read have octets, and elements are bounded by C94; a family of messages reaches the growth | proved | Steps are counted in a second model of the writer that is shown to have the same outcome. In the data of a record the fields without names are counted as one step for each octet and one for each element of a list. Empty labels, which no reader makes, cost time without octets (C141_empty_labels). |
| C142 | A server that takes records off a reply until it fits sends as many as have room | Spec/Shorten.lean: the program of a server, which only calls the API; writer and reader as for C28 | by induction over the number of records tried; the octets of a packet with fewer records are a beginning of those with more (C92), so more records never need less room; C28 for the way to the client | partial | C142_most: what is sent has room and as many records as have room, for all packets and limits. C142_arrives_partial: it arrives and the flag tells whether it is complete. False with SSHFP records (C142_counterexample); C142_arrives_exact says exactly what arrives. |

## Axioms of each theorem

P = `propext`, C = `Classical.choice`, Q = `Quot.sound`; these are the axioms of Lean itself. Output of `#print axioms` for every theorem of MANIFEST.json:

* **P, C, Q**: `C01_position_invariant_partial`, `C02_extract_u16_as`, `C02_extract_bytes_partial`, `C02_extract_ints`, `C04_read_value`, `C04_write_read`, `C05_reads`, `C05_record_data_confined`, `C06_character_string`, `C06_character_string_round_trip`, `C06_character_string_fails`, `C06_string`, `C06_string_refused`, `C07_decoded_name_sound`, `C07_decoded_name_rfc1035`, `C07_name_unique`, `C08_legal_name_decoded`, `C09_terminates_partial`, `C09_terminates_without_pointers_partial`, `C09_hang_is_endless`, `C09_counterexample`, `C10_no_panic_partial`, `C11_consumes_in_place`, `C12_forward_pointer_refused`, `C12_accepted_jumps_back`, `C13_name_exact`, `C13_name_round_trip`, `C13_name_octets`, `C15_display_utf8_counterexample`, `C16_is_root`, `C17_compressed_names_decode`, `C18_packet`, `C18_pointers_backward`, `C19_compression_never_longer`, `C20_header_round_trip`, `C20_header_parse_write`, `C20_every_header_parses`, `C23_response_code_partial`, `C24_opcode_preserved`, `C25_counts_partial`, `C25_counts_mod`, `C25_with_questions_counterexample`, `C26_counts_written`, `C27_coincidence`, `C27_apart_exact`, `C27_record_exact`, `C27_packet_exact`, `C27_packet_round_trip_partial`, `C27_counterexamples`, `C27_any_record_exact`, `C27_any_packet_exact`, `C28_offset_counterexample`, `C28_packet_exact`, `C28_compressed_round_trip_partial`, `C28_counterexample`, `C28_any_packet_exact`, `C29_parsed_counts`, `C30_name_extend`, `C30_question_extend`, `C30_record_extend`, `C30_packet_extend`, `C30_try_from_extend`, `C30_name_truncated`, `C30_question_truncated`, `C30_record_truncated`, `C30_packet_truncated`, `C30_written_truncated`, `C31_no_panic_partial`, `C31_panics`, `C31_release_partial`, `C32_terminates_partial`, `C32_terminates_without_pointers_partial`, `C33_record_size_partial`, `C33_packet_size_partial`, `C34_record_extent`, `C35_rdlength_partial`, `C35_exact`, `C36_rdata_size_partial`, `C36_right`, `C36_written`, `C36_exact`, `C37_parse_complete_partial`, `C37_parse_sound_partial`, `C37_sshfp_read`, `C37_ipseckey_read`, `C37_apl_read`, `C38_write_partial`, `C38_write_exact`, `C39_qclass_error`, `C40_class_round_trip_partial`, `C40_top_bit`, `C40_class_number`, `C40_alone_round_trip`, `C41_question_flag`, `C41_record_flag`, `C41_question_read`, `C41_record_read`, `C41_record_flag_any`, `C41_question_bit_ignored`, `C42_unknown_type`, `C42_unknown_qtype`, `C42_type_as_on_wire`, `C42_packet_unknown_type`, `C43_written_bits`, `C43_csync_bits`, `C43_nsec_bits`, `C43_read_complete`, `C44_strings_utf8`, `C44_txt_unchanged`, `C44_caa_unchanged`, `C44_naptr_unchanged`, `C45_insertions`, `C45_parsed`, `C46_read_partial`, `C46_written`, `C47_parsed`, `C47_read_complete`, `C47_any_order`, `C48_reorder`, `C48_reorder_returns`, `C48_reorder_bytes`, `C49_set_size_partial`, `C49_right`, `C51_fresh_signature_partial`, `C51_rsa_counterexample`, `C53_unimplemented`, `C53_accepted`, `C54_whole_seconds`, `C56_apart_exact`, `C56_stable_exact`, `C56_stable_compressed_exact`, `C56_stable_partial`, `C56_stable_compressed_partial`, `C57_name_bounded`, `C57_label_bounded`, `C58_length_octets_partial`, `C58_accepted_partial`, `C58_no_bound`, `C58_no_label_from_pointer_partial`, `C59_compressed_le_plain`, `C60_octets_determine`, `C60_signature_binds`, `C61_numbers_read`, `C62_offset_counterexample`, `C62_short_messages_partial`, `C64_nsec`, `C65_parsed`, `C66_received`, `C66_to_bytes`, `C66_to_bytes_compressed`, `C66_written_partial`, `C66_release`, `C66_counterexample`, `C67_distinct_partial`, `C67_distinct_compressed_partial`, `C67_collision_counterexample`, `C67_offset_counterexample`, `C67_size_counterexample`, `C67_different_partial`, `C67_different_compressed_partial`, `C69_history`, `C69_wire`, `C69_new`, `C69_read`, `C72_labels_exact`, `C73_canonical_exact`, `C74_equality_exact`, `C75_keys_partial`, `C75_params_partial`, `C77_checks_nothing`, `C78_legal_partial`, `C79_inner_read`, `C79_signature`, `C79_data`, `C79_types_partial`, `C79_types_exact`, `C79_protocol`, `C79_mode`, `C80_header_arrives`, `C80_header_arrives_compressed`, `C81_base64`, `C82_compressed_exact`, `C82_plain_exact`, `C82_compressed_arrives_partial`, `C82_plain_arrives_partial`, `C82_reply_partial`, `C83_counterexample`, `C83_hashed_octets`, `C83_machines_partial`, `C85_parse_iff`, `C86_exchange`, `C87_sections_fit`, `C88_exact`, `C88_apart_exact`, `C88_same_meaning_partial`, `C89_error_number_in_message`, `C90_not_a_code_partial`, `C91_text_partial`, `C93_repeated_names`, `C94_bounded`, `C94_quadratic`, `C94_reached`, `C95_total_orders`, `C95_meaning`, `C96_a`, `C96_aaaa`, `C96_one`, `C96_every`, `C97_plain_partial`, `C97_plain_exact`, `C97_counterexample_opt`, `C97_compressed_partial`, `C97_compressed_exact`, `C97_counterexample_nsec`, `C99_received_partial`, `C99_exact`, `C99_liberal_partial`, `C99_one_meaning_partial`, `C99_counterexamples`, `C100_signed_answer_partial`, `C100_counterexample`, `C100_plain_record`, `C100_plain`, `C101_one_encoding`, `C101_forward_partial`, `C101_forward_exact`, `C101_counterexample_opt`, `C101_counterexample_mdns`, `C102_silent_partial`, `C102_prints`, `C102_exact`, `C102_counterexample`, `C103_all_read_partial`, `C103_ignored`, `C103_exact`, `C103_record_partial`, `C103_padded`, `C104_to_bytes_partial`, `C104_display_exact`, `C104_display_text_partial`, `C104_counterexample`, `C105_same`, `C105_time_partial`, `C105_linear`, `C105_counterexample`, `C105_size`, `C105_names`, `C105_reached`, `C106_steps`, `C106_output`, `C106_time`, `C106_at_least`, `C106_reached`, `C107_shortest`, `C107_least`, `C108_sequence_partial`, `C108_written_partial`, `C108_tcp_partial`, `C108_name_exact`, `C108_exact`, `C109_packet_partial`, `C109_question_partial`, `C109_record_partial`, `C109_exact`, `C109_name_exact`, `C109_plain_exact`, `C109_written_exact`, `C109_compressed_partial`, `C110_written`, `C110_size`, `C110_read`, `C110_same_octets_partial`, `C110_counterexample`, `C110_exact`, `C110_maps`, `C110_stable`, `C111_forward_partial`, `C111_counterexample_pointer`, `C111_shortest`, `C112_any`, `C112_name_exact`, `C112_message_partial`, `C112_exact`, `C112_own_partial`, `C112_counterexample`, `C113_append_message`, `C113_append_partial`, `C113_append_any_partial`, `C113_remove_message`, `C113_remove_partial`, `C113_own_partial`, `C113_counterexample`, `C114_message`, `C114_partial`, `C114_counterexample`, `C115_message`, `C115_partial`, `C115_limit_partial`, `C115_counterexample`, `C116_message`, `C116_partial`, `C116_own_partial`, `C116_counterexample`, `C117_message`, `C117_partial`, `C117_counterexample`, `C118_ds_binds`, `C118_key`, `C118_accepted_partial`, `C118_published_partial`, `C119_verify_partial`, `C119_accepts_exact`, `C119_message_exact`, `C119_signs_exact`, `C120_accepted_exact`, `C120_cached_exact`, `C120_spelling_exact`, `C120_original_ttl_partial`, `C121_read_partial`, `C121_exact`, `C122_documented`, `C122_any_compiler`, `C122_comparisons`, `C122_time`, `C122_reached`, `C123_reserved_partial`, `C123_accepted`, `C123_counterexample`, `C124_plain_exact`, `C124_compressed_exact`, `C125_counterexample`, `C125_lost`, `C126_read_partial`, `C126_payload_exact`, `C126_plain`, `C126_plain_refused`, `C126_plain_query`, `C127_nothing_exact`, `C127_message_read_partial`, `C127_message_exact`, `C127_message_panics`, `C127_with_data`, `C127_any_not_written`, `C127_counterexample`, `C128_messages`, `C128_incomplete`, `C128_cut`, `C128_transfer_partial`, `C128_possible`, `C128_incremental_refused`, `C128_counterexample`, `C128_signed_counterexample`, `C129_existing_denied`, `C129_unknown_type_refused`, `C130_exact`, `C130_thousandth_partial`, `C130_thousand_times`, `C130_counterexample`, `C130_replay_partial`, `C130_wildcard`, `C131_kept_partial`, `C131_read_confused`, `C131_counterexample`, `C132_plain_partial`, `C132_compressed_partial`, `C132_authentic_partial`, `C132_cut_partial`, `C132_edns_counterexample`, `C133_rfc_partial`, `C133_plain_partial`, `C133_compressed_partial`, `C133_counterexample`, `C134_accepted`, `C134_exact`, `C134_guesses`, `C134_guesses_exact`, `C134_reply_partial`, `C134_unknown_type`, `C134_counterexample`, `C134_exchange_partial`, `C134_exchange_compressed_partial`, `C135_plain_partial`, `C135_compressed_partial`, `C135_refresh_partial`, `C136_cache`, `C136_listen_partial`, `C137_received`, `C137_received_exact`, `C137_sent_partial`, `C138_packet`, `C138_record`, `C139_record_exact`, `C139_arrives_partial`, `C139_packet_exact`, `C139_empty`, `C139_rfc_exact`, `C140_sent_partial`, `C140_counterexample`, `C141_steps`, `C141_at_least`, `C141_linear`, `C141_output`, `C141_reached`, `C142_most`, `C142_arrives_partial`, `C142_counterexample`, `C142_arrives_exact`
* **P, Q**: `C01_reads`, `C01_remaining`, `C01_sub_buffer_exact`, `C02_usize_agrees`, `C02_advance_partial`, `C02_huge_exact`, `C05_sub_buffer`, `C05_contents`, `C10_counterexample`, `C13_bound_sharp`, `C14_byte_size`, `C15_append_label_exact`, `C15_from_labels_exact`, `C15_new_labels`, `C15_every_string`, `C15_new_no_dots`, `C15_new_display`, `C15_new_idempotent`, `C15_display_injective`, `C15_new_utf8`, `C15_display_utf8_exact`, `C16_is_link_local`, `C16_is_empty_counterexample`, `C19_empty_label`, `C20_byte_size`, `C20_header_layout`, `C20_compressed`, `C21_packet_setters`, `C21_set_recursion_desired`, `C21_set_truncation`, `C21_set_authoritative_answer`, `C21_set_opcode`, `C21_set_query_response`, `C21_set_response_code`, `C21_set_recursion_available`, `C21_setters_independent`, `C22_query_has_no_server_fields`, `C23_response_code_built`, `C25_careless`, `C25_take_authorities_counterexample`, `C31_counterexample`, `C32_counterexample`, `C33_question_size`, `C33_counterexample`, `C35_rdlength_compressed`, `C35_counterexample`, `C36_counterexamples`, `C37_sshfp_counterexample`, `C37_ipseckey_counterexample`, `C37_apl_counterexample`, `C38_ipseckey_counterexample`, `C38_counterexamples`, `C39_qclass_round_trip`, `C39_type_error`, `C39_qtype_error`, `C40_classes`, `C40_counterexamples`, `C41_question_written`, `C41_record_written`, `C45_written`, `C46_written_counterexample`, `C48_order_independent`, `C48_sorted`, `C48_written`, `C49_counterexample`, `C50_key_tag_partial`, `C50_counterexample`, `C50_key_tag_exact`, `C50_overflow_counterexample`, `C51_same_octets`, `C51_rsa_sha2_never`, `C51_dsa_counterexample`, `C52_ds`, `C53_mismatch`, `C54_inception_exact`, `C54_times_partial`, `C54_before_epoch`, `C54_counterexample`, `C55_lexicographic`, `C55_eq`, `C55_swap`, `C55_trans`, `C56_counterexamples`, `C58_counterexample`, `C59_byte_size_compressed`, `C62_pointer_exact`, `C63_not_allowed_not_compressed`, `C63_allowed_compressed`, `C63_uncompressed_partial`, `C63_counterexamples`, `C64_question`, `C64_record`, `C64_rdata`, `C64_rdata_map`, `C64_map_counterexample`, `C64_packet`, `C65_record_types`, `C65_record_setters`, `C65_question_setters`, `C65_counterexample`, `C65_data_raw`, `C67_option_counterexample`, `C67_counterexample`, `C68_sections`, `C68_header`, `C68_take`, `C68_returns`, `C70_hex`, `C70_injective`, `C71_dhcid_partial`, `C71_dhcid_exact`, `C72_fields_partial`, `C72_counterexample`, `C73_canonical_partial`, `C73_case_counterexample`, `C73_duplicate_counterexample`, `C73_ds_partial`, `C73_ds_counterexample`, `C73_ds_exact`, `C74_equality_partial`, `C74_counterexample`, `C76_siblings_partial`, `C76_exact`, `C77_fresh_partial`, `C77_counterexample`, `C77_key_flags`, `C78_counterexample`, `C79_question`, `C79_record`, `C79_nsec_new`, `C79_names`, `C79_set`, `C80_new_query`, `C80_new_reply`, `C80_with_questions`, `C80_default`, `C81_injective`, `C82_counterexample`, `C83_hash_independent_partial`, `C84_counterexample`, `C84_parse_partial`, `C84_write_partial`, `C84_dnssec_partial`, `C85_parse`, `C85_write`, `C86_parse`, `C86_write`, `C88_counterexample`, `C90_counterexample`, `C92_layout`, `C92_append`, `C92_shorter`, `C95_agrees`, `C99_of_sent`, `C100_plain_read`, `C103_counterexample`, `C104_to_bytes_exact`, `C106_same`, `C107_other_data`, `C108_counterexample`, `C109_counterexample`, `C111_counterexample_data`, `C112_written`, `C112_of_sent`, `C113_undo`, `C118_counterexample`, `C119_counterexamples`, `C122_same`, `C123_same`, `C124_asked`, `C124_normal_form`, `C124_counterexample`, `C125_exact`, `C125_counts_partial`, `C125_release`, `C126_counterexample`, `C126_written`, `C127_written`, `C129_rfc`, `C129_own_order_partial`, `C129_siblings_partial`, `C129_missing_not_denied`, `C130_below_apex`, `C131_confused`, `C131_collision`, `C132_accepted`, `C132_other_writer_counterexample`, `C133_decided`, `C134_one_query`, `C135_answered`, `C135_equal_useless`, `C135_counterexample`, `C136_counterexample`, `C136_case_counterexample`, `C136_feature_counterexample`, `C137_strings`, `C137_counterexample`, `C138_buffer`, `C139_counterexample`, `C140_sound`, `C140_found_partial`, `C141_same`, `C141_empty_labels`, `C142_mono`
* **P**: `C01_sub_buffer_counterexample`, `C02_advance_counterexample`, `C15_append_label_display`, `C15_display`, `C15_display_utf8_partial`, `C16_label_count_partial`, `C16_label_count_exact`, `C16_label_count_counterexample`, `C21_constructors`, `C23_counterexample`, `C25_mut_counterexamples`, `C25_overflow_counterexample`, `C27_counts`, `C39_types_distinct`, `C39_qtypes_distinct`, `C39_type_round_trip_partial`, `C39_qtype_round_trip_partial`, `C39_type_sound`, `C39_written_alone`, `C40_written_alone`, `C63_compression_allowed`, `C72_wrap_counterexample`, `C74_octets`, `C76_counterexample`, `C76_wrong`, `C84_calls_partial`, `C91_counterexample`, `C98_digest_length_partial`, `C98_signs_digest`, `C98_counterexample`, `C98_no_digest`, `C104_codes_fit`, `C136_goodbye`, `C137_none`, `C138_limit`
* **none**: `C03_peek_is_pure`, `C27_counts_only`, `C39_type_numbers`, `C39_qclasses_distinct`, `C39_counterexample`, `C46_counterexample`, `C61_numbers_partial`, `C61_algorithm_counterexamples`, `C65_agreement_partial`, `C71_counterexample`, `C75_counterexample`, `C79_inner`, `C125_same`, `C128_incremental_not_written`, `C136_last`, `C138_limit_small`
