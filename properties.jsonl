{"id": "C01", "title": "Buffer position never leaves the data", "statement": "Whatever calls are made on a DnsBuffer (extract_*, peek_bytes, advance, set_position, sub_buffer, extract_fqdn, successful or failing), its position() stays at most the length of its data, so remaining() never underflows.", "quantifier": "every byte slice, every finite history of DnsBuffer calls with arbitrary arguments, including calls that return Err", "why_tests_cant": "The invariant must survive every interleaving of successful and failed reads on every buffer; a test fixes one history.", "anchors": ["src/buffer.rs: DnsBuffer::{sub_buffer,set_position,advance,peek_bytes,extract_bytes,extract_u8,extract_u16,extract_u32,extract_character_string,extract_string,extract_fqdn}"]}
{"id": "C02", "title": "A primitive read is all or nothing", "statement": "extract_bytes(n), extract_u8/u16/u32 and advance(n) either return Ok with exactly the next n bytes and move the position by exactly n, or return Err(LengthViolation) and leave the position unchanged; they fail exactly when fewer than n bytes remain.", "quantifier": "every byte slice, every position inside it, every requested length", "why_tests_cant": "Ranges over every slice and every offset including the boundary cases at the end.", "anchors": ["src/buffer.rs: extract_bytes, extract_u8, extract_u16, extract_u32, advance"]}
{"id": "C03", "title": "peek_bytes is a pure look-ahead", "statement": "peek_bytes(n) never changes the position and returns exactly what extract_bytes(n) would return next.", "quantifier": "every buffer state and every length", "why_tests_cant": "Universal over buffer states.", "anchors": ["src/buffer.rs: peek_bytes, extract_bytes"]}
{"id": "C04", "title": "Integers are big-endian", "statement": "extract_u16/u32 return the unsigned integer whose base-256 digits, most significant first, are the bytes read, and what to_bytes writes for an integer is read back as the same integer.", "quantifier": "all 2^8/2^16/2^32/2^64/2^128 values and every buffer", "why_tests_cant": "2^32 values per field times every offset.", "anchors": ["src/buffer.rs: extract_u8, extract_u16, extract_u32", "src/resource.rs: ResourceRecord::to_bytes"]}
{"id": "C05", "title": "A sub-buffer confines its reader", "statement": "sub_buffer(len) succeeds exactly when len bytes remain; nothing parsed from it (including names that follow compression pointers) depends on bytes of the parent behind position+len, and its reader never moves behind that end.", "quantifier": "every parent buffer, every len, every pair of parents that agree on the first position+len bytes, every record type parsed inside", "why_tests_cant": "A non-interference statement relates two executions over all possible hidden suffixes.", "anchors": ["src/buffer.rs: sub_buffer", "src/resource.rs: TryFrom<&mut DnsBuffer> for ResourceRecord", "src/rdata/mod.rs: RecordData::from"]}
{"id": "C06", "title": "Character strings are length-prefixed", "statement": "extract_character_string reads one length octet n and then exactly n octets, consuming n+1; writing a string of at most 255 bytes as length octet plus bytes and reading it back gives the same string; extract_string additionally rejects invalid UTF-8 and never returns a string that is not valid UTF-8.", "quantifier": "every buffer state, every byte string up to 255 bytes", "why_tests_cant": "All byte strings, all offsets, all UTF-8 violations.", "anchors": ["src/buffer.rs: extract_character_string, extract_string"]}
{"id": "C07", "title": "Decoded names are the names RFC 1035 denotes", "statement": "When extract_fqdn returns Ok(name), the labels of name are exactly the labels reached by the RFC 1035 section 4.1.4 reading of the message at that position: label octets in order, following compression pointers to their target offsets, until the zero octet.", "quantifier": "every message, every start position, every chain of pointers", "why_tests_cant": "The decoder must be right on every chain of labels and pointers an attacker can craft.", "anchors": ["src/buffer.rs: extract_fqdn"]}
{"id": "C08", "title": "Every legal name is decoded", "statement": "If at some position the message contains a name in RFC 1035 form (labels of 1..63 octets, pointers only to prior occurrences), extract_fqdn returns Ok with that name.", "quantifier": "every message, position and legal name in it", "why_tests_cant": "Ranges over all legal encodings, with pointers at any depth.", "anchors": ["src/buffer.rs: extract_fqdn"]}
{"id": "C09", "title": "Decoding a name terminates", "statement": "extract_fqdn returns for every input: no arrangement of compression pointers makes it loop.", "quantifier": "every byte slice and every start position", "why_tests_cant": "Non-termination cannot be observed by a finite test; all pointer graphs must be considered.", "anchors": ["src/buffer.rs: extract_fqdn"]}
{"id": "C10", "title": "Decoding a name never panics", "statement": "extract_fqdn returns Ok or Err for every input and never panics by indexing out of the slice.", "quantifier": "every byte slice and every start position", "why_tests_cant": "Exact boundary conditions over all slices.", "anchors": ["src/buffer.rs: extract_fqdn"]}
{"id": "C11", "title": "Reading a name consumes only its in-place encoding", "statement": "After Ok, the position of the buffer is directly behind the zero octet or the two-octet pointer that ends the in-place part of the name, however many pointers were followed; it strictly increased and is at most the data length.", "quantifier": "every message and position", "why_tests_cant": "Holds across all pointer chains.", "anchors": ["src/buffer.rs: extract_fqdn"]}
{"id": "C12", "title": "Forward pointers are refused", "statement": "A name whose first compression pointer points at or behind its own second octet is refused with UnresolveableCompressionPointer; an accepted name only ever jumped to offsets before the second octet of its first pointer.", "quantifier": "every message, position and pointer value", "why_tests_cant": "All 2^14 pointers at all offsets.", "anchors": ["src/buffer.rs: extract_fqdn"]}
{"id": "C13", "title": "Names survive the wire", "statement": "For every FQDN whose labels are non-empty and at most 63 (in fact at most 191) bytes, FQDN::try_from on its to_bytes() returns the same FQDN and consumes exactly those bytes, at any offset of any message and whatever follows.", "quantifier": "every label list of any length, every surrounding message", "why_tests_cant": "Unbounded label lists and contexts.", "anchors": ["src/fqdn.rs: FQDN::to_bytes, TryFrom<&mut DnsBuffer>", "src/buffer.rs: extract_fqdn"]}
{"id": "C14", "title": "FQDN byte_size is the wire size", "statement": "byte_size() (= len()) of an FQDN equals the length of to_bytes(), for every FQDN including ones with empty or oversized labels.", "quantifier": "every list of labels of any length", "why_tests_cant": "Unbounded input; sizes feed RDLENGTH computations.", "anchors": ["src/fqdn.rs: FQDN::byte_size, FQDN::len, FQDN::to_bytes"]}
{"id": "C15", "title": "Text form of names", "statement": "FQDN::new(s) has exactly the non-empty dot-separated pieces of s as labels, in order (so leading, trailing and doubled dots do not matter); to_string() joins labels with single dots; FQDN::new(name.to_string()) == name whenever no label is empty or contains a dot; to_string() is valid UTF-8.", "quantifier": "every string and every FQDN", "why_tests_cant": "All strings.", "anchors": ["src/fqdn.rs: FQDN::new, Display for FQDN, From<&str>, append_label"]}
{"id": "C16", "title": "Predicates on names", "statement": "is_root() is true exactly when the name encodes to the single zero octet; is_empty() is true exactly when the name has no labels; label_count() is the number of labels; is_link_local() is true exactly when the last label is \"local\".", "quantifier": "every FQDN", "why_tests_cant": "All label lists including more than 255 labels.", "anchors": ["src/fqdn.rs: is_empty, is_root, label_count, is_link_local"]}
{"id": "C17", "title": "Compressed names decode to themselves", "statement": "If names are written one after another into a message with name compression, each of them read back at its offset in the finished message gives the original FQDN and consumes exactly the bytes written for it.", "quantifier": "every history of names with labels of 1 to 63 octets (any number, any sharing of suffixes) written into one message of at most 16384 octets, every hash function without collisions on the suffixes involved", "why_tests_cant": "Depends on the whole history of names written before.", "anchors": ["src/fqdn.rs: FQDN::to_bytes_compressed", "src/util.rs: hash_fqdn", "src/buffer.rs: extract_fqdn"]}
{"id": "C18", "title": "Compression pointers point backwards to a name", "statement": "Every compression pointer emitted by to_bytes_compressed targets an offset smaller than the offset of the pointer itself, at which the same label suffix was written.", "quantifier": "every history of names with labels of 1 to 63 octets written into one message of at most 16384 octets, every hash function without collisions on the suffixes involved", "why_tests_cant": "All histories.", "anchors": ["src/fqdn.rs: FQDN::to_bytes_compressed"]}
{"id": "C19", "title": "Compression never makes a message longer", "statement": "to_bytes_compressed() of a packet is at most as long as to_bytes() of it.", "quantifier": "every packet whose names have no empty labels, every hash function (even with collisions)", "why_tests_cant": "All packets.", "anchors": ["src/packet.rs: to_bytes_compressed, to_bytes", "src/fqdn.rs"]}
{"id": "C20", "title": "Headers survive the wire with the RFC 1035 layout", "statement": "Header::to_bytes is 12 octets laid out as RFC 1035 section 4.1.1 (ID, QR|Opcode|AA|TC|RD, RA|Z|RCODE, four counts), and Header::try_from on them returns the same header; conversely to_bytes of a parsed header reproduces the 12 octets.", "quantifier": "every header value / every 12 octets", "why_tests_cant": "2^96 headers.", "anchors": ["src/header.rs: Header::to_bytes, TryFrom<&mut DnsBuffer> for Header, FlagBitfield"]}
{"id": "C21", "title": "Header setters do not disturb other fields", "statement": "Each Header setter makes its getter return the value set and leaves every other getter's value, the id and the counts unchanged, except for the documented couplings: set_query_response(false) clears RA and RCODE, a response code other than NoError and RA=true force QR. new_query(id, rd) is a standard query with this id and RD, new_reply(id, o) a response with this id and opcode, Default is all zero; everything else is clear in them.", "quantifier": "every header and every argument of setters and constructors", "why_tests_cant": "All flag combinations, all getters for each setter.", "anchors": ["src/header.rs: set_recursion_desired, set_truncation, set_authoritative_answer, set_opcode, set_query_response, set_response_code, set_recursion_available"]}
{"id": "C22", "title": "A query never carries server-only fields", "statement": "Starting from new_query, new_reply or Default and applying any sequence of setters, a header with query_response()==false has recursion_available()==false and response_code()==NoError.", "quantifier": "every finite history of setter calls", "why_tests_cant": "History-invariant.", "anchors": ["src/header.rs: Header::new_query, new_reply, set_*"]}
{"id": "C23", "title": "response_code() is total", "statement": "response_code() can be called on any header obtained from the API, including parsed ones, without panicking and returns the code that is on the wire.", "quantifier": "every header that can be parsed or built", "why_tests_cant": "All headers.", "anchors": ["src/header.rs: response_code, ResponseCode::try_from"]}
{"id": "C24", "title": "Opcode is preserved", "statement": "opcode() after set_opcode(o) or new_reply(_, o) returns o; for a parsed header it returns the wire opcode for 0, 1, 2 and Reserved otherwise; re-serialising a parsed header keeps the wire opcode.", "quantifier": "every opcode value and every header", "why_tests_cant": "All header bit patterns.", "anchors": ["src/header.rs: opcode, set_opcode, OpCode::from"]}
{"id": "C25", "title": "Header counts always equal section lengths", "statement": "After any history of Packet calls starting from new/with_questions/default, the four count fields of header() equal the number of questions, answers, authorities and additionals held by the packet.", "quantifier": "every finite history of Packet constructor and mutator calls", "why_tests_cant": "All histories of mutators; unbounded lengths (u16 overflow at 65536).", "anchors": ["src/packet.rs: Packet::{new,with_questions,add_question,add_answer,add_authority,add_additional,set_questions,set_answers,set_authorities,set_additionals,take_questions,take_answers,take_authorities,take_additionals,questions_mut,set_header}"]}
{"id": "C26", "title": "to_bytes writes the true counts", "statement": "The count octets (4..12) of Packet::to_bytes() are the section lengths, whatever the header counts say, for sections below 65536 entries.", "quantifier": "every packet in every state", "why_tests_cant": "All packets and histories.", "anchors": ["src/packet.rs: ByteConvertible for Packet"]}
{"id": "C27", "title": "Packets survive the wire (uncompressed)", "statement": "Packet::try_from(packet.to_bytes()) returns an equal packet (with counts equal to section lengths) for every well-formed packet.", "quantifier": "every packet: any number of questions and records of any supported type and content that fits the wire limits", "why_tests_cant": "Unbounded structure over 37 record types.", "anchors": ["src/packet.rs: Packet::to_bytes, TryFrom<&[u8]> for Packet", "src/resource.rs", "src/question.rs", "src/rdata/*"]}
{"id": "C28", "title": "Packets survive the wire (compressed)", "statement": "Packet::try_from(packet.to_bytes_compressed()) returns an equal packet for every well-formed packet whose header counts are right and whose message is at most 16384 octets.", "quantifier": "every such packet, every suffix sharing between its names, every collision-free hash", "why_tests_cant": "Unbounded structure, cross-record state.", "anchors": ["src/packet.rs: Packet::to_bytes_compressed, TryFrom<&[u8]> for Packet", "src/fqdn.rs", "src/rdata/*"]}
{"id": "C29", "title": "Parsed counts match parsed sections", "statement": "When Packet::try_from succeeds, each header count equals the number of entries in the section.", "quantifier": "every byte string", "why_tests_cant": "All inputs.", "anchors": ["src/packet.rs: TryFrom<&mut DnsBuffer> for Packet"]}
{"id": "C30", "title": "Parsing looks at a prefix only", "statement": "If parsing a packet (question, record, name) succeeds it also succeeds with the same result when arbitrary octets are appended; and no proper prefix shorter than the octets consumed parses successfully (truncated packets are never accepted).", "quantifier": "every byte string, every appended suffix, every truncation point", "why_tests_cant": "Relates infinitely many inputs.", "anchors": ["src/packet.rs: TryFrom<&mut DnsBuffer> for Packet", "src/resource.rs", "src/question.rs", "src/buffer.rs"]}
{"id": "C31", "title": "Parsing a packet never panics", "statement": "Packet::try_from returns Ok or Err on every byte string.", "quantifier": "every byte string, debug and release builds, every feature set", "why_tests_cant": "All inputs.", "anchors": ["src/packet.rs: TryFrom<&[u8]> for Packet", "src/buffer.rs: extract_fqdn", "src/rdata/svcb.rs", "src/rdata/csync.rs", "src/rdata/dnssec.rs"]}
{"id": "C32", "title": "Parsing a packet terminates", "statement": "Packet::try_from returns for every byte string.", "quantifier": "every byte string", "why_tests_cant": "Non-termination is not testable.", "anchors": ["src/packet.rs: TryFrom<&[u8]> for Packet", "src/buffer.rs: extract_fqdn"]}
{"id": "C33", "title": "Packet byte_size is the wire size", "statement": "Packet::byte_size() (and ResourceRecord/Question byte_size()) equals the length of to_bytes().", "quantifier": "every packet", "why_tests_cant": "All record contents.", "anchors": ["src/packet.rs: byte_size", "src/resource.rs: byte_size", "src/question.rs: byte_size"]}
{"id": "C34", "title": "A record occupies exactly its RDLENGTH", "statement": "After a ResourceRecord is parsed, the position is the start of RDATA plus RDLENGTH, whatever the RDATA parser consumed, so following records are found at the right offset.", "quantifier": "every byte string and record type", "why_tests_cant": "All RDATA contents.", "anchors": ["src/resource.rs: TryFrom<&mut DnsBuffer> for ResourceRecord"]}
{"id": "C35", "title": "RDLENGTH written equals RDATA written", "statement": "In the output of ResourceRecord to_bytes (and of the compressed form) the RDLENGTH field equals the number of RDATA octets that follow it.", "quantifier": "every resource record of every type with RDATA below 65536 octets", "why_tests_cant": "All record contents; byte_size and to_bytes are separate hand-written functions.", "anchors": ["src/resource.rs: to_bytes, to_bytes_compressed", "src/rdata/mod.rs: byte_size"]}
{"id": "C36", "title": "RDATA byte_size is the RDATA wire size", "statement": "For every RDATA type byte_size() equals to_bytes().len().", "quantifier": "every value of every RDATA type", "why_tests_cant": "All contents of 37 types.", "anchors": ["src/rdata/*: ByteConvertible impls"]}
{"id": "C37", "title": "RDATA parsers read the RFC layout", "statement": "For every RDATA type, parsing the octets that the defining RFC prescribes for a value returns that value.", "quantifier": "every well-formed value of every RDATA type, at every offset of every message", "why_tests_cant": "All contents.", "anchors": ["src/rdata/*: TryFrom<&mut DnsBuffer> impls"]}
{"id": "C38", "title": "RDATA writers write the RFC layout", "statement": "For every RDATA type, to_bytes() is the octet string the defining RFC prescribes for the value.", "quantifier": "every well-formed value of every RDATA type", "why_tests_cant": "All contents; a round trip test alone would miss a mistake made in both directions.", "anchors": ["src/rdata/*: ByteConvertible impls"]}
{"id": "C39", "title": "Type codes convert without loss", "statement": "RecordType, QType and QClass convert to their IANA numbers and back: try_from(u16::from(t)) == t; try_from fails with InvalidType/InvalidClass carrying the number for every other number; distinct types have distinct numbers.", "quantifier": "all 65536 numbers and all variants, both feature sets", "why_tests_cant": "Whole-domain statement.", "anchors": ["src/resource.rs: RecordType, RecordClass", "src/question.rs: QType, QClass"]}
{"id": "C40", "title": "Classes convert without loss", "statement": "RecordClass survives u16 conversion; the mDNS top bit is not part of the class.", "quantifier": "every RecordClass value including every UDP payload size", "why_tests_cant": "All 65536 payload sizes.", "anchors": ["src/resource.rs: RecordClass", "src/question.rs: QClass"]}
{"id": "C41", "title": "mDNS flag bits survive", "statement": "With the mdns feature, unicast_response of a question and cache_flush of a record survive to_bytes and parsing without changing the class; without the feature the bit is ignored on input and never written.", "quantifier": "every question and record", "why_tests_cant": "All values, both features.", "anchors": ["src/question.rs", "src/resource.rs"]}
{"id": "C42", "title": "Unknown types are reported, not misread", "statement": "A record whose TYPE number is not supported makes parsing fail with InvalidType(number); it is never parsed as a different type.", "quantifier": "every type number, every message", "why_tests_cant": "All numbers and contents.", "anchors": ["src/resource.rs: RecordType::try_from", "src/rdata/mod.rs: RecordData::from"]}
{"id": "C43", "title": "Type bitmaps denote the set", "statement": "In NSEC and CSYNC RDATA, bit n of the type bitmap (RFC 4034 section 4.1.2 numbering) is set exactly when the type with number n is in the set, for the writer and for the reader.", "quantifier": "every set of record types / every bitmap", "why_tests_cant": "2^37 sets, all bitmaps.", "anchors": ["src/rdata/csync.rs", "src/rdata/dnssec.rs: Nsec"]}
{"id": "C44", "title": "Strings returned by the parser are valid UTF-8", "statement": "Every String inside a parsed record (TXT, CAA, NAPTR ...) is valid UTF-8, and valid UTF-8 on the wire is returned unchanged.", "quantifier": "every byte string", "why_tests_cant": "All byte sequences.", "anchors": ["src/rdata/txt.rs", "src/rdata/caa.rs", "src/rdata/naptr.rs", "src/rdata/svcb.rs", "src/buffer.rs: extract_string"]}
{"id": "C45", "title": "SVCB parameters are a sorted set without duplicate keys", "statement": "The parameters of a parsed or built SVCB record are strictly increasing in key; of two parameters with equal key on the wire the first is kept; to_bytes writes them in increasing key order.", "quantifier": "every byte string and every history of insertions", "why_tests_cant": "All parameter sequences.", "anchors": ["src/rdata/svcb.rs"]}
{"id": "C46", "title": "SVCB parameter lengths frame the parameters", "statement": "Reading an SVCB parameter consumes exactly four octets plus the length field; the length field written equals the number of value octets.", "quantifier": "every parameter and every byte string", "why_tests_cant": "All parameters and lengths.", "anchors": ["src/rdata/svcb.rs: Param"]}
{"id": "C47", "title": "OPT options are a map", "statement": "A parsed OPT record maps each option code to the data of its last occurrence, and no other code; writing a map in any iteration order and parsing it gives the same map.", "quantifier": "every option sequence and every HashMap iteration order", "why_tests_cant": "HashMap iteration order is random per process.", "anchors": ["src/rdata/opt.rs"]}
{"id": "C48", "title": "Canonical RRset bytes do not depend on record order", "statement": "ResourceRecordSet::to_bytes() is the same for every order of the same records, its RDATA are in ascending octet order (RFC 4034 section 6.3), and canonical_reorder only permutes.", "quantifier": "every record set and every permutation of it", "why_tests_cant": "All permutations of unbounded sets.", "anchors": ["src/resource_record_set.rs"]}
{"id": "C49", "title": "RRset byte_size is the wire size", "statement": "ResourceRecordSet::byte_size() equals to_bytes().len().", "quantifier": "every record set", "why_tests_cant": "All sets.", "anchors": ["src/resource_record_set.rs"]}
{"id": "C50", "title": "Key tag is the RFC 4034 Appendix B checksum", "statement": "DnsKey::compute_key_tag() equals the RFC 4034 Appendix B value for the DNSKEY RDATA.", "quantifier": "every DNSKEY value", "why_tests_cant": "Unbounded key lengths.", "anchors": ["src/rdata/dnssec.rs: compute_key_tag"]}
{"id": "C51", "title": "Signer and verifier agree on the signed octets", "statement": "The octets Rrsig::verify feeds to the signature algorithm are exactly those Rrsig::from_dnskey signed, for the same record set in any record order; so for a correct signature scheme a fresh signature verifies.", "quantifier": "every key, record set, record order and correct signature oracle", "why_tests_cant": "Universal over crypto oracles and sets.", "anchors": ["src/rdata/dnssec.rs: Rrsig::from_dnskey, Rrsig::verify"]}
{"id": "C52", "title": "DS digest covers owner name and DNSKEY RDATA", "statement": "Ds::try_from_dnskey hashes owner name wire form followed by DNSKEY RDATA with the requested digest, and carries the key tag and algorithm of the key; verification with another digest type's algorithm cannot happen.", "quantifier": "every owner, key, digest type and hash function", "why_tests_cant": "Universal over inputs and hash.", "anchors": ["src/rdata/dnssec.rs: Ds::try_from_dnskey"]}
{"id": "C53", "title": "Verification refuses foreign keys", "statement": "Rrsig::verify returns an error when the key's algorithm differs from the signature's, and never Ok(true) for an algorithm it does not implement, whatever the crypto oracle says. It returns Ok(true) exactly when the algorithms agree and the library accepts the signature, under the public key that the DNSKEY record contains, for the octets of RFC 4034, section 3.1.8.1.", "quantifier": "every signature, key and oracle", "why_tests_cant": "Universal over oracles.", "anchors": ["src/rdata/dnssec.rs: Rrsig::verify"]}
{"id": "C54", "title": "RRSIG validity times are in seconds", "statement": "The inception and expiration fields of a created RRSIG are the given times in seconds since the epoch (RFC 4034 section 3.1.5).", "quantifier": "every pair of times", "why_tests_cant": "All instants.", "anchors": ["src/rdata/dnssec.rs: Rrsig::from_dnskey"]}
{"id": "C55", "title": "FQDN ordering is a total order", "statement": "The Ord instance of FQDN is a total order compatible with equality (so sets and maps keyed by names behave).", "quantifier": "all triples of names", "why_tests_cant": "Universal.", "anchors": ["src/fqdn.rs: derive(PartialOrd, Ord)"]}
{"id": "C56", "title": "Parse, write, parse is stable", "statement": "If a byte string parses to a packet, then writing that packet and parsing again gives the same packet.", "quantifier": "every byte string that parses", "why_tests_cant": "All inputs.", "anchors": ["src/packet.rs"]}
{"id": "C57", "title": "A name read is bounded by the message", "statement": "A name returned by extract_fqdn has at most as many labels as the message has octets.", "quantifier": "every message and position", "why_tests_cant": "All pointer graphs.", "anchors": ["src/buffer.rs: extract_fqdn"]}
{"id": "C58", "title": "Reserved label types are rejected and names are at most 255 octets", "statement": "extract_fqdn refuses label octets with the reserved 01/10 prefixes and names longer than 255 octets (RFC 1035 section 2.3.4, 4.1.4).", "quantifier": "every message", "why_tests_cant": "All inputs.", "anchors": ["src/buffer.rs: extract_fqdn"]}
{"id": "C59", "title": "Predicted compressed size of a name is the written size", "statement": "For every name, map of already written names and offset, byte_size_compressed predicts exactly the number of octets to_bytes_compressed writes (and both leave the same map), and this is at most byte_size().", "quantifier": "every name, every compression history, every offset", "why_tests_cant": "Depends on arbitrary earlier names and hash values.", "anchors": ["src/fqdn.rs: byte_size_compressed, to_bytes_compressed"]}
{"id": "C60", "title": "Different RRSIG fields or records give different signed octets", "statement": "The octets fed to the signature algorithm determine the type covered, algorithm, labels, original TTL, validity times, key tag, signer name of the RRSIG: no two RRSIGs that differ in one of these fields (signature aside) sign the same octets.", "quantifier": "every pair of RRSIG values", "why_tests_cant": "Quantifies over pairs of arbitrary values.", "anchors": ["src/rdata/dnssec.rs: Rrsig::from_dnskey, Rrsig::verify"]}
{"id": "C61", "title": "Numbers of algorithms, types and codes are those of the IANA registries", "statement": "The numbers the crate writes for each enumeration (record types, classes, response codes, opcodes, DNSSEC algorithms, digest types, SSHFP algorithms and fingerprint types, IPSECKEY/HIP algorithms, TLSA fields, TKEY modes, TSIG/TKEY errors, SVCB keys) are those of the IANA registry of that field.", "quantifier": "every value of every enumeration", "why_tests_cant": "A registry comparison over whole enumerations.", "anchors": ["src/rdata/mod.rs: Algorithm", "src/rdata/sshfp.rs: FingerprintType", "src/rdata/dnssec.rs: Algorithm, DigestType", "src/resource.rs: RecordType"]}
{"id": "C62", "title": "Compression pointers are representable", "statement": "Every pointer written by the compressing encoder has an offset below 16384 and points at the octets it means, whatever the size of the message.", "quantifier": "every sequence of names and every message length", "why_tests_cant": "Needs messages of more than 16384 octets in every combination.", "anchors": ["src/fqdn.rs: to_bytes_compressed"]}
{"id": "C63", "title": "Only names in RDATA that may be compressed are compressed", "statement": "RDATA of a type that may not be compressed (RFC 3597 section 4: only the types of RFC 1035) is written identically by to_bytes and to_bytes_compressed, whatever names were written before.", "quantifier": "every record data value, every compression history", "why_tests_cant": "All histories of earlier names.", "anchors": ["src/rdata/mod.rs: RecordData::to_bytes_compressed", "src/rdata/srv.rs", "src/rdata/naptr.rs", "src/rdata/dnssec.rs: Nsec"]}
{"id": "C64", "title": "Predicted compressed size of questions and records is the written size", "statement": "For every question, record data and record, every map of names already written and every offset, byte_size_compressed returns the number of octets to_bytes_compressed appends. The sizes of the questions and records of a packet, computed in turn with one map, add up to the size of the compressed message.", "quantifier": "every question and record, every compression history, every offset, every hash function", "why_tests_cant": "Depends on arbitrary earlier names.", "anchors": ["src/question.rs: byte_size_compressed", "src/resource.rs: byte_size_compressed", "src/rdata/*.rs: byte_size_compressed"]}
{"id": "C65", "title": "The type of a record and the type of its data agree", "statement": "RData::record_type() and into_record_data() of each data type and the reader for each record type agree; the data of every record has the type record_type() reports, after reading and after any history of setter calls; each getter reports the value last set.", "quantifier": "every data type, every message, every history of calls on a record or question", "why_tests_cant": "Histories of calls and all messages.", "anchors": ["src/rdata/mod.rs: RData", "src/resource.rs: ResourceRecord::{new,set_record_type,set_data,data_mut}", "src/question.rs: Question"]}
{"id": "C66", "title": "Writing never fails", "statement": "to_bytes() and to_bytes_compressed() of every packet return, whatever it contains.", "quantifier": "every packet, every build", "why_tests_cant": "All packets.", "anchors": ["src/packet.rs: to_bytes, to_bytes_compressed", "src/rdata/svcb.rs: Param::to_bytes"]}
{"id": "C67", "title": "Different packets are written differently", "statement": "If what is written for one packet is equal to, or a beginning of, what is written for another, they are the same packet (apart from the header counts, which are recomputed).", "quantifier": "every pair of packets", "why_tests_cant": "Quantifies over pairs of packets.", "anchors": ["src/packet.rs: to_bytes, to_bytes_compressed"]}
{"id": "C68", "title": "A packet contains what was put into it", "statement": "After any history of add_*, set_*, take_* and header calls, the sections contain exactly what was put in and not taken out, in order; take_* returns that; identification and flags are changed by header calls only; the calls return unless a count overflows.", "quantifier": "every history of calls on a packet", "why_tests_cant": "Histories.", "anchors": ["src/packet.rs: Packet"]}
{"id": "C69", "title": "CSYNC flags are what was set last", "statement": "After any history of set_immediate and set_soa_minimum calls on flags that are new or were read, immediate() and soa_minimum() return what was set last (or read), and the flags are written as 1 for immediate plus 2 for soaminimum with the other bits zero (RFC 7477).", "quantifier": "every history of calls, every flags field that can be read", "why_tests_cant": "Histories.", "anchors": ["src/rdata/csync.rs: Flags"]}
{"id": "C70", "title": "The printed digest of a DS record is its digest", "statement": "hex_digest() has two hexadecimal digits for each octet of the digest, and reading them back gives the digest; different digests have different texts.", "quantifier": "every DS record", "why_tests_cant": "All octet strings.", "anchors": ["src/rdata/dnssec.rs: Ds::hex_digest"]}
{"id": "C71", "title": "DHCID digests are over the canonical name", "statement": "Dhcid::new computes the digest over the identifier and the canonical (lower case) wire form of the name (RFC 4701 section 3.5), so all spellings of a name give the same digest.", "quantifier": "every identifier, every name, every spelling", "why_tests_cant": "All pairs of spellings.", "anchors": ["src/rdata/dhcid.rs: Dhcid::new"]}
{"id": "C72", "title": "The fields of a signature describe what was signed", "statement": "An RRSIG made by from_dnskey has the type, TTL and (RFC 4034 section 3.1.3) label count of the set, the algorithm and key tag of the key, the requested validity times, and the zone as signer's name.", "quantifier": "every key, every set, every crypto library", "why_tests_cant": "All owner names.", "anchors": ["src/rdata/dnssec.rs: Rrsig::from_dnskey"]}
{"id": "C73", "title": "What is signed is the canonical form of the set", "statement": "The octets that are signed, verified and digested are the canonical form of RFC 4034 section 6: lower case names, records in canonical order, duplicates removed.", "quantifier": "every record set, every way binary_search can behave", "why_tests_cant": "All sets.", "anchors": ["src/resource.rs: RRSet::to_bytes", "src/rdata/dnssec.rs: Rrsig::verify, Ds::from_dnskey"]}
{"id": "C74", "title": "Names are compared without regard to case", "statement": "Two FQDNs are equal exactly if they are the same domain name (RFC 4343), and tests such as is_link_local do not depend on the spelling.", "quantifier": "every pair of names", "why_tests_cant": "All pairs.", "anchors": ["src/fqdn.rs: FQDN"]}
{"id": "C75", "title": "The order of SVCB keys and parameters agrees with equality", "statement": "Two SVCB keys (or parameters) compare as equal in the order exactly if they are equal, so a set of them loses nothing that is different.", "quantifier": "every pair of keys and parameters", "why_tests_cant": "All pairs.", "anchors": ["src/rdata/svcb.rs: ParamKey, Param"]}
{"id": "C76", "title": "The order of names is the canonical order", "statement": "FQDNs are ordered as RFC 4034 section 6.1 requires for NSEC chains: by the rightmost label first, as lower case octets.", "quantifier": "every pair of names", "why_tests_cant": "All pairs.", "anchors": ["src/fqdn.rs: Ord for FQDN"]}
{"id": "C77", "title": "Only usable signatures are accepted", "statement": "Rrsig::verify accepts only signatures that meet the conditions of RFC 4035 section 5.3.1: same owner, class, type covered, label count, signer's name, validity period, algorithm, key tag and a zone key.", "quantifier": "every signature, key, record set and time", "why_tests_cant": "All combinations of fields.", "anchors": ["src/rdata/dnssec.rs: Rrsig::verify"]}
{"id": "C78", "title": "Legal SVCB records are read as what they say", "statement": "Every SVCB record that is legal by RFC 9460 is read with exactly its priority, target, keys and values.", "quantifier": "every legal list of keys and values, at every position of every message", "why_tests_cant": "All lists of keys and values.", "anchors": ["src/rdata/svcb.rs: Svcb, Param"]}
{"id": "C79", "title": "Constructors put their arguments where the wire format says", "statement": "What the constructor of each kind of record data gets is written in the fields of the wire format of that type, in the order and with the numbers of its RFC; the keys made by DnsKey::new have a valid protocol; valid_protocol() and mode() of what was read or is written depend on exactly the protocol and priority octets.", "quantifier": "every argument of every constructor", "why_tests_cant": "All arguments; all types.", "anchors": ["src/rdata/*.rs: new", "src/resource.rs: RRSet::new", "src/rdata/svcb.rs: Svcb::mode", "src/rdata/dnssec.rs: DnsKey::valid_protocol"]}
{"id": "C80", "title": "Header flags and codes arrive", "statement": "If what to_bytes() or to_bytes_compressed() writes for a packet can be read at all, whatever the packet contains and whatever follows it, the getters of the reader report the same identification, flags, opcode and response code as those of the sender. A message made with new_query(), with_questions(), new_reply() or default() and filled with questions and records starts with the identification, and of its flags and codes only RD (if asked for) or QR is set.", "quantifier": "every packet, every octets that follow, every pair of builds of sender and receiver", "why_tests_cant": "All packets, including those whose records are written wrongly.", "anchors": ["src/packet.rs: Packet getters, to_bytes, to_bytes_compressed, TryFrom"]}
{"id": "C81", "title": "The printed key and signature are base64", "statement": "base64_public_key() and base64_signature() are the base64 text (RFC 4648) of the octets: decoding gives them back, and the texts have four characters per three octets begun, from the alphabet.", "quantifier": "every key and signature", "why_tests_cant": "All octet strings.", "anchors": ["src/rdata/dnssec.rs: DnsKey::base64_public_key, Rrsig::base64_signature"]}
{"id": "C82", "title": "A message built with the API arrives as it was built", "statement": "A program that starts with new_query or new_reply and adds questions and records in any order and sets flags and codes never fails, and the receiver of the octets written reads the flags and codes set last and exactly the questions and records in the order they were added. In particular every request that can be read can be answered: the client gets a response with its identification, its questions and the answers.", "quantifier": "every sequence of add and set calls, every request, every list of answers", "why_tests_cant": "Arbitrarily long call sequences.", "anchors": ["src/packet.rs: Packet::{new_query,new_reply,add_question,add_answer,add_authority,add_additional,to_bytes,to_bytes_compressed}", "src/packet.rs: TryFrom<&[u8]>"]}
{"id": "C83", "title": "Name compression does not depend on the hash function", "statement": "The octets to_bytes_compressed() writes, and whether it returns, do not depend on the hash function used to find earlier names, so that hash collisions never change what the receiver reads.", "quantifier": "every packet, every pair of hash functions", "why_tests_cant": "All hash functions and packets; collisions of a 64-bit hash cannot be found by testing.", "anchors": ["src/util.rs: hash_fqdn", "src/fqdn.rs: to_bytes_compressed", "src/packet.rs: to_bytes_compressed"]}
{"id": "C84", "title": "The build profile does not change results", "statement": "The same call with the same input has the same outcome in a program built with overflow checks (debug profile) and in one built without (release profile): reading messages, writing and measuring packets, the calls that change a packet, key tags, signing and verifying.", "quantifier": "every input of each call, every combination of features", "why_tests_cant": "Compares two builds on all inputs; a test runs in one build.", "anchors": ["src/packet.rs: TryFrom, to_bytes, to_bytes_compressed, byte_size", "src/rdata/dnssec.rs: Nsec, compute_key_tag", "src/rdata/csync.rs", "src/rdata/svcb.rs: Param"]}
{"id": "C85", "title": "The feature dnssec only adds types", "statement": "A program built without the feature dnssec reads exactly those packets that one built with it reads and in which nothing is of the types DS, RRSIG, NSEC or DNSKEY; where both fail they fail in the same way, unless the first returns the error for one of these types. What they write is the same.", "quantifier": "every message, every packet", "why_tests_cant": "Compares two builds on all inputs.", "anchors": ["src/resource.rs: TryFrom<u16> for RecordType", "src/question.rs: TryFrom<u16> for QType", "src/packet.rs"]}
{"id": "C86", "title": "The feature mdns only adds two bits", "statement": "A program built without the feature mdns reads every message with the same outcome as one built with it, apart from the bits for unicast response and cache flush; packets in which these bits are not set are written alike; what is written with the feature is read without it as the same packet without the bits.", "quantifier": "every message, every packet", "why_tests_cant": "Compares two builds on all inputs.", "anchors": ["src/question.rs: TryFrom<&mut DnsBuffer>, to_bytes", "src/resource.rs: TryFrom<&mut DnsBuffer>, to_bytes"]}
{"id": "C87", "title": "A short message cannot make the reader build a large packet", "statement": "Whatever counts the header claims, the packet read from a message has only as many questions and records as fit into its octets: 12 for the header, at least 5 for each question and 11 for each record.", "quantifier": "every message", "why_tests_cant": "All messages, all claimed counts.", "anchors": ["src/packet.rs: TryFrom<&[u8]>", "src/question.rs: TryFrom<&mut DnsBuffer>", "src/resource.rs: TryFrom<&mut DnsBuffer>"]}
{"id": "C88", "title": "Compression does not change the meaning of a message", "statement": "The octets written by to_bytes() and by to_bytes_compressed() for the same packet are read as the same packet.", "quantifier": "every packet, every hash function", "why_tests_cant": "All packets.", "anchors": ["src/packet.rs: to_bytes, to_bytes_compressed, TryFrom"]}
{"id": "C89", "title": "Errors name a number that is in the message", "statement": "If reading a message fails with an error that carries a number, the message has this number: at some octet or pair of octets (or, for opcodes and response codes, in the flags). Errors of signing and verifying are never the result of reading.", "quantifier": "every message, every build", "why_tests_cant": "All malformed messages.", "anchors": ["src/error.rs: DnsError", "src/packet.rs: TryFrom<&[u8]>", "src/rdata/*.rs"]}
{"id": "C90", "title": "Errors name what is wrong", "statement": "The number in the error of reading is not the number of any code of the kind the error names, so that the user can look up why the message was rejected.", "quantifier": "every message, every build", "why_tests_cant": "All malformed messages.", "anchors": ["src/error.rs: DnsError", "src/rdata/tlsa.rs", "src/rdata/tsig.rs", "src/rdata/dhcid.rs", "src/rdata/dnssec.rs"]}
{"id": "C91", "title": "Errors can be printed and told apart", "statement": "Different errors have different texts, and a program that follows the chain of causes of an error, as error reporters do, comes to an end.", "quantifier": "every error", "why_tests_cant": "All errors with all numbers; termination.", "anchors": ["src/error.rs: Display, Error::source for DnsError"]}
{"id": "C92", "title": "Messages are written part by part", "statement": "What to_bytes() writes for a packet is the header with the true counts followed by what to_bytes() writes for each question and record; with and without compression the octets behind the header depend only on the questions and records in their order, and adding some at the end leaves the octets written before as they were. A packet can be written if a longer one can.", "quantifier": "every pair of packets of which one begins with the questions and records of the other, every hash function", "why_tests_cant": "All pairs of packets of any size; pointers written later must never reach back into what was written.", "anchors": ["src/packet.rs: to_bytes, to_bytes_compressed", "src/question.rs: to_bytes", "src/resource.rs: to_bytes"]}
{"id": "C93", "title": "Repeated names are compressed", "statement": "In the compressed form of a message, a name that ends like a name written before (of a question, an owner name, or a name in the data of a record of RFC 1035) takes two octets for that end, for owner names and for names in record data.", "quantifier": "every packet, every name and earlier name, every hash function without collisions on these names", "why_tests_cant": "All histories of names.", "anchors": ["src/fqdn.rs: to_bytes_compressed", "src/packet.rs: to_bytes_compressed", "src/question.rs", "src/resource.rs"]}
{"id": "C94", "title": "The memory for a packet is at most quadratic in the message", "statement": "A packet read from n octets has at most n names of at most 192 n octets each; its strings, lists, sets and maps have at most 8 n octets and elements together. So no message of n octets makes the reader keep more than 192 n n + 8 n octets and elements.", "quantifier": "every message", "why_tests_cant": "All messages, in particular pointers that let many names share the same octets.", "anchors": ["src/packet.rs: TryFrom<&[u8]>", "src/buffer.rs: extract_fqdn", "src/rdata/*.rs"]}
{"id": "C95", "title": "Comparisons are total orders", "statement": "Names, record types, record classes, and SVCB parameters and their keys are ordered totally: comparing the other way round gives the opposite answer, and the order is transitive, so that sorting and sorted sets work. Types are ordered by their numbers, classes in the order IN, CS, CH, HS and then the payload sizes of OPT records, parameters by the number of their key; types and classes compare as equal exactly when they are equal.", "quantifier": "every pair and triple of values", "why_tests_cant": "All pairs and triples.", "anchors": ["src/fqdn.rs: Ord for FQDN", "src/resource.rs: RecordType, RecordClass", "src/rdata/svcb.rs: Ord for ParamKey, Ord for Param"]}
{"id": "C96", "title": "Addresses can be given as text", "statement": "A record of an IPv4 address can be made of a text exactly if the text is four decimal numbers up to 255 without leading zeros, separated by dots; one of an IPv6 address exactly if the text has one of the forms of RFC 4291, section 2.2. The data of the record are the octets that the text denotes, and every address has such a text.", "quantifier": "every text", "why_tests_cant": "All texts.", "anchors": ["src/rdata/a.rs: TryFrom<&str> for A", "src/rdata/aaaa.rs: TryFrom<&str> for Aaaa"]}
{"id": "C97", "title": "What is written is a message of RFC 1035", "statement": "For every packet that can be represented on the wire, what to_bytes and (with right header counts, within 16384 octets and without hash collisions) to_bytes_compressed write is a message of RFC 1035 that says what the packet says: a header with the right counts, the questions, and the records in order, each with an RDLENGTH that is the number of octets of its RDATA, which are one of the encodings the RFC of the type allows a sender to use. Without compression there are no pointers; with compression every pointer leads to a smaller offset.", "quantifier": "every packet, configuration and hash function without collisions on the names of the packet", "why_tests_cant": "All packets; a third-party reader of the format is needed to notice a deviation that the crate's own reader shares.", "anchors": ["src/packet.rs: Packet::to_bytes, Packet::to_bytes_compressed", "src/resource.rs: ResourceRecord::to_bytes, to_bytes_compressed", "src/rdata/*.rs: to_bytes, to_bytes_compressed"]}
{"id": "C98", "title": "Length of a digest", "statement": "len() of a DNSSEC algorithm is the number of octets of the digest that is signed, for every algorithm that signs a digest, and None for the others; the signature depends on the data only through that digest.", "quantifier": "every algorithm and all data", "why_tests_cant": "All data; hash functions as parameters.", "anchors": ["src/rdata/dnssec.rs: Algorithm::len, Algorithm::sign_data"]}
{"id": "C99", "title": "A message of another implementation is read as what it says", "statement": "Octets that are a message of RFC 1035 written by any conforming sender - header, questions, records with names with or without compression and RDATA in an encoding the RFC of the type allows a sender to use, possibly followed by other octets - are read by Packet::try_from as the packet that the message says, and reading ends where the message ends.", "quantifier": "every message and packet, in every configuration", "why_tests_cant": "All messages; senders make different choices (compression, order), which tests that read back what the crate itself has written never show.", "anchors": ["src/packet.rs: TryFrom<&[u8]>", "src/resource.rs: TryFrom<&mut Buffer> for ResourceRecord", "src/buffer.rs: extract_fqdn", "src/rdata/*.rs: TryFrom<&mut Buffer>"]}
{"id": "C100", "title": "A signed answer verifies at the receiver", "statement": "If a record set is signed with Rrsig::from_dnskey and its records (in any order, among others), the signature and the key are sent in a packet, then whoever parses the written octets finds the signature, the records it covers and the key in the packet, and Rrsig::verify returns Ok(true) for them.", "quantifier": "every set, key pair, signature library, packet that contains them, hash function and order of records", "why_tests_cant": "Composes signing, canonical order, writing, compression, reading and verification; a test shows it for one message.", "anchors": ["src/rdata/dnssec.rs: Rrsig::from_dnskey, Rrsig::verify", "src/packet.rs: to_bytes, to_bytes_compressed, TryFrom<&[u8]>", "src/resource_record_set.rs: to_bytes"]}
{"id": "C101", "title": "Forwarding without compression keeps every octet", "statement": "A message of RFC 1035 without compression, as a conforming sender writes it, is read by Packet::try_from as a packet that to_bytes writes as the same octets: a program that reads messages and passes them on does not change them (so that signatures over the message stay valid). Moreover the formats leave a sender no choice: a packet has at most one such encoding.", "quantifier": "every message and packet, in every configuration", "why_tests_cant": "All messages; octet-exact equality depends on every field, padding and bitmap of every type.", "anchors": ["src/packet.rs: TryFrom<&[u8]>, Packet::to_bytes", "src/resource.rs: ResourceRecord", "src/rdata/*.rs"]}
{"id": "C102", "title": "Writing has no effect but its result", "statement": "Writing a packet, a record or a record set, asking for a size, signing and verifying have no effect but their result: nothing appears on the standard output of the process, and the result does not depend on whether the standard output is open.", "quantifier": "every packet, record, record set, and every behaviour of the standard output", "why_tests_cant": "All inputs and all behaviours of the environment; test harnesses capture the output and keep it open.", "anchors": ["src/rdata/tsig.rs: Tsig::to_bytes", "src/packet.rs: Packet::to_bytes, to_bytes_compressed", "src/resource.rs: ResourceRecord::to_bytes, byte_size_compressed", "src/resource_record_set.rs: to_bytes", "src/rdata/dnssec.rs: Rrsig::from_dnskey, Rrsig::verify"]}
{"id": "C103", "title": "Nothing in the data of a received record is left unread", "statement": "When a record is read from a message, every octet of its RDATA (the octets counted by RDLENGTH) is part of the record that the caller gets: octets that belong to no field are an error, not dropped.", "quantifier": "All record types, all RDATA octets, all positions in a message, all octets put behind well-formed data, all build settings.", "why_tests_cant": "All continuations of all well-formed data; tests check records of exactly the right length.", "anchors": ["src/resource.rs: ResourceRecord::try_from", "src/rdata/mod.rs: RecordData::from", "src/rdata/apl.rs: Apl::try_from", "src/rdata/*.rs: try_from", "src/buffer.rs: DnsBuffer::sub_buffer, remaining"]}
{"id": "C104", "title": "The unsafe code is never undefined", "statement": "Whatever packet is written and whatever name is shown, the unsafe blocks of the crate do nothing undefined: Packet::to_bytes writes only inside the memory it reserved, and only at addresses aligned for the values it writes; the message is the same on machines of both endiannesses and for every allocator. Display of a name makes a str only of octets that are UTF-8.", "quantifier": "every packet, name, build setting, byte order, and every address and capacity that the allocator may return", "why_tests_cant": "All allocators and all inputs; undefined behaviour usually goes unnoticed in tests, because the usual allocators return even addresses and the usual names are ASCII.", "anchors": ["src/packet.rs: Packet::to_bytes", "src/header.rs: PacketHeader", "src/fqdn.rs: Display for FQDN"]}
{"id": "C105", "title": "Reading a message takes at most quadratic time", "statement": "Packet::try_from accepts or refuses every message of n octets in at most a constant times n squared steps, where a call of the buffer, a round of a loop and an octet read, copied or checked is a step. Without compression pointers the time is linear.", "quantifier": "every message of every length, in every configuration", "why_tests_cant": "All messages: the worst case is not found by trying messages, and an endless run is not told from a long one by a test.", "anchors": ["src/packet.rs: TryFrom<&[u8]>", "src/buffer.rs: DnsBuffer::extract_fqdn, extract_bytes, sub_buffer", "src/rdata/*.rs: try_from", "src/resource.rs: ResourceRecord::try_from", "src/question.rs: Question::try_from"]}
{"id": "C106", "title": "Writing with compression takes at most quadratic time", "statement": "Whatever has been read from a message of n octets is written by to_bytes_compressed in at most a constant times n squared steps, where an octet hashed, written or copied, a look into the map of names and a round of a loop is a step, and the result has at most a constant times n squared octets; no hash function and no message makes it worse.", "quantifier": "every message that is read, every hash function (with any collisions), every configuration of the reader and of the writer", "why_tests_cant": "All messages and all hash functions: a test measures some messages, and the worst case is not found by trying.", "anchors": ["src/packet.rs: Packet::to_bytes_compressed", "src/fqdn.rs: FQDN::to_bytes_compressed", "src/util.rs: hash_fqdn", "src/rdata/*.rs: to_bytes_compressed", "src/resource.rs: ResourceRecord::to_bytes_compressed"]}
{"id": "C107", "title": "No other way to compress the names gives a shorter message", "statement": "The message that to_bytes_compressed makes is the shortest one: no other choice of which names (of questions, owner names, and names in the data of the types whose names are compressed) are written out and which end with a pointer to an earlier such name, and where each pointer leads, gives fewer octets.", "quantifier": "every packet whose names have no empty labels, every way to encode its names one after the other, every hash function without collisions on these names", "why_tests_cant": "The number of ways to compress a packet is exponential in the number of its names; a test compares with one other encoder.", "anchors": ["src/packet.rs: Packet::to_bytes_compressed", "src/fqdn.rs: FQDN::to_bytes_compressed", "src/rdata/*.rs: to_bytes_compressed", "src/resource.rs: ResourceRecord::to_bytes_compressed", "src/question.rs: Question::to_bytes_compressed"]}
{"id": "C108", "title": "Messages that stand one behind the other in a buffer can be read one after the other", "statement": "Reading a packet from a DnsBuffer whose position is not 0 gives what reading the octets from that position on as a message of their own gives, and leaves the position behind the message; so the messages of a stream (for instance DNS over TCP, where two octets with the length stand before each message) can be read one after the other from one buffer. (True exactly for messages without compression: the pointers of a message are taken from the start of the buffer, not of the message, so a compressed message is read as asking for names of the message before it, or not at all.)", "quantifier": "every number of messages, every octets before, between (length prefixes) and behind them, every build configuration; for the exact form every message of RFC 1035 that the crate reads at the start of a buffer and every octets in front of it; for the counterexample every hash function", "why_tests_cant": "The tests read one message from position 0. That a message means the same wherever it stands is a statement about every prefix and every way names may be compressed.", "anchors": ["src/packet.rs: Packet::try_from(&mut DnsBuffer)", "src/buffer.rs: DnsBuffer::extract_fqdn, DnsBuffer::sub_buffer, DnsBuffer::advance, DnsBuffer::set_position", "src/resource.rs: ResourceRecord::try_from"]}
{"id": "C109", "title": "A message that has not arrived completely is refused with the error of length", "statement": "If Packet::try_from reads a message of n octets, then for every k < n it refuses the first k octets with an error that says that the length does not fit: a caller that reads from a stream can tell a message of which a part is still to come from a malformed one, by the error alone. The same holds for a question and for a record.", "quantifier": "every message that is read, and every place where it is cut, in every configuration", "why_tests_cant": "All messages and all places where they can be cut; tests cut one message at some places.", "anchors": ["src/packet.rs: TryFrom<&[u8]>", "src/buffer.rs: DnsBuffer::extract_fqdn, extract_bytes, extract_u16, extract_u32, sub_buffer, advance", "src/question.rs: TryFrom<&mut Buffer> for Question", "src/resource.rs: TryFrom<&mut Buffer> for ResourceRecord", "src/error.rs: DnsError::LengthViolation"]}
{"id": "C110", "title": "Packets that compare equal are written to the same octets", "statement": "If two packets are equal (==), then to_bytes, to_bytes_compressed and byte_size give the same for both: a cache may hand out one for the other, and a packet that was read, stored and compared equal is sent as the same message. (False of the code for OPT records with two or more options, which are kept in a HashMap; the octets are then the same apart from the order of the options, and what is written for either is read as a packet equal to both.)", "quantifier": "every two packets that compare equal, in every iteration order of the map of options, every hash function, every configuration", "why_tests_cant": "The iteration order of a HashMap differs from run to run, so that a test passes or fails by chance; the statement is about all orders and all packets.", "anchors": ["src/packet.rs: Packet (derived PartialEq), Packet::to_bytes, Packet::to_bytes_compressed, Packet::byte_size", "src/rdata/opt.rs: Opt", "src/resource.rs: ResourceRecord::to_bytes, ResourceRecord::to_bytes_compressed"]}
{"id": "C111", "title": "A message read and written again with compression does not get longer", "statement": "A message that Packet::try_from reads and to_bytes_compressed writes again has at most as many octets as before, so that a forwarder can send what it received within the limit the message came under, and it is read as the same packet; and what to_bytes_compressed writes is the shortest message with pointers to prior names that says the packet. (True of the code for messages whose pointers lead to names in questions, owner names and data of the types in which the crate compresses names, and whose data are of the kinds the crate reads and writes as the RFCs demand; false for a pointer to a name in other data, for the address prefixes of APL records and for type bit maps with an empty first window.)", "quantifier": "every message of RFC 1035 with pointers of this kind, of every length, with any choice of which names are compressed and how; every hash function without collisions on the names; every configuration", "why_tests_cant": "The octets of a message can be chosen in exponentially many ways by the sender; a test compares with one other implementation.", "anchors": ["src/packet.rs: TryFrom<&[u8]>, Packet::to_bytes_compressed", "src/fqdn.rs: FQDN::to_bytes_compressed", "src/buffer.rs: DnsBuffer::extract_fqdn", "src/rdata/*.rs: to_bytes_compressed", "src/resource.rs: ResourceRecord::to_bytes_compressed", "src/rdata/apl.rs: Apl", "src/rdata/dnssec.rs: Nsec"]}
{"id": "C112", "title": "The id and the flags of a message can be changed in place", "statement": "A proxy that writes another identification and other flags over the first four octets of a message has a message that is read as the packet it was, with this identification and these flags and no other difference, or is refused as it was refused before; and what to_bytes and to_bytes_compressed write for packets that differ in the header only differs in these octets only. (True of the code unless a name has a compression pointer that leads into the first four octets, which RFC 1035 does not forbid in so many words and the crate follows: then the name changes with the identification.)", "quantifier": "every message of RFC 1035 that is read and every identification and flags; every octets in which no two octets look like a pointer to the first four, read or refused; every packet written, without and with compression", "why_tests_cant": "All messages, all ways to compress their names, and all 2^32 values of the first four octets; a test changes the id of one message.", "anchors": ["src/packet.rs: TryFrom<&[u8]>, Packet::to_bytes, Packet::to_bytes_compressed", "src/header.rs: Header", "src/buffer.rs: DnsBuffer::extract_fqdn"]}
{"id": "C113", "title": "A record can be appended to an encoded message, and taken off again", "statement": "A program that signs or extends an encoded message (TSIG, OPT) puts the octets of one more record behind it and increases ARCOUNT: what is then read is the packet as before with this record at the end of the additional section. A program that verifies a signature cuts the last record off and decreases ARCOUNT: what is then read is the packet as before without this record. One undoes the other. (True of the code unless a name has a compression pointer into the header, which then changes with ARCOUNT.)", "quantifier": "every message of RFC 1035 whose pointers lead to prior names (for appending: to any place behind the header), with any number of questions and records, every record written without pointers; for the crate's own octets every packet and record written, every hash function without collisions on the names; every configuration", "why_tests_cant": "All messages with all ways to compress their names; a test appends one record to one message.", "anchors": ["src/packet.rs: TryFrom<&[u8]>, Packet::to_bytes_compressed", "src/resource.rs: TryFrom<&mut Buffer> for ResourceRecord, ResourceRecord::to_bytes", "src/header.rs: Header", "src/buffer.rs: DnsBuffer::extract_fqdn"]}
{"id": "C114", "title": "The TTL of a record can be changed in an encoded message", "statement": "A cache that hands out a stored message with the TTLs counted down writes the new TTL over the four octets that stand four octets behind the name of the record: what is then read is the packet as before, with this TTL of this record and no other difference. (True of the code unless a name has a compression pointer that does not lead to a prior name but into a TTL, which then changes with it.)", "quantifier": "every message of RFC 1035 whose pointers lead to prior names, every section, every record in it, every TTL of 32 bits, every configuration", "why_tests_cant": "All messages, all records in them and all 2^32 values; a test changes one TTL in one message.", "anchors": ["src/packet.rs: TryFrom<&[u8]>", "src/resource.rs: TryFrom<&mut Buffer> for ResourceRecord", "src/buffer.rs: DnsBuffer::extract_fqdn, DnsBuffer::extract_u32"]}
{"id": "C115", "title": "An encoded message can be shortened between its records", "statement": "A server that has to send a long message over UDP cuts it between two records, sets TC, and writes the numbers of the records that are left into the header: what is then read is the packet with the first records only (and the identification and flags written). For every limit that has room for header and questions there is such a place within the limit, behind which the next record would have exceeded it. (True of the code unless a name has a compression pointer into the header.)", "quantifier": "every message of RFC 1035 whose pointers lead to prior names, with any number of records in the three sections, every number of records to keep, every limit, every identification and flags, every configuration", "why_tests_cant": "All messages with all ways to compress their names, and all places between records; a test cuts one message at one place.", "anchors": ["src/packet.rs: TryFrom<&[u8]>", "src/resource.rs: TryFrom<&mut Buffer> for ResourceRecord", "src/header.rs: Header", "src/buffer.rs: DnsBuffer::extract_fqdn"]}
{"id": "C116", "title": "A reply can be made of the octets of the question", "statement": "A server that answers copies the octets of the questions of the query behind a header of its own and appends the octets of its answers, with the two octets 0xC00C in place of an owner name that is the name of the first question: what is then read is the reply with the same questions and these answers with their names. The octets of an answer may be those that to_bytes writes (with the root as owner name and 0xC00C in place of its zero octet).", "quantifier": "every query (or message) of RFC 1035 whose pointers lead to prior names, with any number of questions, every list of fewer than 65536 answers, every identification and flags, every configuration; for the crate's own octets every hash function without collisions on the names", "why_tests_cant": "All queries and all answers; a test makes one reply.", "anchors": ["src/packet.rs: TryFrom<&[u8]>, Packet::to_bytes_compressed", "src/question.rs: TryFrom<&mut Buffer> for Question", "src/resource.rs: TryFrom<&mut Buffer> for ResourceRecord, ResourceRecord::to_bytes", "src/buffer.rs: DnsBuffer::extract_fqdn"]}
{"id": "C117", "title": "All TTLs of an encoded message can be changed at once", "statement": "A cache that stores encoded messages remembers for each the places of the TTLs (one for each record, four octets behind the end of its owner name), and counts all of them down when it hands the message out: what is then read is the packet as before with these TTLs and no other difference. (True of the code unless a name has a compression pointer that does not lead to a prior name but into a TTL.)", "quantifier": "every message of RFC 1035 whose pointers lead to prior names, every number of records in every section, every TTLs of 32 bits, every octets that differ from the message only there, every configuration", "why_tests_cant": "All messages and all TTLs; a test changes the TTLs of one message.", "anchors": ["src/packet.rs: TryFrom<&[u8]>", "src/resource.rs: TryFrom<&mut Buffer> for ResourceRecord", "src/buffer.rs: DnsBuffer::extract_fqdn, DnsBuffer::extract_u32"]}
{"id": "C118", "title": "Only what the zone has signed is accepted through a chain of trust", "statement": "Somebody who has the DS record of a zone (from its parent) accepts a DNSKEY record when the DS record made from it is the one they have, and a set of records when its RRSIG record is accepted with this key. Then, whatever octets are received and from whomever: the key accepted is the key of the zone, with the name of the zone as owner, and the set of records accepted is one that was signed with it, with the same owner, type, class, TTL and the same records in whatever order; unless somebody has found another preimage of the digest or forged a signature. And what the zone signs and publishes is accepted. (True of the code for records that can be written again, C56; false for records with texts that are not UTF-8 and grow when they are read: the signature is verified over the octets as the crate would write them, where the length wraps, so a TXT record that was never signed is accepted with the signature of another one. The time of the signature and the flags of the key are not checked by the crate, C77.)", "quantifier": "every octets received, every zone, key, set of signed sets and DS record; every library of cryptographic functions in which the digest has one preimage only and no signature was forged; every order in which the records are searched; every configuration", "why_tests_cant": "An attacker chooses the octets; no test can try all of them. That the digest and the signed octets determine the key and the records is a statement about all pairs of inputs.", "anchors": ["src/rdata/dnssec.rs: Ds::try_from_dnskey, Rrsig::from_dnskey, Rrsig::verify, DigestType::hash_data", "src/resource.rs: RRSet", "src/packet.rs: TryFrom<&[u8]>, Packet::to_bytes_compressed"]}
{"id": "C119", "title": "Signatures are exchanged with other implementations", "statement": "Rrsig::verify accepts a signature exactly when it is one that the RFCs define: RFC 4034 and 4035 for the octets that are signed (canonical form, original TTL, wildcards), RFC 2536, 2537, 3110, 5702, 6605 and 8080 for keys and signatures; and what Rrsig::from_dnskey makes is such a signature, which another implementation accepts. An answer that another server has signed and sent is read and its signature accepted. (True of the code for Ed25519 and Ed448 and sets in canonical form already. For the other algorithms signatures of other implementations are always refused; those made are right but for RSA/MD5, RSA/SHA-1 and DSA. Upper case letters and wildcards: refused.)", "quantifier": "every set of records, key, signature and message of RFC 1035 that contains them, every signature scheme and libraries that implement the schemes as they document it, every order in which records are searched", "why_tests_cant": "Tests sign and verify with the same code, which agrees with itself; the statement is about all signatures that others make, for all sets and keys.", "anchors": ["src/rdata/dnssec.rs: Rrsig::verify, Rrsig::from_dnskey, Algorithm::sign_data", "src/resource.rs: ResourceRecordSet::to_bytes", "src/packet.rs: TryFrom<&[u8]>"]}
{"id": "C120", "title": "A signed set is accepted after what resolvers change on the way", "statement": "A set of records that was signed gets from one resolver to the next: their TTLs get smaller in caches, their order changes, and the owner name comes back in the spelling of the question. Rrsig::verify accepts the signature all the same, as RFC 4035, section 5.3, demands, and it accepts it for no other set. (True of the code for the order, and if the set is made with the original TTL that the RRSIG record carries. False for a set with the TTL of the received records and for another spelling of the owner name: these are accepted only if TTL and spelling are those that were signed.)", "quantifier": "every signature that is good for one message only, every set it is accepted for and every other set, TTL, order and spelling, every library of cryptographic functions, every configuration", "why_tests_cant": "All pairs of sets; a test verifies the set it has signed.", "anchors": ["src/rdata/dnssec.rs: Rrsig::verify, Rrsig::from_dnskey", "src/resource_record_set.rs: ResourceRecordSet::to_bytes"]}
{"id": "C121", "title": "The octets of a record set are its records", "statement": "The octets that ResourceRecordSet::to_bytes returns, which are also those that are signed, are the wire formats of its records in canonical order: wherever they stand in a buffer, ResourceRecord::try_from called again and again reads exactly the records of the set, each once, and stops behind them. (True of the code for all types but SSHFP.)", "quantifier": "every set of any number of records that can be represented, in any order, with equal ones too, every octets before and behind, every choice that binary_search has, every configuration", "why_tests_cant": "All sets of all sizes and record types; a test writes one set.", "anchors": ["src/resource_record_set.rs: ResourceRecordSet::to_bytes", "src/resource.rs: TryFrom<&mut Buffer> for ResourceRecord"]}
{"id": "C122", "title": "A record set is put in canonical order with few comparisons, whatever the compiler", "statement": "ResourceRecordSet::to_bytes writes the data of each record once and finds its place with binary_search of the standard library: a set of m records takes at most m (log2 m + 2) comparisons, and altogether, when the result has n octets, at most (log2 m + 5) n + m^2 steps and one for each octet of the name; the square, which comes from the vectors that are moved by Vec::insert, is reached. Both algorithms that the standard library has had do what is documented of them, and the result, panics included, does not depend on which one the crate was compiled with.", "quantifier": "every set of records of any size, both algorithms of binary_search, every configuration", "why_tests_cant": "A bound for all sizes, and sets up to 65536 records that reach it; a test measures one set with one compiler.", "anchors": ["src/resource_record_set.rs: ResourceRecordSet::to_bytes"]}
{"id": "C123", "title": "Memory reserved before reading is in proportion to the message", "statement": "Packet::try_from reserves memory for as many questions and records as the counts of the header say before it reads them. It reserves for no more than the message can hold. (True of messages that are accepted: reserved is exactly what is read, and twelve octets and five for each element are in the message. False otherwise: a header and one more octet make it reserve for any number of elements up to 65535 of one section; in general a message of n octets makes it reserve for at most n/5 + 65535.)", "quantifier": "every octets of any length, every counts, every configuration", "why_tests_cant": "All messages, also those that are refused: what is reserved before an error is not visible in the result that a test looks at.", "anchors": ["src/packet.rs: TryFrom<&mut DnsBuffer> for Packet"]}
{"id": "C124", "title": "A query comes back as the texts it was made of", "statement": "The example of the README for all names: when questions are made with FQDN::new(text), added to a packet, written with to_bytes or to_bytes_compressed and read with Packet::try_from, then to_string() of the names of the questions read, in order, are these texts, with the types and classes. (True of the code exactly for texts of pieces of 1 to 191 octets with single dots between them, or without any piece, and types that can be read; a final dot is not printed.)", "quantifier": "every number of questions below 65536, every texts, types and classes, new_query, new_reply and default, every configuration, octets that follow; for to_bytes_compressed every hash function without collisions and messages of at most 16384 octets", "why_tests_cant": "All texts; the example of the README has two.", "anchors": ["README.md: Example", "src/fqdn.rs: FQDN::new, Display for FQDN", "src/packet.rs: Packet::add_question, Packet::to_bytes, Packet::to_bytes_compressed, TryFrom<&[u8]>"]}
{"id": "C125", "title": "A call that panics leaves the packet as it was", "statement": "When a call on a packet panics and the program catches the panic, the packet is as it was before the call, so that it can be used on. (False of the code: add_question, add_answer, add_authority and add_additional push the element before they change the count, which panics in builds with overflow checks when it is 65535. The packet then has one element more than the header counts. True: nothing else is changed, after any number of such panics each count is the number of elements or 65535, and without overflow checks no call panics.)", "quantifier": "every packet and every call that changes it, every history of calls with any number of panics that were caught, both build profiles", "why_tests_cant": "All crash points of all histories; 65536 elements are needed for the first one.", "anchors": ["src/packet.rs: Packet::add_question, Packet::add_answer, Packet::add_authority, Packet::add_additional"]}
{"id": "C126", "title": "What is told with EDNS arrives", "statement": "The OPT record as RFC 6891 defines it (root, type 41, payload size in place of the class; extended response code, version, the flag DO and the other flags in place of the TTL; options) is read wherever it stands in a message: class() is the payload size, ttl() has the response code, version and flags, and each option is there. And such a record, made with these values, is written as RFC 6891 says. (Reading: true of the code but for payload sizes of 32768 and more, of which the upper bit is lost or taken as the mDNS flag, and of 1 to 4. Writing: true of to_bytes_compressed; to_bytes never writes it, and a query with an OPT record with at most one option that is written with to_bytes is always refused.)", "quantifier": "every payload size, response code, version, flags and list of options whose data have less than 65536 octets, every place in every message, every octets around it, every map of names written before, every configuration", "why_tests_cant": "All values and all places; a test has one OPT record.", "anchors": ["src/resource.rs: TryFrom<&mut Buffer> for ResourceRecord, From<u16> for RecordClass, ResourceRecord::to_bytes, ResourceRecord::to_bytes_compressed", "src/rdata/opt.rs: Opt", "src/packet.rs: Packet::to_bytes, TryFrom<&[u8]>"]}
{"id": "C127", "title": "Dynamic updates are read as what they say", "statement": "A server that reads an update message of RFC 2136 gets the zone, the prerequisites and the updates it contains: names, types, classes (also NONE and ANY), times to live and data, also of those without data (a set exists, does not exist or is to be deleted, a name is in use, is not in use or is to be deleted), and a client can write them. (False of the code: most records without data are refused, those of types whose data begin with a name make the reader panic, and those of the type ANY are neither read nor written.)", "quantifier": "every update message: all zones, all lists of prerequisites, updates and additional records, all types and data; all positions of records", "why_tests_cant": "All messages of RFC 2136; the outcome depends on the type of every record in it.", "anchors": ["src/resource.rs: ResourceRecord TryFrom<&mut DnsBuffer>, to_bytes, RecordClass, RecordType", "src/packet.rs: Packet TryFrom", "src/rdata/mod.rs: RecordData::from", "src/header.rs: OpCode"]}
{"id": "C128", "title": "Messages over TCP and zone transfers arrive", "statement": "Messages with their lengths before them (RFC 1035, section 4.2.2), read from a connection with extract_u16, extract_bytes and Packet::try_from, are read one after the other whether they are compressed or not; if only a part of the connection has arrived, exactly the messages that have arrived as a whole are read and the next call reports LengthViolation. The records of a zone, sent between two copies of its SOA record in the answers of any number of messages written with to_bytes or to_bytes_compressed (RFC 5936), arrive in their order, and a reader that stops at the second SOA record has read exactly these messages. (False for zones with SSHFP records, which arrive with other fingerprints and without an error, and for signed zones written with to_bytes, which are refused. Incremental transfers, RFC 1995, cannot be asked for, and messages that ask for one are refused.)", "quantifier": "all builds, all lists of messages, all octets before and behind them, all lengths at which the connection is cut, all zones, all ways to put their records into messages, all hash functions without collisions among the names", "why_tests_cant": "the places at which a connection can be cut and the ways to divide a zone into messages are without bound; tests read single messages", "anchors": ["src/buffer.rs: extract_u16, extract_bytes", "src/packet.rs: TryFrom<&[u8]> for Packet, to_bytes, to_bytes_compressed", "src/question.rs: QType", "src/rdata/soa.rs: Soa", "src/rdata/sshfp.rs: Sshfp"]}
{"id": "C129", "title": "Denial of existence can be decided by comparing names", "statement": "A program that compares the name it has asked for with the owners and next names of NSEC records (RFC 4034, section 4; RFC 4035, section 5.4) by the order of FQDN, learns rightly which names exist: a name below that of the zone that does not exist is denied by exactly one record of the zone, and one that exists by none. (True for records made in the order of FQDN, and for names directly below the same name; false for the records of other implementations: below every name there is a zone with an existing name that is denied, and missing names that are not denied. NSEC records with a type the build does not know are refused.)", "quantifier": "all zones, all names, all lists of types, all builds", "why_tests_cant": "the zones and names are without bound; a test compares a few names", "anchors": ["src/fqdn.rs: FQDN (Ord)", "src/rdata/dnssec.rs: Nsec", "src/buffer.rs: extract_fqdn"]}
{"id": "C130", "title": "A signature is used in the period it was made for", "statement": "A signature that Rrsig::from_dnskey makes for a set of records and a period is used by a validator that makes all checks of RFC 4035, section 5.3.1, beside Rrsig::verify, at every time of the period and at no other time.", "quantifier": "every set, key with its private key, period, time of validation and build", "why_tests_cant": "Every period and every time of validation; the times wrap around every 49 days (in milliseconds), and the validator compares them as serial numbers of 32 bits.", "anchors": ["src/rdata/dnssec.rs: Rrsig::from_dnskey, Rrsig::verify", "src/fqdn.rs: FQDN::label_count"]}
{"id": "C131", "title": "Names chosen by others are not taken for one another when a message is compressed", "statement": "If a server or resolver puts names that someone else has chosen into a packet and writes it with to_bytes_compressed(), the receiver reads the records as records of the names they were put in for: no choice of names makes the writer put one name in the place of another one, with the hash function the crate really uses.", "quantifier": "all packets whose names, chosen by anyone, are legal domain names; all features; the machines the crate is compiled for", "why_tests_cant": "the names that go wrong are one pair in 2^64: no test and no fuzzer finds them by chance, but the hash function has a fixed key, so that everyone can compute such a pair in a minute and use it against every process", "anchors": ["src/util.rs: hash_fqdn", "src/fqdn.rs: to_bytes_compressed", "src/packet.rs: to_bytes_compressed", "src/resource.rs: to_bytes_compressed"]}
{"id": "C132", "title": "Messages with transaction signatures are accepted exactly as they were signed", "statement": "A sender signs a packet as RFC 8945 says (MAC over the octets of the message without the TSIG record and the TSIG variables), puts the TSIG record at the end with add_additional, and writes it; a receiver reads it, takes the record off with take_additionals and set_additionals, restores the identification with set_id, writes the packet again and compares the MACs. Then the receiver accepts every message of such a sender, with the packet and key it was signed with; it accepts nothing that was not signed; and it can verify the messages of other software. (In part false of the code: with to_bytes a query with EDNS is refused by the reader, and a message that other software has written in another form is rejected although it is authentic. Who keeps the octets and cuts the TSIG record off with a DnsBuffer gets exactly the octets that were signed, with every sender.)", "quantifier": "all packets that can be written and read back, keys, algorithms, times, MAC functions, prior MACs; all received octets; all messages of other software with pointers anywhere behind the header; all builds", "why_tests_cant": "the MAC covers every octet of the message, so a single octet that is written differently after it was read makes the receiver reject; a test has one message", "anchors": ["src/rdata/tsig.rs: Tsig", "src/packet.rs: Packet::add_additional, take_additionals, set_additionals, set_id, to_bytes, to_bytes_compressed, TryFrom<&[u8]>", "src/resource.rs: ResourceRecord TryFrom<&mut DnsBuffer>", "src/buffer.rs: DnsBuffer"]}
{"id": "C133", "title": "Of two multicast hosts that want the same name exactly one keeps it", "statement": "Two hosts that probe for the same name at the same time (RFC 6762, section 8.2) send each other their records in the authority section of a query, read the query of the other one, and compare the records with their own: by class(), record_type() and data_raw(), sorted, octet by octet. Then exactly one of them finds that its records are the later ones and keeps the name (or both want the same records); and it is the one that the RFC says, so that it also agrees with hosts that use other software. (False of the code for SSHFP records: both keep the name.)", "quantifier": "all pairs of packets that can be written, with any number of records of any types, in any order; to_bytes and to_bytes_compressed with any hash functions without collisions; all builds", "why_tests_cant": "the outcome depends on every octet of the data of all records of both hosts, after they have been written and read; a test has two hosts with one address each", "anchors": ["src/resource.rs: ResourceRecord::class, record_type, data_raw", "src/packet.rs: Packet::to_bytes, to_bytes_compressed, TryFrom<&[u8]>", "src/rdata/sshfp.rs: Sshfp"]}
{"id": "C134", "title": "A resolver accepts the replies to its queries and no others", "statement": "A resolver that accepts a message as the reply to its query if try_from() reads it, id() is that of the query, query_response() is set and questions() are equal to the question of the query (RFC 1035, section 7.3, RFC 5452) accepts only messages that have the identification, the bit QR, and the question with the very same octets of the name. A message is accepted for one query only: whoever cannot see the query needs 2^(16 + k) messages to be sure that one is accepted, where k is the number of letters of the name in random case. And it accepts every reply of RFC 1035 with this identification and question, in particular those of a server that uses the crate. (False of the code: replies with a record of a type the crate does not know are not accepted.)", "quantifier": "all queries and all octet strings that may arrive; all lists of forged messages; all replies that conform to RFC 1035, with any records and any legal compression; all builds", "why_tests_cant": "whether some octets are taken for a reply depends on all of them; a test tries the expected reply, not all the others; that a number of guesses is necessary is a statement about all sets of messages", "anchors": ["src/packet.rs: Packet::id, query_response, questions, new_query, new_reply, TryFrom<&[u8]>", "src/question.rs: Question (PartialEq), TryFrom<&mut DnsBuffer>", "src/fqdn.rs: FQDN (PartialEq)"]}
{"id": "C135", "title": "A multicast responder sends what the other host does not know", "statement": "Hosts announce records in replies (new_reply, set_answers); another host hears them and later asks with the records it still knows in the answer section, with the bit for the cache cleared and with the TTL that is left (set_cache_flush, set_time_to_live); a responder that leaves out those of its records for which there is an answer with the same name(), record_type(), class() and data() and at least half of the TTL (RFC 6762, section 7.1) sends exactly the records that the other host has not heard, or of which less than half of the TTL is left. (False of the code for SSHFP records, and of a responder that compares records with ==.)", "quantifier": "all lists of announcements of any hosts with any records and TTLs, at any times; all records of the responder; to_bytes and to_bytes_compressed with any hash functions without collisions; all builds", "why_tests_cant": "it depends on equality of records of all types after they have been written and read twice, and on all combinations of TTLs and times; a test has one record and one time", "anchors": ["src/resource.rs: ResourceRecord::set_cache_flush, set_time_to_live, name, record_type, class, data, time_to_live, PartialEq", "src/packet.rs: Packet::set_answers, answers, to_bytes, to_bytes_compressed, TryFrom<&[u8]>", "src/rdata/sshfp.rs: Sshfp"]}
{"id": "C136", "title": "The cache of a multicast host has the records that are valid", "statement": "Hosts announce records in replies (new_reply, set_answers), again when they have changed, and with the TTL 0 when they are no longer valid; a listener reads the messages and, for every answer, removes from its cache the same record (name(), record_type(), class(), data()), and if cache_flush() is set all records of the same name, type and class (RFC 6762, sections 10.1 and 10.2). Then, after any number of messages, its cache has exactly the records that were announced and that no later announcement replaces; of unique records those of the last announcement; messages that cannot be read change nothing. (False of the code for SSHFP records, for announcements of a name in other case, and for a listener that is built without the feature mdns, which does not see the bit.)", "quantifier": "all histories of announcements of any hosts with any records and TTLs; each message with to_bytes or to_bytes_compressed with any hash function without collisions; octets that cannot be read in between; all builds", "why_tests_cant": "a history is without bound, and what is in the cache depends on all of it; a test has two announcements of one record", "anchors": ["src/resource.rs: ResourceRecord::cache_flush, set_cache_flush, name, record_type, class, data, time_to_live, TryFrom<&mut DnsBuffer>, to_bytes, to_bytes_compressed", "src/packet.rs: Packet::set_answers, answers, TryFrom<&[u8]>", "src/fqdn.rs: FQDN (PartialEq)"]}
{"id": "C137", "title": "The attributes of a service arrive", "statement": "A service announces its attributes, keys with or without a value, as the strings of a TXT record (RFC 6763, section 6: \"key\" or \"key=value\", where the value is any octets) made with Txt::new; a client that reads the message, with to_bytes or to_bytes_compressed, splits each string at the first \"=\" and compares keys without regard to case, finds for every key exactly what the service has said, and nothing for other keys. The same with the TXT records of other software. (False of the code for values that are not UTF-8: they are read as other values, and different values become equal.)", "quantifier": "all lists of attributes with legal keys that fit into a record, with any values; all owner names, TTLs and places in a message; all hash functions; all builds", "why_tests_cant": "there are as many values as octet strings; a test has a few texts", "anchors": ["src/rdata/txt.rs: Txt, Txt::new, TryFrom<&mut DnsBuffer>, to_bytes", "src/resource.rs: ResourceRecord TryFrom<&mut DnsBuffer>, to_bytes, to_bytes_compressed", "src/packet.rs: Packet TryFrom<&[u8]>"]}
{"id": "C138", "title": "The word size of the machine does not change what is read", "statement": "On machines with 32-bit and 64-bit words, every byte string that fits in the memory of the machine is parsed to the same packet or refused with the same error, and every record and every data of a record at every position likewise, in builds with and without overflow checks; also where the code computes a length below zero while reading SVCB parameters. The calls of the buffer give the result of unbounded arithmetic for every length up to half of the address space. Beyond that limit, and on machines with 16-bit words, they need not.", "quantifier": "all byte strings shorter than half of the address space, all positions, all record types, all builds, word sizes 32 and 64, all lengths up to half of the address space", "why_tests_cant": "A test runs on one machine, and the numbers that wrap differ between machines.", "anchors": ["src/rdata/svcb.rs:203-233 parse_param", "src/buffer.rs:20-79 sub_buffer, advance, peek_bytes, extract_bytes", "src/packet.rs:335-380 Packet::try_from"]}
{"id": "C139", "title": "Default values are the empty values and arrive", "statement": "The default name is the root. The default packet is written, with and without compression, as twelve octets 0, and every message that begins with them is read as the default packet. A record of any owner, class and TTL with default data is written, and the record is read back from the octets.", "quantifier": "all builds, all owner names, classes and TTLs, all places in a message, all types of data with a default value, all numbers of such records in a packet, all hash functions without collisions", "why_tests_cant": "A test has one owner and one place in a message; the default values are derived, so that no code shows what they are.", "anchors": ["derive(Default) at src/fqdn.rs:17, src/header.rs:32, src/packet.rs:26 and in src/rdata", "src/rdata/caa.rs:40-95", "src/rdata/opt.rs:26-80", "src/rdata/csync.rs:38-180"]}
{"id": "C140", "title": "A client that follows the aliases of an answer finds the records the answer gives", "statement": "A client reads the answer to its question, goes from the name it asked for to the name for which it is an alias (CNAME), and on, comparing names with ==, and takes the records of the last name. Whatever it has received, it comes to an end and takes no record that the answer does not give. If the answer is as RFC 1034 demands, it finds all records the answer gives, however long the chain is and in whatever order the records are.", "quantifier": "all octets received, all names and types asked for, all packets and numbers of aliases, all hash functions without collisions", "why_tests_cant": "The chain can have any length and order, and names compare equal or not depending on how they are spelled.", "anchors": ["src/rdata/cname.rs Cname", "src/fqdn.rs:17 FQDN (derived ==)", "src/packet.rs:335-380 Packet::try_from", "src/resource.rs name(), data()"]}
{"id": "C141", "title": "Writing without compression takes time in proportion to what is read and written", "statement": "Packet::to_bytes writes every packet in at most a constant times the octets of the result, the labels of its names and the elements of its lists, where an octet written or copied and a round of a loop, also of the loops that compute sizes, is a step. What has been read from a message of n octets is written in at most twelve steps for each octet of the result and forty for each octet of the message; the result has at most a constant times n squared octets, and there are messages that reach this growth.", "quantifier": "every packet, every message that is read, every configuration of the reader and of the writer", "why_tests_cant": "All packets and all messages: a test measures some of them, and the worst case is not found by trying.", "anchors": ["src/packet.rs: Packet::to_bytes", "src/fqdn.rs: FQDN::to_bytes, FQDN::byte_size", "src/resource.rs: ResourceRecord::to_bytes", "src/question.rs: Question::to_bytes", "src/rdata/*.rs: to_bytes, byte_size"]}
{"id": "C142", "title": "A server that takes records off a reply until it fits sends as many as have room", "statement": "A server calls to_bytes_compressed; while the result is longer than the limit of the transport, it takes the last record off with set_additionals, set_authorities or set_answers, and it calls set_truncation(true) if a record is missing. If the questions have room, the message it sends has at most limit octets, the questions and the first of the records in their sections, and no message with these questions and more of the records has room. The client reads what was sent, and if the packet was not marked as truncated before, truncation() tells it exactly whether it has everything.", "quantifier": "all packets, limits up to 16384 octets, hash functions without collisions, builds", "why_tests_cant": "Whether one record more has room depends on the names all records before it have left for compression; a test has some packets and limits.", "anchors": ["src/packet.rs:108-111 set_truncation", "src/packet.rs:198-239 set_answers, set_authorities, set_additionals", "src/packet.rs:242-261 to_bytes_compressed", "src/packet.rs:335-380 Packet::try_from"]}
