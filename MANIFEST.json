{
 "claims": [
  {
   "property": "C01",
   "status": "partial",
   "theorems": [
    "Dns.C01_position_invariant_partial",
    "Dns.C01_reads",
    "Dns.C01_remaining",
    "Dns.C01_sub_buffer_exact",
    "Dns.C01_sub_buffer_counterexample"
   ],
   "note": "Proved for all histories of calls except sub_buffer(n) in a build without overflow checks when position+n exceeds usize::MAX; C01_sub_buffer_counterexample shows the invariant fails there."
  },
  {
   "property": "C02",
   "status": "partial",
   "theorems": [
    "Dns.C02_extract_u16_as",
    "Dns.C02_usize_agrees",
    "Dns.C02_extract_bytes_partial",
    "Dns.C02_advance_partial",
    "Dns.C02_extract_ints",
    "Dns.C02_huge_exact",
    "Dns.C02_advance_counterexample"
   ],
   "note": "Proved for every request with position+n below 2^64 (integer reads and extract_u16_as: no restriction). advance(usize::MAX) in a release build returns Ok and moves backwards: C02_advance_counterexample."
  },
  {
   "property": "C03",
   "status": "proved",
   "theorems": [
    "Dns.C03_peek_is_pure"
   ],
   "note": ""
  },
  {
   "property": "C04",
   "status": "proved",
   "theorems": [
    "Dns.C04_read_value",
    "Dns.C04_write_read"
   ],
   "note": ""
  },
  {
   "property": "C05",
   "status": "proved",
   "theorems": [
    "Dns.C05_sub_buffer",
    "Dns.C05_contents",
    "Dns.C05_reads",
    "Dns.C05_record_data_confined"
   ],
   "note": ""
  },
  {
   "property": "C06",
   "status": "proved",
   "theorems": [
    "Dns.C06_character_string",
    "Dns.C06_character_string_round_trip",
    "Dns.C06_character_string_fails",
    "Dns.C06_string",
    "Dns.C06_string_refused"
   ],
   "note": ""
  },
  {
   "property": "C07",
   "status": "proved",
   "theorems": [
    "Dns.C07_decoded_name_sound",
    "Dns.C07_decoded_name_rfc1035",
    "Dns.C07_name_unique"
   ],
   "note": "Length octets 64..191 (reserved by the RFC, see C58) are read as lengths; C07_decoded_name_rfc1035 gives the RFC relation for labels up to 63 octets."
  },
  {
   "property": "C08",
   "status": "proved",
   "theorems": [
    "Dns.C08_legal_name_decoded"
   ],
   "note": ""
  },
  {
   "property": "C09",
   "status": "partial",
   "theorems": [
    "Dns.C09_terminates_partial",
    "Dns.C09_terminates_without_pointers_partial",
    "Dns.C09_hang_is_endless",
    "Dns.C09_counterexample"
   ],
   "note": "False as stated (C09_counterexample: self pointer; label followed by a pointer to it). Proved: the call runs for ever exactly when the reader follows a cycle; without pointer octets it always ends."
  },
  {
   "property": "C10",
   "status": "partial",
   "theorems": [
    "Dns.C10_no_panic_partial",
    "Dns.C10_counterexample"
   ],
   "note": "False as stated (C10_counterexample). Proved: it panics exactly when the reader gets to the end of the data or to a label one octet too long."
  },
  {
   "property": "C11",
   "status": "proved",
   "theorems": [
    "Dns.C11_consumes_in_place"
   ],
   "note": ""
  },
  {
   "property": "C12",
   "status": "proved",
   "theorems": [
    "Dns.C12_forward_pointer_refused",
    "Dns.C12_accepted_jumps_back"
   ],
   "note": ""
  },
  {
   "property": "C13",
   "status": "proved",
   "theorems": [
    "Dns.C13_name_exact",
    "Dns.C13_name_round_trip",
    "Dns.C13_name_octets",
    "Dns.C13_bound_sharp"
   ],
   "note": "Exact: a name is read back if and only if each label has 1 to 191 octets (C13_name_exact)."
  },
  {
   "property": "C14",
   "status": "proved",
   "theorems": [
    "Dns.C14_byte_size"
   ],
   "note": ""
  },
  {
   "property": "C15",
   "status": "partial",
   "theorems": [
    "Dns.C15_append_label_exact",
    "Dns.C15_append_label_display",
    "Dns.C15_from_labels_exact",
    "Dns.C15_new_labels",
    "Dns.C15_every_string",
    "Dns.C15_new_no_dots",
    "Dns.C15_display",
    "Dns.C15_new_display",
    "Dns.C15_new_idempotent",
    "Dns.C15_display_injective",
    "Dns.C15_new_utf8",
    "Dns.C15_display_utf8_partial",
    "Dns.C15_display_utf8_counterexample",
    "Dns.C15_display_utf8_exact"
   ],
   "note": "Display is UTF-8 if and only if the labels are (C15_display_utf8_exact); labels read from the wire need not be (C15_display_utf8_counterexample). Everything else is proved for every string and name; append_label and From<&[&str]> agree with new exactly if the labels are not empty and have no dots."
  },
  {
   "property": "C16",
   "status": "partial",
   "theorems": [
    "Dns.C16_is_root",
    "Dns.C16_is_link_local",
    "Dns.C16_label_count_partial",
    "Dns.C16_label_count_exact",
    "Dns.C16_label_count_counterexample",
    "Dns.C16_is_empty_counterexample"
   ],
   "note": "label_count is right if and only if there are less than 256 labels (C16_label_count_exact), and is_empty is never true (counterexample theorems); is_root and is_link_local are proved."
  },
  {
   "property": "C17",
   "status": "proved",
   "theorems": [
    "Dns.C17_compressed_names_decode"
   ],
   "note": ""
  },
  {
   "property": "C18",
   "status": "proved",
   "theorems": [
    "Dns.C18_packet",
    "Dns.C18_pointers_backward"
   ],
   "note": ""
  },
  {
   "property": "C19",
   "status": "proved",
   "theorems": [
    "Dns.C19_compression_never_longer",
    "Dns.C19_empty_label"
   ],
   "note": "For every packet without empty labels and every hash function; C19_empty_label shows why the restriction is in the statement."
  },
  {
   "property": "C20",
   "status": "proved",
   "theorems": [
    "Dns.C20_byte_size",
    "Dns.C20_header_layout",
    "Dns.C20_header_round_trip",
    "Dns.C20_header_parse_write",
    "Dns.C20_every_header_parses",
    "Dns.C20_compressed"
   ],
   "note": ""
  },
  {
   "property": "C21",
   "status": "proved",
   "theorems": [
    "Dns.C21_packet_setters",
    "Dns.C21_set_recursion_desired",
    "Dns.C21_set_truncation",
    "Dns.C21_set_authoritative_answer",
    "Dns.C21_set_opcode",
    "Dns.C21_set_query_response",
    "Dns.C21_set_response_code",
    "Dns.C21_set_recursion_available",
    "Dns.C21_setters_independent",
    "Dns.C21_constructors"
   ],
   "note": ""
  },
  {
   "property": "C22",
   "status": "proved",
   "theorems": [
    "Dns.C22_query_has_no_server_fields"
   ],
   "note": ""
  },
  {
   "property": "C23",
   "status": "partial",
   "theorems": [
    "Dns.C23_response_code_partial",
    "Dns.C23_response_code_built",
    "Dns.C23_counterexample"
   ],
   "note": "False for parsed headers with RCODE 11..15 (C23_counterexample); proved for 0..10 and for all headers built with the API."
  },
  {
   "property": "C24",
   "status": "proved",
   "theorems": [
    "Dns.C24_opcode_preserved"
   ],
   "note": ""
  },
  {
   "property": "C25",
   "status": "partial",
   "theorems": [
    "Dns.C25_counts_partial",
    "Dns.C25_counts_mod",
    "Dns.C25_careless",
    "Dns.C25_take_authorities_counterexample",
    "Dns.C25_with_questions_counterexample",
    "Dns.C25_mut_counterexamples",
    "Dns.C25_overflow_counterexample"
   ],
   "note": "Counts equal the section lengths (modulo 65536, exactly when sections stay below) after every history of the section calls that avoids take_authorities, with_questions and the *_mut accessors; with those the property is false (counterexamples), take_authorities resets the wrong counter and with_questions sets none."
  },
  {
   "property": "C26",
   "status": "proved",
   "theorems": [
    "Dns.C26_counts_written"
   ],
   "note": ""
  },
  {
   "property": "C27",
   "status": "partial",
   "theorems": [
    "Dns.C27_coincidence",
    "Dns.C27_apart_exact",
    "Dns.C27_record_exact",
    "Dns.C27_packet_exact",
    "Dns.C27_packet_round_trip_partial",
    "Dns.C27_counts",
    "Dns.C27_counts_only",
    "Dns.C27_counterexamples",
    "Dns.C27_any_record_exact",
    "Dns.C27_any_packet_exact"
   ],
   "note": "False for SSHFP, OPT, RRSIG, CAA with a tag and SVCB with parameters (C27_counterexamples); proved for all packets of the other types, any number of records, any content that fits the fields, labels up to 191 octets. C27_record_exact shows that exactly these records are read back; C27_packet_exact and C27_apart_exact the same for packets (in which no SVCB record with parameters is followed by a record of the root: such a packet can be read back by coincidence, C27_coincidence). C27_any_record_exact and C27_any_packet_exact assume nothing about the values: of all records and packets written with less than 65536 octets, exactly those that can be represented (RecordOk, PacketOk), without the types named, are read back; texts of more than 255 octets, classes that are not canonical, sets out of order and the like are never read back by accident."
  },
  {
   "property": "C28",
   "status": "partial",
   "theorems": [
    "Dns.C28_offset_counterexample",
    "Dns.C28_packet_exact",
    "Dns.C28_compressed_round_trip_partial",
    "Dns.C28_counterexample",
    "Dns.C28_any_packet_exact"
   ],
   "note": "False for SSHFP (C28_counterexample), for hash collisions (C83_counterexample, for every hash function) and for messages of more than 16384 octets (C28_offset_counterexample); proved for all other packets. C28_packet_exact: read back if and only if there is no SSHFP record. C28_any_packet_exact assumes nothing about the values: of all packets whose compressed form has at most 16384 octets (and no hash collisions among their names), exactly those that can be represented, with correct counts and without SSHFP records, are read back."
  },
  {
   "property": "C29",
   "status": "proved",
   "theorems": [
    "Dns.C29_parsed_counts"
   ],
   "note": ""
  },
  {
   "property": "C30",
   "status": "proved",
   "theorems": [
    "Dns.C30_name_extend",
    "Dns.C30_question_extend",
    "Dns.C30_record_extend",
    "Dns.C30_packet_extend",
    "Dns.C30_try_from_extend",
    "Dns.C30_name_truncated",
    "Dns.C30_question_truncated",
    "Dns.C30_record_truncated",
    "Dns.C30_packet_truncated",
    "Dns.C30_written_truncated"
   ],
   "note": ""
  },
  {
   "property": "C31",
   "status": "partial",
   "theorems": [
    "Dns.C31_no_panic_partial",
    "Dns.C31_panics",
    "Dns.C31_release_partial",
    "Dns.C31_counterexample"
   ],
   "note": "False (C31_counterexample: truncated names, bitmaps of window 255, odd SVCB lengths). Proved: the messages that panic, in every build, are characterised exactly (iff), with the kind of panic."
  },
  {
   "property": "C32",
   "status": "partial",
   "theorems": [
    "Dns.C32_terminates_partial",
    "Dns.C32_terminates_without_pointers_partial",
    "Dns.C32_counterexample"
   ],
   "note": "False (C32_counterexample: pointer cycles). Proved for every message: Packet::try_from returns exactly when no name it gets to leads into a pointer cycle."
  },
  {
   "property": "C33",
   "status": "partial",
   "theorems": [
    "Dns.C33_question_size",
    "Dns.C33_record_size_partial",
    "Dns.C33_packet_size_partial",
    "Dns.C33_counterexample"
   ],
   "note": "False for OPT, RRSIG, CAA, SVCB (C33_counterexample); the exact error is proved for every packet. Questions: proved."
  },
  {
   "property": "C34",
   "status": "proved",
   "theorems": [
    "Dns.C34_record_extent"
   ],
   "note": ""
  },
  {
   "property": "C35",
   "status": "partial",
   "theorems": [
    "Dns.C35_rdlength_partial",
    "Dns.C35_rdlength_compressed",
    "Dns.C35_counterexample",
    "Dns.C35_exact"
   ],
   "note": "Compressed form: proved for every record. Uncompressed form: false for OPT, RRSIG, CAA, SVCB (C35_counterexample), proved for all others; C35_exact: the field is right if and only if the data are no OPT and RRSIG data, no CAA data with a tag and no SVCB data with parameters."
  },
  {
   "property": "C36",
   "status": "partial",
   "theorems": [
    "Dns.C36_rdata_size_partial",
    "Dns.C36_right",
    "Dns.C36_written",
    "Dns.C36_counterexamples",
    "Dns.C36_exact"
   ],
   "note": "False for OPT, RRSIG, CAA, SVCB (C36_counterexamples); the exact difference is proved for every value of every type, and C36_exact says for which values the size is right."
  },
  {
   "property": "C37",
   "status": "partial",
   "theorems": [
    "Dns.C37_parse_complete_partial",
    "Dns.C37_parse_sound_partial",
    "Dns.C37_sshfp_counterexample",
    "Dns.C37_ipseckey_counterexample",
    "Dns.C37_apl_counterexample",
    "Dns.C37_sshfp_read",
    "Dns.C37_ipseckey_read",
    "Dns.C37_apl_read"
   ],
   "note": "Completeness for every RDATA type at every offset with compressed names, soundness for all but SSHFP/APL/SVCB/IPSECKEY-none; false for SSHFP, IPSECKEY without gateway and odd-length APL addresses (counterexamples). C37_sshfp_read, C37_ipseckey_read and C37_apl_read say exactly what is read for these; SVCB see C45 to C47 and C78."
  },
  {
   "property": "C38",
   "status": "partial",
   "theorems": [
    "Dns.C38_write_partial",
    "Dns.C38_ipseckey_counterexample",
    "Dns.C38_counterexamples",
    "Dns.C38_write_exact"
   ],
   "note": "False for IPSECKEY without gateway, APL addresses with trailing zero octets, and type bitmaps without a type below 256 (counterexamples). C38_write_exact: a value of any type that fits the fields is written as the RFC prescribes if and only if it is none of these."
  },
  {
   "property": "C39",
   "status": "partial",
   "theorems": [
    "Dns.C39_type_numbers",
    "Dns.C39_types_distinct",
    "Dns.C39_qtypes_distinct",
    "Dns.C39_qclasses_distinct",
    "Dns.C39_type_round_trip_partial",
    "Dns.C39_qtype_round_trip_partial",
    "Dns.C39_qclass_round_trip",
    "Dns.C39_type_sound",
    "Dns.C39_type_error",
    "Dns.C39_qtype_error",
    "Dns.C39_qclass_error",
    "Dns.C39_counterexample",
    "Dns.C39_written_alone"
   ],
   "note": "Numbers as registered, distinct, read back, errors carry the number; false for CDS/CDNSKEY, whose numbers 59/60 are not read (counterexample)."
  },
  {
   "property": "C40",
   "status": "partial",
   "theorems": [
    "Dns.C40_class_round_trip_partial",
    "Dns.C40_classes",
    "Dns.C40_top_bit",
    "Dns.C40_class_number",
    "Dns.C40_counterexamples",
    "Dns.C40_written_alone",
    "Dns.C40_alone_round_trip"
   ],
   "note": "Exact characterisation (iff); false for UdpPayloadSize 1..4 and from 32768 on (counterexample)."
  },
  {
   "property": "C41",
   "status": "proved",
   "theorems": [
    "Dns.C41_question_flag",
    "Dns.C41_record_flag",
    "Dns.C41_question_written",
    "Dns.C41_record_written",
    "Dns.C41_question_read",
    "Dns.C41_record_read",
    "Dns.C41_record_flag_any",
    "Dns.C41_question_bit_ignored"
   ],
   "note": "Flag round trip for questions and for records of every type (class with one name and top bit free, see C40; labels of 1 to 191 octets), class field bits written, class and flag read, bit ignored without mdns."
  },
  {
   "property": "C42",
   "status": "proved",
   "theorems": [
    "Dns.C42_unknown_type",
    "Dns.C42_unknown_qtype",
    "Dns.C42_type_as_on_wire",
    "Dns.C42_packet_unknown_type"
   ],
   "note": "At record, question and message level; message level: in any of the three sections after any number of good records."
  },
  {
   "property": "C43",
   "status": "proved",
   "theorems": [
    "Dns.C43_written_bits",
    "Dns.C43_csync_bits",
    "Dns.C43_nsec_bits",
    "Dns.C43_read_complete"
   ],
   "note": "Writer and reader, both record types; reader also complete."
  },
  {
   "property": "C44",
   "status": "proved",
   "theorems": [
    "Dns.C44_strings_utf8",
    "Dns.C44_txt_unchanged",
    "Dns.C44_caa_unchanged",
    "Dns.C44_naptr_unchanged"
   ],
   "note": "All String fields of RDATA (TXT, CAA tag, NAPTR regexp); UTF-8 defined by the scalar-value encoding of the Lean prelude."
  },
  {
   "property": "C45",
   "status": "proved",
   "theorems": [
    "Dns.C45_insertions",
    "Dns.C45_parsed",
    "Dns.C45_written"
   ],
   "note": "Every history of insertions, every parsed record, order of the written parameters."
  },
  {
   "property": "C46",
   "status": "partial",
   "theorems": [
    "Dns.C46_read_partial",
    "Dns.C46_counterexample",
    "Dns.C46_written",
    "Dns.C46_written_counterexample"
   ],
   "note": "Exact frame for mandatory, alpn, ech and private parameters, and exact consumption for the others, whose length field is ignored (counterexample); written length exact up to 65535 octets without, 65531 with overflow checks (panic above, counterexample)."
  },
  {
   "property": "C47",
   "status": "proved",
   "theorems": [
    "Dns.C47_parsed",
    "Dns.C47_read_complete",
    "Dns.C47_any_order"
   ],
   "note": "HashMap modelled as association list with distinct keys in any order."
  },
  {
   "property": "C48",
   "status": "proved",
   "theorems": [
    "Dns.C48_order_independent",
    "Dns.C48_sorted",
    "Dns.C48_written",
    "Dns.C48_reorder",
    "Dns.C48_reorder_returns",
    "Dns.C48_reorder_bytes"
   ],
   "note": "binary_search is a parameter constrained by its documented contract (Search.Valid); the octet format against SortedRecords for owner names without empty labels."
  },
  {
   "property": "C49",
   "status": "partial",
   "theorems": [
    "Dns.C49_set_size_partial",
    "Dns.C49_right",
    "Dns.C49_counterexample"
   ],
   "note": "Exact difference proved; right for all types except OPT, RRSIG, CAA and SVCB, where it is false (counterexample)."
  },
  {
   "property": "C50",
   "status": "partial",
   "theorems": [
    "Dns.C50_key_tag_partial",
    "Dns.C50_counterexample",
    "Dns.C50_key_tag_exact",
    "Dns.C50_overflow_counterexample"
   ],
   "note": "False for RSA/MD5 (C50_counterexample). For all other algorithms: right for keys up to 131066 octets (a record holds at most 65531); C50_key_tag_exact says what happens for keys of any length: right without overflow checks, with them a panic if the sum does not fit 32 bits (C50_overflow_counterexample)."
  },
  {
   "property": "C51",
   "status": "partial",
   "theorems": [
    "Dns.C51_same_octets",
    "Dns.C51_fresh_signature_partial",
    "Dns.C51_rsa_sha2_never",
    "Dns.C51_rsa_counterexample",
    "Dns.C51_dsa_counterexample"
   ],
   "note": "Same octets for all algorithms; a fresh signature verifies for all algorithms but RSA/SHA-256, RSA/SHA-512 (never verifies, proved) and DSA (counterexample). The cryptographic libraries are oracles."
  },
  {
   "property": "C52",
   "status": "proved",
   "theorems": [
    "Dns.C52_ds"
   ],
   "note": "Digest functions are parameters."
  },
  {
   "property": "C53",
   "status": "proved",
   "theorems": [
    "Dns.C53_mismatch",
    "Dns.C53_unimplemented",
    "Dns.C53_accepted"
   ],
   "note": "For every oracle; acceptance is equivalent to acceptance by the library, under the key encoded in the DNSKEY record, of exactly the RFC 4034 octets."
  },
  {
   "property": "C54",
   "status": "partial",
   "theorems": [
    "Dns.C54_inception_exact",
    "Dns.C54_whole_seconds",
    "Dns.C54_times_partial",
    "Dns.C54_before_epoch",
    "Dns.C54_counterexample"
   ],
   "note": "False: the fields are in milliseconds (counterexample); the partial theorem says exactly what they are, and C54_inception_exact and C54_whole_seconds for which times they are right."
  },
  {
   "property": "C55",
   "status": "proved",
   "theorems": [
    "Dns.C55_lexicographic",
    "Dns.C55_eq",
    "Dns.C55_swap",
    "Dns.C55_trans"
   ],
   "note": ""
  },
  {
   "property": "C56",
   "status": "partial",
   "theorems": [
    "Dns.C56_apart_exact",
    "Dns.C56_stable_exact",
    "Dns.C56_stable_compressed_exact",
    "Dns.C56_stable_partial",
    "Dns.C56_stable_compressed_partial",
    "Dns.C56_counterexamples"
   ],
   "note": "False for SSHFP, OPT, RRSIG, CAA, SVCB records (C56_counterexamples). Proved for every message that is read without them (uncompressed), and without SSHFP (compressed), provided the records do not become too long; C56_stable_exact, C56_apart_exact and C56_stable_compressed_exact show that exactly these messages are stable (uncompressed: unless an SVCB record with parameters is followed by a record of the root, see C27_coincidence)."
  },
  {
   "property": "C57",
   "status": "proved",
   "theorems": [
    "Dns.C57_name_bounded",
    "Dns.C57_label_bounded"
   ],
   "note": ""
  },
  {
   "property": "C58",
   "status": "partial",
   "theorems": [
    "Dns.C58_length_octets_partial",
    "Dns.C58_accepted_partial",
    "Dns.C58_no_bound",
    "Dns.C58_counterexample",
    "Dns.C58_no_label_from_pointer_partial"
   ],
   "note": "False (C58_counterexample, C58_no_bound): 64-octet labels and names of any length are accepted. Proved exactly what is accepted: an octet 1-191 is a label length (C58_length_octets_partial, iff), 192-255 always a pointer (C58_no_label_from_pointer_partial), and a name written out is accepted iff all labels have 1-191 octets, whatever its total length (C58_accepted_partial)."
  },
  {
   "property": "C59",
   "status": "proved",
   "theorems": [
    "Dns.C59_byte_size_compressed",
    "Dns.C59_compressed_le_plain"
   ],
   "note": ""
  },
  {
   "property": "C60",
   "status": "proved",
   "theorems": [
    "Dns.C60_octets_determine",
    "Dns.C60_signature_binds"
   ],
   "note": "The octets determine the fields, the records, and the owner, type, class and TTL of a non-empty set (C60_octets_determine); hence two RRSIGs that verify with the same binding signature agree (C60_signature_binds)."
  },
  {
   "property": "C61",
   "status": "partial",
   "theorems": [
    "Dns.C61_numbers_partial",
    "Dns.C61_numbers_read",
    "Dns.C61_algorithm_counterexamples"
   ],
   "note": "All enumerations but Algorithm (SSHFP Ed448 is 5 not 6; IPSECKEY/HIP RSA and DSA exchanged) and SHA-512 digest (unassigned) agree with the registries; counterexample theorem states exactly which values differ."
  },
  {
   "property": "C62",
   "status": "partial",
   "theorems": [
    "Dns.C62_offset_counterexample",
    "Dns.C62_short_messages_partial",
    "Dns.C62_pointer_exact"
   ],
   "note": "False for messages of more than 16384 octets (C62_offset_counterexample); proved below that size. Exactly (C62_pointer_exact): a pointer designates the offset of the first occurrence modulo 16384, so it is right if and only if that offset is below 16384."
  },
  {
   "property": "C63",
   "status": "partial",
   "theorems": [
    "Dns.C63_compression_allowed",
    "Dns.C63_not_allowed_not_compressed",
    "Dns.C63_allowed_compressed",
    "Dns.C63_uncompressed_partial",
    "Dns.C63_counterexamples"
   ],
   "note": "All types but SRV, NAPTR and NSEC, for which it is false (counterexamples for every hash function). compression_allowed() is true for exactly these, TXT and the types that may be compressed, and the writer follows it (C63_compression_allowed, C63_not_allowed_not_compressed, C63_allowed_compressed)."
  },
  {
   "property": "C64",
   "status": "proved",
   "theorems": [
    "Dns.C64_question",
    "Dns.C64_record",
    "Dns.C64_rdata",
    "Dns.C64_nsec",
    "Dns.C64_rdata_map",
    "Dns.C64_map_counterexample",
    "Dns.C64_packet"
   ],
   "note": "Sizes proved equal to the written lengths. The map that byte_size_compressed leaves behind has other offsets than the one to_bytes_compressed leaves (C64_map_counterexample)."
  },
  {
   "property": "C65",
   "status": "partial",
   "theorems": [
    "Dns.C65_record_types",
    "Dns.C65_parsed",
    "Dns.C65_record_setters",
    "Dns.C65_question_setters",
    "Dns.C65_agreement_partial",
    "Dns.C65_counterexample",
    "Dns.C65_data_raw"
   ],
   "note": "The 35 data types agree with their record types, and records that are read do. False for records made with new, set_record_type, set_data, data_mut (C65_counterexample)."
  },
  {
   "property": "C66",
   "status": "partial",
   "theorems": [
    "Dns.C66_received",
    "Dns.C66_to_bytes",
    "Dns.C66_to_bytes_compressed",
    "Dns.C66_written_partial",
    "Dns.C66_release",
    "Dns.C66_counterexample"
   ],
   "note": "Exact: in release builds every packet is written, in builds with overflow checks all but those with SVCB parameter values of 65532 to 65535 octets, for which to_bytes panics (C66_counterexample). Such a parameter cannot be received: every packet that was read is written by both writers, in every build (C66_received)."
  },
  {
   "property": "C67",
   "status": "partial",
   "theorems": [
    "Dns.C67_distinct_partial",
    "Dns.C67_option_counterexample",
    "Dns.C67_distinct_compressed_partial",
    "Dns.C67_collision_counterexample",
    "Dns.C67_offset_counterexample",
    "Dns.C67_size_counterexample",
    "Dns.C67_different_partial",
    "Dns.C67_different_compressed_partial",
    "Dns.C67_counterexample"
   ],
   "note": "False in general: C67_option_counterexample (an OPT option without data), C67_size_counterexample (an SVCB record whose computed size exceeds 65535), C67_counterexample (HIP with an empty list of servers); with compression C67_collision_counterexample (for every hash function) and C67_offset_counterexample (more than 16384 octets). Proved for to_bytes (C67_distinct_partial) for all packets that can be represented on the wire except those with the first two, and for to_bytes_compressed (C67_distinct_compressed_partial) with records of all types, up to 16384 octets and without collisions."
  },
  {
   "property": "C68",
   "status": "proved",
   "theorems": [
    "Dns.C68_sections",
    "Dns.C68_header",
    "Dns.C68_take",
    "Dns.C68_returns"
   ],
   "note": ""
  },
  {
   "property": "C69",
   "status": "proved",
   "theorems": [
    "Dns.C69_history",
    "Dns.C69_wire",
    "Dns.C69_new",
    "Dns.C69_read"
   ],
   "note": "Every history of setter calls from new or read flags; the written bits are 1 for immediate plus 2 for soaminimum."
  },
  {
   "property": "C70",
   "status": "proved",
   "theorems": [
    "Dns.C70_hex",
    "Dns.C70_injective"
   ],
   "note": "Two digits per octet, reading them back gives the digest, injective."
  },
  {
   "property": "C71",
   "status": "partial",
   "theorems": [
    "Dns.C71_dhcid_partial",
    "Dns.C71_counterexample",
    "Dns.C71_dhcid_exact"
   ],
   "note": "False in general: Dhcid::new does not lower the case, so spellings of one name give different digests (witness). C71_dhcid_exact: right if and only if the name has no upper case letters, unless the hash has a collision."
  },
  {
   "property": "C72",
   "status": "partial",
   "theorems": [
    "Dns.C72_fields_partial",
    "Dns.C72_counterexample",
    "Dns.C72_wrap_counterexample",
    "Dns.C72_labels_exact"
   ],
   "note": "All fields proved for names without asterisk label and with fewer than 256 labels, signer = owner. False: a wildcard label is counted, and 256 labels wrap to 0 (witnesses). C72_labels_exact: the number of labels is right if and only if neither is the case."
  },
  {
   "property": "C73",
   "status": "partial",
   "theorems": [
    "Dns.C73_canonical_partial",
    "Dns.C73_case_counterexample",
    "Dns.C73_duplicate_counterexample",
    "Dns.C73_canonical_exact",
    "Dns.C73_ds_partial",
    "Dns.C73_ds_counterexample",
    "Dns.C73_ds_exact"
   ],
   "note": "False: names are not lowered, duplicates are kept, DS digests depend on the spelling (witnesses). C73_canonical_exact and C73_ds_exact: right if and only if there are no upper case letters and no duplicates."
  },
  {
   "property": "C74",
   "status": "partial",
   "theorems": [
    "Dns.C74_octets",
    "Dns.C74_equality_partial",
    "Dns.C74_counterexample",
    "Dns.C74_equality_exact"
   ],
   "note": "Equality is sound, and complete for names without upper case letters. False otherwise: equality is case sensitive (witness). C74_equality_exact: a name equals all its spellings if and only if it has no letters."
  },
  {
   "property": "C75",
   "status": "partial",
   "theorems": [
    "Dns.C75_keys_partial",
    "Dns.C75_params_partial",
    "Dns.C75_counterexample"
   ],
   "note": "Proved for keys that can be read and for the parameters of one record. False for keys made by hand and for parameters with the same key and different values (witnesses)."
  },
  {
   "property": "C76",
   "status": "partial",
   "theorems": [
    "Dns.C76_siblings_partial",
    "Dns.C76_counterexample",
    "Dns.C76_exact",
    "Dns.C76_wrong"
   ],
   "note": "Proved for names directly below the same parent. False in general: names are compared from the left (witness). Exactly (C76_exact): for names with different first labels below different parents the order is right if and only if the first labels are ordered like the parents; any two parents have children in the wrong order (C76_wrong)."
  },
  {
   "property": "C77",
   "status": "partial",
   "theorems": [
    "Dns.C77_fresh_partial",
    "Dns.C77_counterexample",
    "Dns.C77_checks_nothing",
    "Dns.C77_key_flags"
   ],
   "note": "Signatures made by from_dnskey with a zone key meet the conditions. False of verify, which checks none of the fields but the algorithm: for all keys and all contents of the fields (C77_checks_nothing)."
  },
  {
   "property": "C78",
   "status": "partial",
   "theorems": [
    "Dns.C78_legal_partial",
    "Dns.C78_counterexample"
   ],
   "note": "Exact: a legal record is read with its keys and values if and only if all parameters are supported. False for hints with several addresses and for unknown keys (witnesses)."
  },
  {
   "property": "C79",
   "status": "partial",
   "theorems": [
    "Dns.C79_question",
    "Dns.C79_record",
    "Dns.C79_nsec_new",
    "Dns.C79_inner",
    "Dns.C79_inner_read",
    "Dns.C79_signature",
    "Dns.C79_names",
    "Dns.C79_data",
    "Dns.C79_types_partial",
    "Dns.C79_types_exact",
    "Dns.C79_set",
    "Dns.C79_protocol",
    "Dns.C79_mode"
   ],
   "note": "NSEC and CSYNC exactly if one of the types is in the first window (C79_types_exact; otherwise a block without types is written, false). OPT, HIP, TKEY, TSIG, LOC, SSHFP and SVCB are built from public fields or covered by C38"
  },
  {
   "property": "C80",
   "status": "proved",
   "theorems": [
    "Dns.C80_header_arrives",
    "Dns.C80_header_arrives_compressed",
    "Dns.C80_new_query",
    "Dns.C80_new_reply",
    "Dns.C80_with_questions",
    "Dns.C80_default"
   ],
   "note": "for every packet that can be read at all, with any octets following; sender and receiver may be different builds; and the first four octets of messages made with new_query, with_questions, new_reply and default, filled by any history of add calls"
  },
  {
   "property": "C81",
   "status": "proved",
   "theorems": [
    "Dns.C81_base64",
    "Dns.C81_injective"
   ],
   "note": "the base64 crate is modelled by its documented behaviour (RFC 4648 standard alphabet with padding)"
  },
  {
   "property": "C82",
   "status": "partial",
   "theorems": [
    "Dns.C82_compressed_exact",
    "Dns.C82_plain_exact",
    "Dns.C82_counterexample",
    "Dns.C82_compressed_arrives_partial",
    "Dns.C82_plain_arrives_partial",
    "Dns.C82_reply_partial"
   ],
   "note": "False for SSHFP records (C82_counterexample). Exactly: with compression (at most 16384 octets, no hash collisions) a message arrives as built if and only if all that was added can be represented and none is an SSHFP record (C82_compressed_exact); plain (less than 65536 octets) if and only if, besides, no OPT, RRSIG, CAA or SVCB record with parameters is added (C82_plain_exact). C82_reply_partial is the request/response corollary."
  },
  {
   "property": "C83",
   "status": "partial",
   "theorems": [
    "Dns.C83_hash_independent_partial",
    "Dns.C83_counterexample",
    "Dns.C83_hashed_octets",
    "Dns.C83_machines_partial"
   ],
   "note": "Proved for all hash functions without collisions on the suffixes of the names of the packet; the function of the crate (SipHash-1-3 of the labels, on machines of every byte order and word size) is one of them unless SipHash itself collides, since the hashed octets determine the name (C83_hashed_octets, C83_machines_partial). False otherwise: for every 64-bit hash function there is a packet that is read back with a wrong name (pigeonhole, C83_counterexample)."
  },
  {
   "property": "C84",
   "status": "partial",
   "theorems": [
    "Dns.C84_counterexample",
    "Dns.C84_parse_partial",
    "Dns.C84_write_partial",
    "Dns.C84_calls_partial",
    "Dns.C84_dnssec_partial"
   ],
   "note": "Proved up to overflow: both profiles have the same outcome unless the debug profile panics with an arithmetic overflow. Without that exception it is false (witness: a bitmap for window 255 that is read as type A in release builds, an odd mandatory parameter)."
  },
  {
   "property": "C85",
   "status": "proved",
   "theorems": [
    "Dns.C85_parse",
    "Dns.C85_parse_iff",
    "Dns.C85_write"
   ],
   "note": "Same outcomes up to the errors for the types of the feature, characterisation of the packets read without the feature, and equality of what is written."
  },
  {
   "property": "C86",
   "status": "proved",
   "theorems": [
    "Dns.C86_parse",
    "Dns.C86_write",
    "Dns.C86_exchange"
   ],
   "note": "Outcome of reading, equality of what is written without the bits, and exchange between the builds."
  },
  {
   "property": "C87",
   "status": "proved",
   "theorems": [
    "Dns.C87_sections_fit"
   ],
   "note": "Bound on questions and records by the octets of the message; the bound is reached."
  },
  {
   "property": "C88",
   "status": "partial",
   "theorems": [
    "Dns.C88_exact",
    "Dns.C88_apart_exact",
    "Dns.C88_counterexample",
    "Dns.C88_same_meaning_partial"
   ],
   "note": "False for packets with wrong counts and with records whose size is computed wrongly (witnesses). Proved for packets that can be represented, with right counts and sizes, no SSHFP, no hash collision, up to 16384 octets; for packets without SSHFP exactly (C88_exact without SVCB parameters, C88_apart_exact also with them, if no record of the root follows)."
  },
  {
   "property": "C89",
   "status": "proved",
   "theorems": [
    "Dns.C89_error_number_in_message"
   ],
   "note": "For every message and build; errors of other crates carry no number."
  },
  {
   "property": "C90",
   "status": "partial",
   "theorems": [
    "Dns.C90_not_a_code_partial",
    "Dns.C90_counterexample"
   ],
   "note": "False: TLSA selectors, TSIG errors and DHCID digest types are reported under the name of another kind of code for which the number is valid, CDS as unknown; signing reports wrong numbers (witnesses). Proved for all other errors of reading."
  },
  {
   "property": "C91",
   "status": "partial",
   "theorems": [
    "Dns.C91_text_partial",
    "Dns.C91_counterexample"
   ],
   "note": "False: source() of an error is the error itself, so that the chain never ends (proved). Proved: different errors have different texts."
  },
  {
   "property": "C92",
   "status": "proved",
   "theorems": [
    "Dns.C92_layout",
    "Dns.C92_append",
    "Dns.C92_shorter"
   ],
   "note": "Layout of the plain form, prefix property of both forms, shorter packets can be written."
  },
  {
   "property": "C93",
   "status": "proved",
   "theorems": [
    "Dns.C93_repeated_names"
   ],
   "note": "For hash functions without collisions on the names of the packet (with collisions the ends of a name may not be remembered)."
  },
  {
   "property": "C94",
   "status": "proved",
   "theorems": [
    "Dns.C94_bounded",
    "Dns.C94_quadratic",
    "Dns.C94_reached"
   ],
   "note": "Bounds on names, strings and collections; that the growth is really quadratic is proved for a family of messages."
  },
  {
   "property": "C95",
   "status": "proved",
   "theorems": [
    "Dns.C95_total_orders",
    "Dns.C95_meaning",
    "Dns.C95_agrees"
   ],
   "note": "For all values. That parameters and their keys may compare as equal without being equal is C75; equality of names under the order is C55."
  },
  {
   "property": "C96",
   "status": "proved",
   "theorems": [
    "Dns.C96_a",
    "Dns.C96_aaaa",
    "Dns.C96_one",
    "Dns.C96_every"
   ],
   "note": "The parser of std::net that the code calls is part of the model (it is not in the repository); texts are their octets."
  },
  {
   "property": "C97",
   "status": "partial",
   "theorems": [
    "Dns.C97_plain_partial",
    "Dns.C97_plain_exact",
    "Dns.C97_counterexample_opt",
    "Dns.C97_compressed_partial",
    "Dns.C97_compressed_exact",
    "Dns.C97_counterexample_nsec"
   ],
   "note": "Proved for all packets whose data are WrittenWell (with to_bytes also: no OPT, RRSIG or CAA records and no SVCB parameters), SSHFP included, and these conditions are exact (C97_plain_exact, C97_compressed_exact); false otherwise (C97_counterexample_opt, C97_counterexample_nsec). In which data names may be compressed is C63."
  },
  {
   "property": "C98",
   "status": "partial",
   "theorems": [
    "Dns.C98_digest_length_partial",
    "Dns.C98_signs_digest",
    "Dns.C98_counterexample",
    "Dns.C98_no_digest"
   ],
   "note": "Proved for all algorithms that sign a digest and for those without length; false for Ed25519 and Ed448, whose len() is neither None nor a length of a digest or signature."
  },
  {
   "property": "C99",
   "status": "partial",
   "theorems": [
    "Dns.C99_received_partial",
    "Dns.C99_exact",
    "Dns.C99_liberal_partial",
    "Dns.C99_one_meaning_partial",
    "Dns.C99_of_sent",
    "Dns.C99_counterexamples"
   ],
   "note": "False as stated: SSHFP, IPSECKEY without gateway and APL addresses of an odd number of octets are misread (C99_counterexamples). C99_exact: a message is read as what it says if and only if none of its data is of these; C99_liberal_partial: also with RDATA that a sender should not write but whose meaning is clear."
  },
  {
   "property": "C100",
   "status": "partial",
   "theorems": [
    "Dns.C100_signed_answer_partial",
    "Dns.C100_counterexample",
    "Dns.C100_plain_record",
    "Dns.C100_plain",
    "Dns.C100_plain_read"
   ],
   "note": "Proved for to_bytes_compressed, for every set, packet, order of records and signature library (RSA/SHA-256, RSA/SHA-512 and DSA excepted, see C51; SSHFP records and messages above 16384 octets excepted, see C28). False with to_bytes, which writes a wrong RDLENGTH for RRSIG records (C100_counterexample); C100_plain_record and C100_plain: a signature written with to_bytes always arrives without its last octet, whatever the message."
  },
  {
   "property": "C101",
   "status": "partial",
   "theorems": [
    "Dns.C101_one_encoding",
    "Dns.C101_forward_partial",
    "Dns.C101_forward_exact",
    "Dns.C101_counterexample_opt",
    "Dns.C101_counterexample_mdns"
   ],
   "note": "False as stated: SSHFP is misread, OPT, RRSIG, CAA and SVCB with parameters get a wrong RDLENGTH (C101_counterexample_opt), IPSECKEY without gateway, APL addresses with trailing zeros and bitmaps without types of the first window are not written as prescribed, and builds without the feature mdns lose the bit of the class field (C101_counterexample_mdns). C101_forward_exact: exactly these."
  },
  {
   "property": "C102",
   "status": "partial",
   "theorems": [
    "Dns.C102_silent_partial",
    "Dns.C102_prints",
    "Dns.C102_exact",
    "Dns.C102_counterexample"
   ],
   "note": "False for TSIG data: every time they are written (also for a compressed size, signing or verifying) a line `Test: [...]` is printed, and if the standard output is closed the call panics. Proved for everything without TSIG data (C102_silent_partial), the condition is exact (C102_exact), and C102_prints says which lines appear and what happens when one is refused. Output through the formatting traits Debug and Display is the caller's."
  },
  {
   "property": "C103",
   "status": "partial",
   "theorems": [
    "Dns.C103_all_read_partial",
    "Dns.C103_ignored",
    "Dns.C103_exact",
    "Dns.C103_record_partial",
    "Dns.C103_padded",
    "Dns.C103_counterexample"
   ],
   "note": "True exactly for the types with a field that extends to the end of the data (C103_exact). For every other type whatever follows the data is ignored (C103_ignored), also in messages (C103_padded); the second and later addresses of APL records, which RFC 3123 allows, are lost (C103_counterexample)."
  },
  {
   "property": "C104",
   "status": "partial",
   "theorems": [
    "Dns.C104_to_bytes_partial",
    "Dns.C104_to_bytes_exact",
    "Dns.C104_display_exact",
    "Dns.C104_display_text_partial",
    "Dns.C104_codes_fit",
    "Dns.C104_counterexample"
   ],
   "note": "False: Packet::to_bytes casts the pointer of a Vec<u8> to *mut u16 and writes through it, which is undefined if the allocator returned an odd address (exactly then; never out of bounds; both byte orders give the same message), and Display of a name read from a message whose labels are not UTF-8 makes a str of octets that are not UTF-8 (exactly then). Proved for even addresses and for names made from text."
  },
  {
   "property": "C105",
   "status": "partial",
   "theorems": [
    "Dns.C105_same",
    "Dns.C105_time_partial",
    "Dns.C105_linear",
    "Dns.C105_counterexample",
    "Dns.C105_size",
    "Dns.C105_names",
    "Dns.C105_reached"
   ],
   "note": "Proved: messages that are not read for ever take at most 400 (n+2)^2 steps; messages without octets from 192 take at most 240 (n+1) steps and are never read for ever; the order is reached. False for messages with a cycle of pointers (counterexample)."
  },
  {
   "property": "C106",
   "status": "proved",
   "theorems": [
    "Dns.C106_same",
    "Dns.C106_steps",
    "Dns.C106_output",
    "Dns.C106_time",
    "Dns.C106_at_least",
    "Dns.C106_reached"
   ],
   "note": "At most 800 (n+1)^2 steps and three for each octet of the result (C106_steps), at most 200 (n+1)^2 octets (C106_output), together at most 1400 (n+1)^2 steps (C106_time); the order is reached by one question (C106_reached)."
  },
  {
   "property": "C107",
   "status": "proved",
   "theorems": [
    "Dns.C107_shortest",
    "Dns.C107_least",
    "Dns.C107_other_data"
   ],
   "note": "C107_shortest: at most as long as with any encoding of the names in the places that RFC 1035 allows; C107_least: with the names in SRV, NAPTR and NSEC data, which the crate compresses too, exactly the least number of octets. C107_other_data shows that names in the data of other types are not used as targets of pointers, where a pointer would be shorter."
  },
  {
   "property": "C108",
   "status": "partial",
   "theorems": [
    "Dns.C108_sequence_partial",
    "Dns.C108_written_partial",
    "Dns.C108_tcp_partial",
    "Dns.C108_name_exact",
    "Dns.C108_exact",
    "Dns.C108_counterexample"
   ],
   "note": "Messages without compression, any number of them one behind the other with any octets around, are read one after the other with the position left behind the last; also with the two length octets of TCP, read with extract_u16, sub_buffer, try_from, advance; also what to_bytes writes. C108_exact: of the messages of RFC 1035 the crate reads at position 0, exactly those without compression are read as the same packet behind every prefix; C108_name_exact the same for names. C108_counterexample: for every hash function two messages written with compression, of which the second, read behind the first, is a query for the name of the first."
  },
  {
   "property": "C109",
   "status": "partial",
   "theorems": [
    "Dns.C109_packet_partial",
    "Dns.C109_question_partial",
    "Dns.C109_record_partial",
    "Dns.C109_exact",
    "Dns.C109_name_exact",
    "Dns.C109_plain_exact",
    "Dns.C109_written_exact",
    "Dns.C109_compressed_partial",
    "Dns.C109_counterexample"
   ],
   "note": "False in part: a message that is cut in the name of a question or record, before a length octet or before the last octet of a label, makes the crate panic instead (C109_counterexample, for every configuration). Proved: a message (question, record) that is cut is refused with the error of length or panics with an index out of bounds, nothing else; exactly when it panics, for all messages in terms of the names the reader gets to (C109_exact), and for messages without compression and what to_bytes writes in terms of the places of the names (C109_plain_exact, C109_written_exact)."
  },
  {
   "property": "C110",
   "status": "partial",
   "theorems": [
    "Dns.C110_written",
    "Dns.C110_size",
    "Dns.C110_read",
    "Dns.C110_same_octets_partial",
    "Dns.C110_counterexample",
    "Dns.C110_exact",
    "Dns.C110_maps",
    "Dns.C110_stable"
   ],
   "note": "False for OPT records with two or more options, whose HashMap has no fixed order (C110_counterexample; C110_exact: exactly these). For all equal packets: same octets apart from the order of options, same number of octets, same byte_size, and what is written with compression is read as a packet equal to both (C110_written, C110_size, C110_read, C110_stable)."
  },
  {
   "property": "C111",
   "status": "partial",
   "theorems": [
    "Dns.C111_forward_partial",
    "Dns.C111_counterexample_pointer",
    "Dns.C111_counterexample_data",
    "Dns.C111_shortest"
   ],
   "note": "Proved for messages of RFC 1035 whose pointers lead to prior names in questions, owner names and data of the types the crate compresses, with data that are read and written as the RFCs demand: they are read, and written again they are not longer and read as the same packet; and what is written is the shortest such message (C111_shortest). False otherwise: a pointer into the target of an SVCB record, an APL prefix with trailing zeros and an NSEC bit map without the first window get longer (counterexamples)."
  },
  {
   "property": "C112",
   "status": "partial",
   "theorems": [
    "Dns.C112_any",
    "Dns.C112_written",
    "Dns.C112_name_exact",
    "Dns.C112_message_partial",
    "Dns.C112_exact",
    "Dns.C112_own_partial",
    "Dns.C112_counterexample",
    "Dns.C112_of_sent"
   ],
   "note": "False for names with a pointer into the first four octets (C112_counterexample); exactly those (C112_exact, for messages of RFC 1035 that are read). Proved for all octets without such pointers, whatever the outcome (C112_any), and for everything that is written (C112_written)."
  },
  {
   "property": "C113",
   "status": "partial",
   "theorems": [
    "Dns.C113_append_message",
    "Dns.C113_append_partial",
    "Dns.C113_append_any_partial",
    "Dns.C113_remove_message",
    "Dns.C113_remove_partial",
    "Dns.C113_undo",
    "Dns.C113_own_partial",
    "Dns.C113_counterexample"
   ],
   "note": "Proved for every message of RFC 1035 whose pointers lead to prior names, of any size: appended (C113_append_message as a statement about layouts, C113_append_partial for what is read), cut off (C113_remove_message, C113_remove_partial, with the place where to cut being where the last record is read), and one undoing the other (C113_undo, octet for octet); appending also for pointers to any place behind the header (C113_append_any_partial) and for what the crate itself writes (C113_own_partial). False for pointers to ARCOUNT (C113_counterexample). Data that are not ReadWell are not read at all (C99)."
  },
  {
   "property": "C114",
   "status": "partial",
   "theorems": [
    "Dns.C114_message",
    "Dns.C114_partial",
    "Dns.C114_counterexample"
   ],
   "note": "Proved for every message of RFC 1035 whose pointers lead to prior names, every section, record and TTL (C114_message as a statement about layouts, so that changes can be repeated; C114_partial for what is read). False for pointers to a TTL (C114_counterexample). Data that are not ReadWell are not read at all (C99)."
  },
  {
   "property": "C115",
   "status": "partial",
   "theorems": [
    "Dns.C115_message",
    "Dns.C115_partial",
    "Dns.C115_limit_partial",
    "Dns.C115_counterexample"
   ],
   "note": "For every message of RFC 1035 whose pointers lead to prior names: the places between records, and what the octets before each say (C115_message), for what the crate reads (C115_partial) and for a limit (C115_limit_partial). Missing: messages with other pointers (false: C115_counterexample) and data that are not ReadWell (see C99)."
  },
  {
   "property": "C116",
   "status": "partial",
   "theorems": [
    "Dns.C116_message",
    "Dns.C116_partial",
    "Dns.C116_own_partial",
    "Dns.C116_counterexample"
   ],
   "note": "For every message of RFC 1035 whose pointers lead to prior names (C116_message), for what the crate reads (C116_partial) and for octets the crate writes (C116_own_partial). Missing: messages with other pointers (false: C116_counterexample) and data that are not ReadWell (see C99)."
  },
  {
   "property": "C117",
   "status": "partial",
   "theorems": [
    "Dns.C117_message",
    "Dns.C117_partial",
    "Dns.C117_counterexample"
   ],
   "note": "For every message of RFC 1035 whose pointers lead to prior names: one place for each record, and any octets that differ only there (C117_message), for what the crate reads (C117_partial). Missing: messages with other pointers (false: C117_counterexample) and data that are not ReadWell (see C99)."
  },
  {
   "property": "C118",
   "status": "partial",
   "theorems": [
    "Dns.C118_ds_binds",
    "Dns.C118_key",
    "Dns.C118_accepted_partial",
    "Dns.C118_published_partial",
    "Dns.C118_counterexample"
   ],
   "note": "DS records with the same digest stand for the same owner and key (no restriction). Whatever is received: the accepted key is the zone's, the accepted set one that was signed; partial: records that become too long when written again (Rewritable) - for these it is false, C118_counterexample: a TXT record that was never signed is accepted with the signature of another - and the checks of time and flags that the crate leaves to its user (C77). What is published validates, within the restrictions of C100."
  },
  {
   "property": "C119",
   "status": "partial",
   "theorems": [
    "Dns.C119_verify_partial",
    "Dns.C119_accepts_exact",
    "Dns.C119_message_exact",
    "Dns.C119_signs_exact",
    "Dns.C119_counterexamples"
   ],
   "note": "Proved exactly: a signature of the RFCs over a set in canonical form is accepted iff the algorithm is Ed25519 or Ed448 (C119_accepts_exact, C119_message_exact for whole messages); what is made is a signature of the RFCs iff it is not RSA/MD5, RSA/SHA-1 or DSA. False otherwise: counterexamples for upper case letters and wildcards. Assumes what the cryptographic libraries document (Spec.Implements)."
  },
  {
   "property": "C120",
   "status": "partial",
   "theorems": [
    "Dns.C120_accepted_exact",
    "Dns.C120_cached_exact",
    "Dns.C120_spelling_exact",
    "Dns.C120_original_ttl_partial"
   ],
   "note": "Exactly which sets are accepted (C120_accepted_exact): same owner in the same spelling, type, class, TTL and data in any order. So it is true for the order and with the original TTL (C120_original_ttl_partial), and false for the TTL of cached records (C120_cached_exact) and for other spellings (C120_spelling_exact)."
  },
  {
   "property": "C121",
   "status": "partial",
   "theorems": [
    "Dns.C121_read_partial",
    "Dns.C121_exact"
   ],
   "note": "True for all types but SSHFP (C121_read_partial), and exactly for these (C121_exact)."
  },
  {
   "property": "C122",
   "status": "proved",
   "theorems": [
    "Dns.C122_documented",
    "Dns.C122_same",
    "Dns.C122_any_compiler",
    "Dns.C122_comparisons",
    "Dns.C122_time",
    "Dns.C122_reached"
   ],
   "note": "Both algorithms of binary_search do what is documented (C122_documented); the outcome does not depend on it (C122_any_compiler); at most m (log2 m + 2) comparisons (C122_comparisons), at most (log2 m + 5) n + m^2 steps and one for each octet of the name (C122_time); m^2 / 2 is reached (C122_reached). Writing the data of one record is counted as one step per octet. canonical_reorder, which sorts with sort_by_key and writes the data again for every comparison, is not counted."
  },
  {
   "property": "C123",
   "status": "partial",
   "theorems": [
    "Dns.C123_same",
    "Dns.C123_reserved_partial",
    "Dns.C123_accepted",
    "Dns.C123_counterexample"
   ],
   "note": "The statement is false of messages that are refused (C123_counterexample: any header and one more octet). Proved: the bound length/5 + 65535 for all messages, and exactly the lengths of the sections, within the message, for those accepted."
  },
  {
   "property": "C124",
   "status": "partial",
   "theorems": [
    "Dns.C124_asked",
    "Dns.C124_plain_exact",
    "Dns.C124_compressed_exact",
    "Dns.C124_normal_form",
    "Dns.C124_counterexample"
   ],
   "note": "Exact for to_bytes and for to_bytes_compressed (iff): texts of pieces of 1 to 191 octets with single dots between them, types that can be read. False for others: a final dot is not printed (C124_counterexample; C124_normal_form says what is printed), labels of more than 191 octets are not read back."
  },
  {
   "property": "C125",
   "status": "partial",
   "theorems": [
    "Dns.C125_same",
    "Dns.C125_exact",
    "Dns.C125_counterexample",
    "Dns.C125_counts_partial",
    "Dns.C125_release",
    "Dns.C125_lost"
   ],
   "note": "False: C125_exact says when a call panics and what it leaves behind (the element added, the count unchanged), which is never the packet as it was (C125_counterexample); what to_bytes writes of it has a count of 0 (C125_lost). Proved: each count is the number of elements or 65535 after any history with caught panics (C125_counts_partial), and no panics without overflow checks (C125_release)."
  },
  {
   "property": "C126",
   "status": "partial",
   "theorems": [
    "Dns.C126_read_partial",
    "Dns.C126_payload_exact",
    "Dns.C126_counterexample",
    "Dns.C126_written",
    "Dns.C126_plain",
    "Dns.C126_plain_refused",
    "Dns.C126_plain_query"
   ],
   "note": "Reading: all fields and options of every OPT record; the payload size exactly when it is less than 32768 and not 1 to 4 (C126_payload_exact, C126_counterexample). Writing: C126_written for to_bytes_compressed. False for to_bytes: C126_plain (never those octets), C126_plain_refused and C126_plain_query (at most one option: always refused)."
  },
  {
   "property": "C127",
   "status": "partial",
   "theorems": [
    "Dns.C127_nothing_exact",
    "Dns.C127_message_read_partial",
    "Dns.C127_message_exact",
    "Dns.C127_message_panics",
    "Dns.C127_with_data",
    "Dns.C127_written",
    "Dns.C127_any_not_written",
    "Dns.C127_counterexample"
   ],
   "note": "False as stated (C127_counterexample, for every build). C127_nothing_exact: a record without data is read exactly for four types, panics exactly for those whose data begin with a name, is refused otherwise; C127_message_exact: exactly which update messages are read; C127_message_panics: exactly where they panic. Proved: what is read of every update message that is read (C127_message_read_partial, C127_with_data); what can be written (C127_written) and what not (C127_any_not_written)."
  },
  {
   "property": "C128",
   "status": "partial",
   "theorems": [
    "Dns.C128_messages",
    "Dns.C128_incomplete",
    "Dns.C128_cut",
    "Dns.C128_transfer_partial",
    "Dns.C128_possible",
    "Dns.C128_incremental_not_written",
    "Dns.C128_incremental_refused",
    "Dns.C128_counterexample",
    "Dns.C128_signed_counterexample"
   ],
   "note": "C128_messages, C128_incomplete, C128_cut hold without restriction for all messages that Packet::try_from reads. False as stated for zones with SSHFP records (C128_counterexample: silently another zone) and signed zones without compression (C128_signed_counterexample); C128_transfer_partial: all other zones in messages that the writers get right (to_bytes: no record of C27 with a wrong length, below 65536 octets; to_bytes_compressed: at most 16384 octets, no collisions), any portions, anything around. C128_possible: for every zone of such records there is such a way to send it. Incremental transfers: C128_incremental_not_written, C128_incremental_refused."
  },
  {
   "property": "C129",
   "status": "partial",
   "theorems": [
    "Dns.C129_rfc",
    "Dns.C129_own_order_partial",
    "Dns.C129_siblings_partial",
    "Dns.C129_existing_denied",
    "Dns.C129_missing_not_denied",
    "Dns.C129_unknown_type_refused"
   ],
   "note": "True of zones put in the order of FQDN (C129_own_order_partial) and of records among siblings without upper case letters (C129_siblings_partial). False of the records of other implementations: C129_existing_denied (below every name there is a zone in which a name that exists is denied), C129_missing_not_denied. C129_rfc: with the canonical order each missing name is denied by exactly one record and no existing name is (this validates the specification). C129_unknown_type_refused: records with a type the build does not know are refused."
  },
  {
   "property": "C130",
   "status": "partial",
   "theorems": [
    "Dns.C130_exact",
    "Dns.C130_thousandth_partial",
    "Dns.C130_thousand_times",
    "Dns.C130_counterexample",
    "Dns.C130_replay_partial",
    "Dns.C130_below_apex",
    "Dns.C130_wildcard"
   ],
   "note": "C130_exact tells exactly when a fresh signature is one to be used. C130_thousandth_partial: it is accepted in its period and at no other time if the caller gives a thousandth of the times, for sets at the apex. C130_replay_partial: what validates through a chain of trust and is in its period was signed by the zone, for such a period. With the times themselves it is false: a signature for d seconds is used for 1000 d seconds from another time on (C130_thousand_times), not at all in its period or long after it (C130_counterexample). False of every set below the apex (C130_below_apex) and of wildcards (C130_wildcard): such signatures are never to be used."
  },
  {
   "property": "C131",
   "status": "partial",
   "theorems": [
    "Dns.C131_confused",
    "Dns.C131_collision",
    "Dns.C131_kept_partial",
    "Dns.C131_read_confused",
    "Dns.C131_counterexample"
   ],
   "note": "False: the hash function of the crate (SipHash-1-3 with the key 0, over the labels) has the same value for mbgcejclaefkakni.com and cgpmhhmiehfcfehk.com on machines of 64 bits with the low octet first (C131_collision, computed by the kernel). C131_confused: for every hash function and every two names with the same hash, a packet whose first question is for the one is written as the packet that has this name wherever it had the other one; C131_read_confused: so the reader takes all records of the second name for records of the first one; C131_counterexample: an alias from the first to the second name comes back as an alias of itself, with the address of the second name. Proved: C131_kept_partial, every representable packet is read back on every machine unless SipHash-1-3 collides on its names and their endings. Missing: packets with such names, SSHFP records (false)."
  },
  {
   "property": "C132",
   "status": "partial",
   "theorems": [
    "Dns.C132_accepted",
    "Dns.C132_plain_partial",
    "Dns.C132_compressed_partial",
    "Dns.C132_authentic_partial",
    "Dns.C132_cut_partial",
    "Dns.C132_edns_counterexample",
    "Dns.C132_other_writer_counterexample"
   ],
   "note": "C132_accepted, C132_plain_partial, C132_compressed_partial: every message signed and sent is accepted with the packet, key and data it was signed with, for every MAC function. C132_authentic_partial: with a MAC that only signers can make, the packet accepted is one that was signed (key and algorithm up to case, as the RFC has it). C132_cut_partial: the octets that other software has signed are got back with a DnsBuffer. Missing because false: to_bytes with OPT (C132_edns_counterexample), receivers that write in another form than the sender (C132_other_writer_counterexample), SSHFP, compressed messages over 16384 octets, colliding names (C131). The MAC function itself is arbitrary (no HMAC in the crate)."
  },
  {
   "property": "C133",
   "status": "partial",
   "theorems": [
    "Dns.C133_rfc_partial",
    "Dns.C133_decided",
    "Dns.C133_plain_partial",
    "Dns.C133_compressed_partial",
    "Dns.C133_counterexample"
   ],
   "note": "C133_decided: whenever both packets are read as they were sent, the decisions of the two hosts are opposite, and equal only if the records are the same. C133_plain_partial, C133_compressed_partial: for all packets that are read back (C27, C28). C133_rfc_partial: the decision is that of RFC 6762 for all data that are written as the RFCs demand (WrittenWell, C38). False for SSHFP: C133_counterexample, both hosts keep the name."
  },
  {
   "property": "C134",
   "status": "partial",
   "theorems": [
    "Dns.C134_accepted",
    "Dns.C134_exact",
    "Dns.C134_one_query",
    "Dns.C134_guesses",
    "Dns.C134_guesses_exact",
    "Dns.C134_reply_partial",
    "Dns.C134_unknown_type",
    "Dns.C134_counterexample",
    "Dns.C134_exchange_partial",
    "Dns.C134_exchange_compressed_partial"
   ],
   "note": "C134_accepted, C134_exact: the messages that are accepted, in terms of their octets. C134_one_query, C134_guesses, C134_guesses_exact: no message is accepted for two queries, and 2^(16 + letters) messages are necessary and enough for all identifications and cases of a name. C134_reply_partial, C134_exchange_partial, C134_exchange_compressed_partial: replies are accepted if their records are read (C99, C27, C28). False for replies with records of unknown types: C134_unknown_type, C134_counterexample."
  },
  {
   "property": "C135",
   "status": "partial",
   "theorems": [
    "Dns.C135_answered",
    "Dns.C135_plain_partial",
    "Dns.C135_compressed_partial",
    "Dns.C135_refresh_partial",
    "Dns.C135_equal_useless",
    "Dns.C135_counterexample"
   ],
   "note": "C135_answered: exactly the records that are not known are sent, whenever the messages are read as what they say. C135_plain_partial, C135_compressed_partial: for all announcements and queries that are read back (C27, C28); C135_refresh_partial: for one responder. False for SSHFP (C135_counterexample: known records are sent, unknown ones are not) and with == (C135_equal_useless)."
  },
  {
   "property": "C136",
   "status": "partial",
   "theorems": [
    "Dns.C136_cache",
    "Dns.C136_listen_partial",
    "Dns.C136_last",
    "Dns.C136_goodbye",
    "Dns.C136_counterexample",
    "Dns.C136_case_counterexample",
    "Dns.C136_feature_counterexample"
   ],
   "note": "C136_cache: for any octets, the cache is what is valid of what they are read as (unreadable messages change nothing). C136_listen_partial: for announcements written with to_bytes or to_bytes_compressed, mixed. C136_last, C136_goodbye: what validity means for unique records and for records with the TTL 0. Missing because false: SSHFP (C136_counterexample), names in other case (C136_case_counterexample), a listener without the feature mdns (C136_feature_counterexample); and the limits of the writers as in C27 and C28."
  },
  {
   "property": "C137",
   "status": "partial",
   "theorems": [
    "Dns.C137_strings",
    "Dns.C137_received",
    "Dns.C137_received_exact",
    "Dns.C137_sent_partial",
    "Dns.C137_none",
    "Dns.C137_counterexample"
   ],
   "note": "C137_received: what is found in the TXT record of any software is what from_utf8_lossy makes of the values. C137_received_exact: the attributes are found as they were said iff all values are UTF-8. C137_sent_partial: for a service that uses the crate, with to_bytes and to_bytes_compressed. C137_strings validates the specification. Missing because false: values that are not UTF-8 (C137_counterexample)."
  },
  {
   "property": "C138",
   "status": "proved",
   "theorems": [
    "Dns.C138_packet",
    "Dns.C138_record",
    "Dns.C138_buffer",
    "Dns.C138_limit",
    "Dns.C138_limit_small"
   ],
   "note": "Model/Word.lean has the width of usize as a parameter; C138_packet and C138_record compare 32 and 64 bits with the model of the other claims, C138_buffer the calls of the buffer. C138_limit and C138_limit_small show that the limits in the statement are needed."
  },
  {
   "property": "C139",
   "status": "partial",
   "theorems": [
    "Dns.C139_record_exact",
    "Dns.C139_arrives_partial",
    "Dns.C139_packet_exact",
    "Dns.C139_counterexample",
    "Dns.C139_empty",
    "Dns.C139_rfc_exact"
   ],
   "note": "C139_empty: names, headers and packets. C139_record_exact, C139_packet_exact: data with a default value arrive exactly if they are no CAA data (refused by the reader, C139_counterexample) and, without compression, no OPT data (C36). C139_rfc_exact: written as the RFCs prescribe exactly if not CSYNC."
  },
  {
   "property": "C140",
   "status": "partial",
   "theorems": [
    "Dns.C140_sound",
    "Dns.C140_found_partial",
    "Dns.C140_sent_partial",
    "Dns.C140_counterexample"
   ],
   "note": "C140_sound: for any octets. C140_found_partial, C140_sent_partial: everything is found if every name has one spelling in question and answer. False otherwise, since == of names regards case: C140_counterexample, for every name with a letter."
  },
  {
   "property": "C141",
   "status": "proved",
   "theorems": [
    "Dns.C141_same",
    "Dns.C141_steps",
    "Dns.C141_at_least",
    "Dns.C141_linear",
    "Dns.C141_output",
    "Dns.C141_reached",
    "Dns.C141_empty_labels"
   ],
   "note": "Steps are counted in a second model of the writer that is shown to have the same outcome. In the data of a record the fields without names are counted as one step for each octet and one for each element of a list. Empty labels, which no reader makes, cost time without octets (C141_empty_labels)."
  },
  {
   "property": "C142",
   "status": "partial",
   "theorems": [
    "Dns.C142_most",
    "Dns.C142_mono",
    "Dns.C142_arrives_partial",
    "Dns.C142_counterexample",
    "Dns.C142_arrives_exact"
   ],
   "note": "C142_most: what is sent has room and as many records as have room, for all packets and limits. C142_arrives_partial: it arrives and the flag tells whether it is complete. False with SSHFP records (C142_counterexample); C142_arrives_exact says exactly what arrives."
  }
 ]
}