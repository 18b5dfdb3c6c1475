{
 "claims": [
  {
   "property": "C01",
   "status": "partial",
   "theorems": [
    "Imap.C01_command_round_trip_partial",
    "Imap.C01_round_trip_exact",
    "Imap.C01_encode_injective",
    "Imap.C01_encode_prefix_free",
    "Imap.C01_stream_round_trip",
    "Imap.C01_negation",
    "Imap.C01_negation_literal",
    "Imap.C01_negation_depth",
    "Imap.C01_negation_utf8"
   ],
   "note": "Proved for every supported command (WellFormed.lean lists the exclusions); the full statement is false and its negation is proved for several witnesses; the exclusions are exact (C01_round_trip_exact)."
  },
  {
   "property": "C02",
   "status": "partial",
   "theorems": [
    "Imap.C02_response_round_trip_partial",
    "Imap.C01_round_trip_exact",
    "Imap.C02_negation",
    "Imap.C02_negation_namespace",
    "Imap.C02_negation_recent"
   ],
   "note": "Proved for every supported response; the full statement is false and its negation is proved for several witnesses; the exclusions are exact."
  },
  {
   "property": "C03",
   "status": "partial",
   "theorems": [
    "Imap.C03_greeting_round_trip_partial",
    "Imap.C01_round_trip_exact",
    "Imap.C03_negation",
    "Imap.C03_negation_referral"
   ],
   "note": "Proved for every supported greeting; the full statement is false and its negation is proved; the exclusions are exact."
  },
  {
   "property": "C04",
   "status": "proved",
   "theorems": [
    "Imap.C04_authenticate_data_round_trip",
    "Imap.C04_idle_done_round_trip"
   ],
   "note": ""
  },
  {
   "property": "C05",
   "status": "proved",
   "theorems": [
    "Imap.C05_ok_stable"
   ],
   "note": "All five decoders, all quirk settings."
  },
  {
   "property": "C06",
   "status": "proved",
   "theorems": [
    "Imap.C06_failed_stable"
   ],
   "note": "All five decoders, all quirk settings."
  },
  {
   "property": "C07",
   "status": "proved",
   "theorems": [
    "Imap.C07_prefix_never_rejected"
   ],
   "note": "All five decoders, all quirk settings."
  },
  {
   "property": "C08",
   "status": "proved",
   "theorems": [
    "Imap.C08_command_literal_honest",
    "Imap.C08_response_literal_honest",
    "Imap.C08_others_no_literal",
    "Imap.C08_decode_never_panics"
   ],
   "note": "Honest announcement and tag; only commands and responses signal literals; the expect() on the tag never panics."
  },
  {
   "property": "C09",
   "status": "proved",
   "theorems": [
    "Imap.C09_progress"
   ],
   "note": "All five decoders, all quirk settings."
  },
  {
   "property": "C10",
   "status": "proved",
   "theorems": [
    "Imap.C10_decoded_well_formed"
   ],
   "note": "Each decoded message of each codec satisfies the invariants of its type as specified in WellFormed.lean."
  },
  {
   "property": "C11",
   "status": "partial",
   "theorems": [
    "Imap.C11_reencode",
    "Imap.C11_response_reencode_partial",
    "Imap.C11_modSeq",
    "Imap.C11_negation"
   ],
   "note": "Proved in full for all codecs but ResponseCodec, and for ResponseCodec except for FETCH with MODSEQ, where the encoding of each decoded response is proved to be rejected."
  },
  {
   "property": "C12",
   "status": "proved",
   "theorems": [
    "Imap.C12_fragments_are_bytes",
    "Imap.C12_literals_announced"
   ],
   "note": "Fragments are exactly the bytes, each literal is directly preceded by a line with its announcement, the last fragment is a line; for all five kinds of messages."
  },
  {
   "property": "C13",
   "status": "proved",
   "theorems": [
    "Imap.Frag.C13_chunking_independent",
    "Imap.Frag.C13_observations_prefix"
   ],
   "note": "All histories of enqueue_bytes/progress."
  },
  {
   "property": "C14",
   "status": "proved",
   "theorems": [
    "Imap.Frag.C14_size_limit",
    "Imap.Frag.C15_fragments_partition",
    "Imap.Frag.C14_memory"
   ],
   "note": "All histories including poison_message and skip_message."
  },
  {
   "property": "C15",
   "status": "proved",
   "theorems": [
    "Imap.Frag.C15_fragments_partition",
    "Imap.Frag.C15_fragment_bytes_concat"
   ],
   "note": "All histories including poison_message and skip_message."
  },
  {
   "property": "C16",
   "status": "partial",
   "theorems": [
    "Imap.C16_fragments",
    "Imap.C16_decode_partial",
    "Imap.C16_command",
    "Imap.C16_negation_text"
   ],
   "note": "Fragments: proved for streams of messages of all kinds, with any chunking. Decoding: proved for supported messages; the full statement is false because of the negations of C01 to C03. A response text that ends with an announcement breaks it too (C16_negation_text)."
  },
  {
   "property": "C17",
   "status": "proved",
   "theorems": [
    "Imap.Frag.C17_poisoned_never_decoded",
    "Imap.Frag.C17_decoded_is_whole_message",
    "Imap.Frag.C17_poison_keeps_fragments",
    "Imap.Frag.C17_next_message_clean"
   ],
   "note": "For an arbitrary decoder."
  },
  {
   "property": "C18",
   "status": "proved",
   "theorems": [
    "Imap.C18_decodeTag_iff",
    "Imap.C18_command",
    "Imap.C18_literal"
   ],
   "note": "decode_tag returns a tag exactly when the buffered message starts with tag characters followed by a space; it agrees with the command decoder, also when only a literal has been announced."
  },
  {
   "property": "C19",
   "status": "proved",
   "theorems": [
    "Imap.C19_iter_enumerates"
   ],
   "note": "All sequence sets, all largest."
  },
  {
   "property": "C20",
   "status": "proved",
   "theorems": [
    "Imap.C20_iter_naive_expands"
   ],
   "note": "All sequence sets, all largest."
  },
  {
   "property": "C21",
   "status": "partial",
   "theorems": [
    "Imap.C21_normalize_denotes_partial",
    "Imap.C21_normalize_denotes_noStar_partial",
    "Imap.C21_fails_star_dropped",
    "Imap.C21_fails_star_merged",
    "Imap.C21_normalize_existing_partial",
    "Imap.C21_fails_existing"
   ],
   "note": "False in general (u32::MAX is identified with *, and ranges are merged into x:*): counterexamples proved. Proved for the existing messages (numbers up to largest, for every largest, with and without *) if no written number exceeds u32::MAX-2, and this bound is sharp; for all numbers when no written number exceeds largest < u32::MAX, and without * for numbers up to u32::MAX-2."
  },
  {
   "property": "C22",
   "status": "proved",
   "theorems": [
    "Imap.C22_normalize_canonical",
    "Imap.C22_normalize_order_independent",
    "Imap.C22_normalize_idempotent"
   ],
   "note": "All sequence sets, all hash iteration orders, all sorting algorithms."
  },
  {
   "property": "C23",
   "status": "proved",
   "theorems": [
    "Imap.C23_unescape_escape",
    "Imap.C23_escape",
    "Imap.C23_quoted",
    "Imap.C23_quotedUtf8",
    "Imap.C23_unambiguous"
   ],
   "note": "Escape and unescape are inverse, and the quoted decoders accept exactly the encodings (iff), without ambiguity."
  },
  {
   "property": "C24",
   "status": "proved",
   "theorems": [
    "Imap.C24_base64",
    "Imap.C24_rfc4648",
    "Imap.C24_authenticateData",
    "Imap.C24_continue"
   ],
   "note": "Base64 in SASL data: exact inverse characterisation of the decoders; the encoding is the one of RFC 4648."
  },
  {
   "property": "C25",
   "status": "proved",
   "theorems": [
    "Imap.C25_atom",
    "Imap.C25_atomExt",
    "Imap.C25_tag",
    "Imap.C25_text",
    "Imap.C25_listCharString",
    "Imap.C25_quoted",
    "Imap.C25_literal",
    "Imap.C25_quotedChar",
    "Imap.C25_istring",
    "Imap.C25_nstring",
    "Imap.C25_astring",
    "Imap.C25_charset",
    "Imap.C25_vecN",
    "Imap.C25_sendable",
    "Imap.C25_total",
    "Imap.C25_listMailbox"
   ],
   "note": "Each validating constructor accepts exactly the documented characters, keeps the bytes, reports the first bad byte, and never panics; AString and IString pick atom, quoted or literal so that the decoder accepts the result."
  },
  {
   "property": "C26",
   "status": "proved",
   "theorems": [
    "Imap.C26_fromAString",
    "Imap.C26_tryFrom",
    "Imap.C26_mailboxOther",
    "Imap.C26_decode",
    "Imap.C26_select"
   ],
   "note": "INBOX in atom, quoted or literal form is Mailbox::Inbox for conversion and decoding; other names are kept."
  },
  {
   "property": "C27",
   "status": "partial",
   "theorems": [
    "Imap.C27_search",
    "Imap.C27_thread",
    "Imap.C27_multipart",
    "Imap.C27_extension",
    "Imap.C27_search_deep",
    "Imap.C27_thread_deep",
    "Imap.C27_multipart_deep",
    "Imap.C27_extension_deep",
    "Imap.C27_negation_message",
    "Imap.C27_negation_calls"
   ],
   "note": "Search keys, threads, multiparts and body extensions: a decoded value is never nested deeper than the documented limit and inputs that open one level too many are rejected at once. False for message/rfc822 bodies: the decoder restarts the counter there, so for every n there is an accepted response with n nested messages (C27_negation_message)."
  },
  {
   "property": "C28",
   "status": "partial",
   "theorems": [
    "Imap.C28_flag",
    "Imap.C28_attribute",
    "Imap.C28_enable",
    "Imap.C28_sort",
    "Imap.C28_thread",
    "Imap.C28_resource",
    "Imap.C28_mechanism_partial",
    "Imap.C28_negation_mechanism",
    "Imap.C28_capability_partial",
    "Imap.C28_capability_parameter",
    "Imap.C28_capability_other_partial",
    "Imap.C28_negation_namespace",
    "Imap.C28_negation_quota",
    "Imap.C28_printed",
    "Imap.C28_flagTryFrom"
   ],
   "note": "Proved for flags, attributes, CapabilityEnable, sort and thread algorithms and resources. For AuthMechanism and Capability the claim is false of the code (SCRAM-SHA3-512, NAMESPACE, QUOTA=X-RES-): negations proved, with the largest true part."
  },
  {
   "property": "C29",
   "status": "proved",
   "theorems": [
    "Imap.C29_no_line_break",
    "Imap.C29_negation_quotedUtf8",
    "Imap.C29_negation_code"
   ],
   "note": "For all messages whose strings of the three types documented as unvalidated (QuotedUtf8, CodeOther, referral URL) have no line breaks; two theorems show that the condition is needed."
  },
  {
   "property": "C30",
   "status": "proved",
   "theorems": [
    "Imap.C30_unique",
    "Imap.C30_valid",
    "Imap.C30_count"
   ],
   "note": "Generators and calls are interleaved arbitrarily by a list of events; all generated tags are valid and pairwise different as long as the counters did not wrap."
  },
  {
   "property": "C31",
   "status": "proved",
   "theorems": [
    "Imap.C31_number",
    "Imap.C31_number64",
    "Imap.C31_nzNumber",
    "Imap.C31_incomplete",
    "Imap.C31_reject",
    "Imap.C31_decoded",
    "Imap.C31_print",
    "Imap.C31_exists",
    "Imap.C31_expunge"
   ],
   "note": "Parser-level iff for u32, non-zero u32 and u64; the responses EXISTS and EXPUNGE for the API level."
  },
  {
   "property": "C32",
   "status": "proved",
   "theorems": [
    "Imap.C32_date",
    "Imap.C32_date_nonexistent",
    "Imap.C32_date_roundtrip",
    "Imap.C32_dateTime_written",
    "Imap.C32_dateTime",
    "Imap.C32_dateTime_roundtrip",
    "Imap.C32_internaldate",
    "Imap.C32_since"
   ],
   "note": "Parser-level iff for date and date_time; INTERNALDATE and SEARCH SINCE for the API level."
  },
  {
   "property": "C33",
   "status": "partial",
   "theorems": [
    "Imap.C33_int_range_partial",
    "Imap.C33_int_range_inclusive_partial",
    "Imap.C33_int_range_open_partial",
    "Imap.C33_nonzero_range_partial",
    "Imap.C33_fails_empty",
    "Imap.C33_fails_reversed",
    "Imap.C33_fails_nonzero_range"
   ],
   "note": "False in general: empty/reversed ranges and NonZeroU32 a..b (start ignored), counterexamples proved. Exact for all other ranges."
  },
  {
   "property": "C34",
   "status": "proved",
   "theorems": [
    "Imap.C34_printable",
    "Imap.C34_injective",
    "Imap.C34_rust_literal",
    "Imap.C34_plain"
   ],
   "note": "Printable ASCII output; injective."
  },
  {
   "property": "C35",
   "status": "proved",
   "theorems": [
    "Imap.C35_command",
    "Imap.C35_name"
   ],
   "note": "For every input, changing the case of any letters (outside of the base64 data of AUTHENTICATE) gives the same outcome: the same kind of command, the same known names, numbers, dates, options and string kinds, and the same strings up to letter case (C35_command, against the fold specification in CaseSpec.lean). Writing a command name (with UID, where it applies) in any letter case gives exactly the same outcome (C35_name)."
  },
  {
   "property": "C36",
   "status": "proved",
   "theorems": [
    "Imap.C36_literal_needs_its_length"
   ],
   "note": "All five decoders, all quirk settings."
  },
  {
   "property": "C37",
   "status": "proved",
   "theorems": [
    "Imap.C37_login",
    "Imap.C37_mailbox",
    "Imap.C37_mailboxes",
    "Imap.C37_append",
    "Imap.C37_messages",
    "Imap.C37_errors",
    "Imap.C37_greeting",
    "Imap.C37_status",
    "Imap.C37_continue",
    "Imap.C37_command",
    "Imap.C37_authenticate",
    "Imap.C37_search",
    "Imap.C37_extensions",
    "Imap.C37_plain",
    "Imap.C37_data",
    "Imap.C37_data_extensions",
    "Imap.C37_bye",
    "Imap.C37_literal_mode",
    "Imap.C37_errors_extensions",
    "Imap.C37_code_numbers",
    "Imap.C37_code_lists",
    "Imap.C37_permanent_flag"
   ],
   "note": ""
  },
  {
   "property": "C38",
   "status": "proved",
   "theorems": [
    "Imap.C38_name"
   ],
   "note": ""
  },
  {
   "property": "C39",
   "status": "partial",
   "theorems": [
    "Imap.C39_number",
    "Imap.C39_element",
    "Imap.C39_set",
    "Imap.C39_wire",
    "Imap.C39_agree_partial",
    "Imap.C39_command",
    "Imap.C39_print",
    "Imap.C39_fails_plus",
    "Imap.C39_fails_zero"
   ],
   "note": "Accepted texts, wire texts and printing are proved exactly. That both accept the same texts is false (signs, leading zeros): negations C39_fails_plus and C39_fails_zero; C39_agree_partial characterises the common part."
  },
  {
   "property": "C40",
   "status": "partial",
   "theorems": [
    "Imap.C40_number",
    "Imap.C40_sequence",
    "Imap.C40_swap",
    "Imap.C40_strict",
    "Imap.C40_equal_partial",
    "Imap.C40_fails_reflexive"
   ],
   "note": "Less, greater, transitivity and swapping are proved. Consistency with equality is false for ranges: C40_fails_reflexive."
  },
  {
   "property": "C41",
   "status": "partial",
   "theorems": [
    "Imap.C41_complete_partial",
    "Imap.C41_announced_partial",
    "Imap.C41_waiting_partial",
    "Imap.C41_decoded_partial",
    "Imap.C41_decode_message_partial",
    "Imap.C41_fails_waiting",
    "Imap.C41_fails_decoded"
   ],
   "note": "Proved for messages in which quoted strings are closed at the ends of lines. Without this hypothesis the statement is false of the code (C41_fails_waiting, C41_fails_decoded): the decoder accepts line breaks in quoted strings."
  },
  {
   "property": "C42",
   "status": "proved",
   "theorems": [
    "Imap.C42_literal",
    "Imap.C42_handshake"
   ],
   "note": "For all commands that satisfy Supported, the exact set of commands that round-trip (C01)."
  },
  {
   "property": "C43",
   "status": "proved",
   "theorems": [
    "Imap.C43_complete",
    "Imap.C43_announced",
    "Imap.C43_waiting",
    "Imap.C43_decoded",
    "Imap.C43_cases",
    "Imap.C43_unique",
    "Imap.C43_fragmentizer"
   ],
   "note": "Unconditional; C41 relates it to the Fragmentizer."
  },
  {
   "property": "C44",
   "status": "proved",
   "theorems": [
    "Imap.C44_greeting",
    "Imap.C44_response",
    "Imap.C44_idleDone",
    "Imap.C44_name",
    "Imap.C44_numbered",
    "Imap.C44_tagged"
   ],
   "note": "Greetings, responses (base64 of requests to continue must be unchanged) and DONE; every response keyword exactly."
  },
  {
   "property": "C45",
   "status": "partial",
   "theorems": [
    "Imap.C45_greeting",
    "Imap.C45_greeting_complete",
    "Imap.C45_consumed",
    "Imap.C45_literal",
    "Imap.C45_incomplete_partial",
    "Imap.C45_complete_partial",
    "Imap.C45_announced_partial",
    "Imap.C45_decode_message_partial",
    "Imap.C45_fails_text",
    "Imap.C45_fails_continuation"
   ],
   "note": "Greetings, status responses, data responses and announcements of literals are characterised completely. The full statement is false of the code in two cases, which the theorems name as the only exceptions: the text of a status response or command continuation request that looks like the announcement of a literal (C45_fails_text), and a command continuation request that ends with LF while LF is not allowed (C45_fails_continuation)."
  },
  {
   "property": "C46",
   "status": "proved",
   "theorems": [
    "Imap.C46_display",
    "Imap.C46_iterations",
    "Imap.C46_stack",
    "Imap.C46_prefix_free"
   ],
   "note": "The loop of Display for Thread refines the text of RFC 5256 for threads of any depth, with exact iteration count and stack bound; texts are prefix-free."
  },
  {
   "property": "C47",
   "status": "proved",
   "theorems": [
    "Imap.C47_command",
    "Imap.C47_authenticateData",
    "Imap.C47_decode_message",
    "Imap.C47_only_secrets",
    "Imap.C47_wire",
    "Imap.C47_fails_debug_assertions",
    "Imap.C47_fails_encoded",
    "Imap.C47_fails_fragmentizer"
   ],
   "note": "Non-interference of Debug output without debug assertions, and that nothing else is hidden; the exceptions (debug assertions, Encoded, Fragmentizer) are proved as well."
  },
  {
   "property": "C48",
   "status": "proved",
   "theorems": [
    "Imap.C48_command",
    "Imap.C48_command_rejected",
    "Imap.C48_unambiguous",
    "Imap.C48_encode",
    "Imap.C48_encode_iff",
    "Imap.C48_authenticateData",
    "Imap.C48_idleDone",
    "Imap.C48_lenient",
    "Imap.C48_strict",
    "Imap.C48_macro"
   ],
   "note": "Grammar of client messages in Verif/GrammarSpec.lean, written after the ABNF; deviations of imap-codec from the RFCs are marked there, with witnesses in C48_lenient and C48_strict."
  },
  {
   "property": "C49",
   "status": "proved",
   "theorems": [
    "Imap.C49_greeting",
    "Imap.C49_response",
    "Imap.C49_greeting_rejected",
    "Imap.C49_response_rejected",
    "Imap.C49_greeting_unambiguous",
    "Imap.C49_unambiguous",
    "Imap.C49_greeting_encode",
    "Imap.C49_encode",
    "Imap.C49_greeting_encode_iff",
    "Imap.C49_encode_iff",
    "Imap.C49_lenient",
    "Imap.C49_strict",
    "Imap.C49_encode_counterexample"
   ],
   "note": "Grammar of server messages in Verif/GrammarServerSpec.lean, written after the ABNF; deviations of imap-codec from the RFCs are marked there, with witnesses in C49_lenient and C49_strict. C49_encode_counterexample: FETCH MODSEQ, which is not in the domain of C03."
  },
  {
   "property": "C50",
   "status": "proved",
   "theorems": [
    "Imap.C50_safety",
    "Imap.C50_no_deadlock",
    "Imap.C50_terminates",
    "Imap.C50_complete"
   ],
   "note": "The client and the network are specified in SessionSpec.lean; the server is a model of examples/server.rs. The commands are those that round-trip (Supported, see C01) without line breaks outside of literals; what is sent fits the message limit of the server."
  },
  {
   "property": "C51",
   "status": "proved",
   "theorems": [
    "Imap.C51_serde_round_trip",
    "Imap.C51_serde_decoded",
    "Imap.C51_serde_injective",
    "Imap.C51_serde_again"
   ],
   "note": ""
  },
  {
   "property": "C52",
   "status": "partial",
   "theorems": [
    "Imap.C52_deserialized_partial",
    "Imap.C52_well_formed",
    "Imap.C52_negation",
    "Imap.C52_negation_decoded"
   ],
   "note": "False as stated: the types for unknown names are deserialized without the check of the name (C52_negation, C52_negation_decoded). C52_deserialized_partial states the exact set of the messages that can be deserialized."
  },
  {
   "property": "C53",
   "status": "proved",
   "theorems": [
    "Imap.C53_shows_messages",
    "Imap.C53_messages_unique",
    "Imap.C53_shows_in_order",
    "Imap.C53_chunks",
    "Imap.C53_conversation"
   ],
   "note": "The loop of examples/client.rs. The conditions on the messages of a conversation (supported, transmissible) are those of C01 to C03 and C16, whose negations show that they are needed."
  },
  {
   "property": "C54",
   "status": "partial",
   "theorems": [
    "Imap.C54_mechanism_partial",
    "Imap.C54_negation_mechanism",
    "Imap.C54_enable",
    "Imap.C54_resource",
    "Imap.C54_sort",
    "Imap.C54_thread",
    "Imap.C54_compression",
    "Imap.C54_capability_partial",
    "Imap.C54_negation_capability",
    "Imap.C54_flag",
    "Imap.C54_attributeFlag_names",
    "Imap.C54_attributeFlag",
    "Imap.C54_error_text"
   ],
   "note": "False for two mechanisms that are printed but not recognised, and for the capabilities NAMESPACE and QUOTA=RES-; the negations are proved with witnesses."
  },
  {
   "property": "C55",
   "status": "proved",
   "theorems": [
    "Imap.C55_decode_target",
    "Imap.C55_authenticate_data",
    "Imap.C55_decode_target_off",
    "Imap.C55_back_target",
    "Imap.C55_fragmentizer",
    "Imap.C55_tags",
    "Imap.C55_command_negation",
    "Imap.C55_response_negation"
   ],
   "note": "The exact set of panicking inputs of each target; C55_command_negation and C55_response_negation are witnesses."
  },
  {
   "property": "C56",
   "status": "proved",
   "theorems": [
    "Imap.C56_delivers",
    "Imap.C56_chunking_independent",
    "Imap.C56_sent_messages",
    "Imap.C56_literals_honest"
   ],
   "note": "For the loop of Stream.lean, all codecs."
  },
  {
   "property": "C57",
   "status": "proved",
   "theorems": [
    "Imap.C57_command",
    "Imap.C57_authenticateData",
    "Imap.C57_idleDone",
    "Imap.C57_greeting",
    "Imap.C57_response",
    "Imap.C57_rejected",
    "Imap.C57_encode",
    "Imap.C57_absent"
   ],
   "note": "The builds are the instances of the class Quirks; Spec.Extends (FeaturesSpec.lean) orders them."
  },
  {
   "property": "C58",
   "status": "proved",
   "theorems": [
    "Imap.Arb.C58_no_panic",
    "Imap.Arb.C58_valid",
    "Imap.Arb.C58_supported",
    "Imap.Arb.C58_back_target",
    "Imap.Arb.C58_authenticate_data",
    "Imap.Arb.C58_command",
    "Imap.Arb.C58_greeting",
    "Imap.Arb.C58_sequenceSet",
    "Imap.Arb.C58_dateTime",
    "Imap.Arb.C58_bodyExtension",
    "Imap.Arb.C58_mailbox",
    "Imap.Arb.C58_negation_command",
    "Imap.Arb.C58_negation_response",
    "Imap.Arb.C58_negation_greeting"
   ],
   "note": "Proved as stated, with the exceptions that the statement names; the exceptions are shown to occur (C58_negation_*). C58_bodyExtension, C58_dateTime and C58_mailbox say what can never be generated. The crate arbitrary is assumed to return any value of the basic types."
  },
  {
   "property": "C59",
   "status": "proved",
   "theorems": [
    "Imap.Arb.C59_reached",
    "Imap.Arb.C59_typical",
    "Imap.Arb.C59_exactly",
    "Imap.Arb.C59_negation_thread",
    "Imap.Arb.C59_negation_code",
    "Imap.Arb.C59_negation_greeting"
   ],
   "note": "Which messages the generators can make: exactly the typical ones, among those that the round trip supports; witnesses for three of the blind spots."
  },
  {
   "property": "C60",
   "status": "proved",
   "theorems": [
    "Imap.C60_no_amplification",
    "Imap.C60_bound",
    "Imap.C60_tight",
    "Imap.C60_exception"
   ],
   "note": "the bound, the only exception, and that the factor is reached"
  },
  {
   "property": "C61",
   "status": "proved",
   "theorems": [
    "Imap.C61_command",
    "Imap.C61_authenticateData",
    "Imap.C61_idleDone",
    "Imap.C61_greeting",
    "Imap.C61_response",
    "Imap.C61_same",
    "Imap.C61_rejected",
    "Imap.C61_exception"
   ],
   "note": "The statement names the one exception; C61_exception shows that it occurs, C61_same that nothing changes without that quirk."
  },
  {
   "property": "C62",
   "status": "proved",
   "theorems": [
    "Imap.C62_memory"
   ],
   "note": "For all codecs, inputs, quirks and features. The size counts the values, strings and names of the serde representation; the capacity of vectors and what is freed while decoding are not modelled."
  },
  {
   "property": "C63",
   "status": "proved",
   "theorems": [
    "Imap.C63_order",
    "Imap.C63_round_trip",
    "Imap.C63_twice",
    "Imap.C63_unknown"
   ],
   "note": "For every value and every reordering at any depth. What derive generates is modelled after the documentation and source of serde_derive, which are not part of the repository. C63_twice and C63_unknown are about the outermost object."
  },
  {
   "property": "C64",
   "status": "proved",
   "theorems": [
    "Imap.Frag.C64_work",
    "Imap.Frag.C64_fragments",
    "Imap.Frag.C64_drain"
   ],
   "note": "For all size limits and all histories. The work is the number of iterations of the loop over bytes; the moving of bytes from the queue to the message buffer is bounded by the same number because every byte is dequeued once (C15)."
  },
  {
   "property": "C65",
   "status": "proved",
   "theorems": [
    "Imap.Timed.C65_same",
    "Imap.Timed.C65_polynomial",
    "Imap.Timed.C65_greeting",
    "Imap.Timed.C65_command",
    "Imap.Timed.C65_authenticateData",
    "Imap.Timed.C65_response",
    "Imap.Timed.C65_idleDone"
   ],
   "note": "The parsers of the model are written again in a monad with a counter, and proved to have the same results (C65_same). Counted are calls of basic parsers, bytes they look at and rounds of loops, not the conversions of what was parsed."
  },
  {
   "property": "C66",
   "status": "proved",
   "theorems": [
    "Imap.C66_command",
    "Imap.C66_authenticateData",
    "Imap.C66_idleDone",
    "Imap.C66_greeting",
    "Imap.C66_response"
   ],
   "note": "Rejected means the outcome `failed`, not `incomplete`; by C06 this stays so if more bytes arrive."
  },
  {
   "property": "C67",
   "status": "proved",
   "theorems": [
    "Imap.C67_ends",
    "Imap.C67_literal",
    "Imap.C67_fragmentizer",
    "Imap.C67_fails_hope"
   ],
   "note": "The continuation depends on the input. It need not lead to a message: C67_fails_hope shows an input for which the decoder asks for more bytes although it fails for each continuation."
  },
  {
   "property": "C68",
   "status": "proved",
   "theorems": [
    "Imap.C68_utf8",
    "Imap.C68_ascii",
    "Imap.C68_fails_other",
    "Imap.isUtf8_iff"
   ],
   "note": "Valid UTF-8 means: the encoding of a list of characters, by the definition in Lean's library (isUtf8_iff proves that the validator of the model accepts just these). C68_fails_other shows that the exception for unknown response codes is needed."
  },
  {
   "property": "C69",
   "status": "proved",
   "theorems": [
    "Imap.C69_digits",
    "Imap.C69_quoted",
    "Imap.C69_tokens",
    "Imap.C69_lists",
    "Imap.C69_dates",
    "Imap.C69_mailbox",
    "Imap.C69_unreachable",
    "Imap.C69_continueReq",
    "Imap.C69_constants",
    "Imap.C08_decode_never_panics"
   ],
   "note": "Proved place by place: each place gives what the decoder of the model, which cannot panic, gives there. That the list of places is complete was checked by searching the source for unwrap, expect, assert, unreachable, unvalidated and indexing, not in Lean. Not covered: panics inside nom, chrono and base64, lack of memory, and PartSpecifier::PartNumber, which no parser makes and the model does not have."
  },
  {
   "property": "C70",
   "status": "proved",
   "theorems": [
    "Imap.Frag.C70_progress",
    "Imap.Frag.C70_fragment_bytes",
    "Imap.Frag.C70_fails_handmade"
   ],
   "note": "The slice, drain and the subtractions are modelled with their panics; they agree with the functions without panics that the other theorems about the Fragmentizer use. C70_fails_handmade is the panic for a FragmentInfo made by the caller. Overflows of usize counters are not modelled."
  }
 ]
}