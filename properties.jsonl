{"id": "C01", "title": "Command round trip", "statement": "For every well-formed Command, CommandCodec.decode(CommandCodec.encode(cmd).dump() ++ rest) returns Ok with exactly `rest` as remainder and a command equal to `cmd`, up to the documented normalization of sequence sets that the encoder applies when quirk_always_normalize_sequence_sets is on.", "quantifier": "all well-formed commands (all command kinds, arbitrary strings, literals, lists and search trees up to the documented recursion limit), all trailing byte strings, all quirk settings", "why_tests_cant": "The value space is infinite and nested; a test only samples it. The failure cases (ambiguous prefixes, an earlier grammar alternative stealing the input) sit in rare combinations.", "anchors": ["imap-codec/src/codec/encode.rs: impl Encoder for CommandCodec, impl EncodeIntoContext for CommandBody", "imap-codec/src/codec/decode.rs: impl Decoder for CommandCodec", "imap-codec/src/command.rs: command, command_any, command_auth, command_nonauth, command_select"]}
{"id": "C02", "title": "Response round trip", "statement": "For every well-formed Response (continuation request, data, status), ResponseCodec.decode(ResponseCodec.encode(r).dump() ++ rest) returns Ok with remainder `rest` and a response equal to `r` (sequence sets up to encoder normalization).", "quantifier": "all well-formed responses, all trailing byte strings, all quirk settings", "why_tests_cant": "Infinite nested value space (body structures, envelopes, threads, codes).", "anchors": ["imap-codec/src/codec/encode.rs: impl EncodeIntoContext for Response, Data, Status, Code, BodyStructure", "imap-codec/src/codec/decode.rs: impl Decoder for ResponseCodec", "imap-codec/src/response.rs", "imap-codec/src/body.rs", "imap-codec/src/fetch.rs"]}
{"id": "C03", "title": "Greeting round trip", "statement": "For every well-formed Greeting, GreetingCodec.decode(GreetingCodec.encode(g).dump() ++ rest) = Ok(rest, g).", "quantifier": "all well-formed greetings, all trailing byte strings, all quirk settings", "why_tests_cant": "Infinite space of texts and codes; ambiguity between `[code] text` and plain text.", "anchors": ["imap-codec/src/codec/encode.rs: impl EncodeIntoContext for Greeting", "imap-codec/src/codec/decode.rs: impl Decoder for GreetingCodec", "imap-codec/src/response.rs: greeting, resp_text"]}
{"id": "C04", "title": "Authenticate data and IDLE done round trip", "statement": "For every AuthenticateData value and for IdleDone, decode(encode(x) ++ rest) = Ok(rest, x).", "quantifier": "all byte strings carried as authentication data, all trailing byte strings", "why_tests_cant": "All byte strings of any length modulo base64 padding classes.", "anchors": ["imap-codec/src/auth.rs: authenticate_data", "imap-codec/src/extensions/idle.rs: idle_done", "imap-codec/src/core.rs: base64"]}
{"id": "C05", "title": "An accepted message does not depend on bytes that arrive later", "statement": "If a decoder returns Ok(rem, m) on a buffer x, then on x ++ y it returns Ok(rem ++ y, m): bytes received later can neither change nor retract a decoded message.", "quantifier": "all buffers x, all continuations y, all five codecs, all quirk settings", "why_tests_cant": "It quantifies over all ways a TCP stream can be cut; every parser in the grammar could break it.", "anchors": ["imap-codec/src/codec/decode.rs: impl Decoder for GreetingCodec, CommandCodec, AuthenticateDataCodec, ResponseCodec, IdleDoneCodec"]}
{"id": "C06", "title": "A rejected message stays rejected", "statement": "If a decoder returns Failed on a buffer x then it returns Failed on every extension x ++ y: Failed is never premature.", "quantifier": "all buffers x, all continuations y, all five codecs", "why_tests_cant": "A premature Failed at one particular cut point is invisible unless a test happens to cut there.", "anchors": ["imap-codec/src/codec/decode.rs: Decoder::decode"]}
{"id": "C07", "title": "A proper prefix of an accepted message is never rejected", "statement": "If decode(x) = Ok([], m) then for each proper prefix p of x decode(p) is Incomplete or LiteralFound, never Ok and never Failed.", "quantifier": "all accepted messages and all their cut points, all five codecs", "why_tests_cant": "The repository has the corresponding fuzz check commented out; it quantifies over messages and cut points.", "anchors": ["imap-codec/src/codec/decode.rs: Decoder::decode", "imap-codec/fuzz/src/lib.rs: impl_decode_target"]}
{"id": "C08", "title": "LiteralFound is honest", "statement": "If CommandCodec or ResponseCodec returns LiteralFound{length, mode} on x, then x ends with the literal announcement `{length}`/`{length+}` CRLF of exactly that length and mode; for commands the reported tag is the tag that x starts with, and the internal `expect` on the tag can not panic.", "quantifier": "all buffers x", "why_tests_cant": "The literal signal can be raised at any nesting depth of the grammar and is rewritten on its way up.", "anchors": ["imap-codec/src/codec/decode.rs: CommandDecodeError::LiteralFound, ResponseDecodeError::LiteralFound", "imap-codec/src/core.rs: literal", "imap-codec/src/command.rs: command", "imap-codec/src/extensions/binary.rs: literal8"]}
{"id": "C09", "title": "The decoder consumes a non-empty prefix and returns the rest untouched", "statement": "If decode(x) = Ok(rem, m) then x = consumed ++ rem for a non-empty `consumed`, so a decode loop over a buffer makes progress and never loses or invents bytes.", "quantifier": "all buffers x, all five codecs", "why_tests_cant": "Progress of a receive loop must hold for each input.", "anchors": ["imap-codec/src/codec/decode.rs: Decoder::decode"]}
{"id": "C10", "title": "Decoded messages satisfy the type invariants", "statement": "Each value inside a decoded message satisfies the invariant checked by the public constructors of its type (atoms non-empty and of atom characters, literals without NUL, non-empty lists non-empty, mailboxes never `INBOX` in Other, numbers in range). The `unvalidated` constructors and `unwrap`s in the decoder are therefore safe.", "quantifier": "all buffers x, all values produced", "why_tests_cant": "The code calls `unvalidated` constructors that panic in debug builds; absence of panics is a statement about all inputs.", "anchors": ["imap-codec/src/core.rs: quoted, literal, astring, atom, text, tag_imap", "imap-types/src/core.rs: validate functions", "imap-codec/src/response.rs: continue_req"]}
{"id": "C11", "title": "Decoding is stable under re-encoding", "statement": "If decode(x) = Ok(rem, m) then encoding m and decoding again gives Ok([], m') with m' equal to m (up to sequence-set normalization).", "quantifier": "all buffers x", "why_tests_cant": "This is the property of the project's fuzz targets; fuzzing samples it.", "anchors": ["imap-codec/fuzz/src/lib.rs: impl_decode_target"]}
{"id": "C12", "title": "Fragments of an encoded message are exactly its bytes and announce their literals", "statement": "For every message, concatenating the fragments produced by iterating `Encoded` gives the same bytes as dump(); each Literal fragment is immediately preceded by a Line fragment that ends with `{n}` CRLF (Sync) or `{n+}` CRLF (NonSync) where n is the byte length of the literal; the last fragment is a Line.", "quantifier": "all messages of all five kinds", "why_tests_cant": "Literals occur at arbitrary positions and numbers; flow control depends on each announcement.", "anchors": ["imap-codec/src/codec/encode.rs: Encoded, Fragment, EncodeContext"]}
{"id": "C13", "title": "The fragmentizer is independent of how the byte stream is chunked", "statement": "Feeding a byte stream to the Fragmentizer in any sequence of chunks, calling progress() until it returns None after each chunk, yields the same sequence of fragments and the same message bytes at each message completion as feeding it in one piece.", "quantifier": "all byte streams, all chunkings, all maximum message sizes", "why_tests_cant": "It ranges over all schedules of network reads.", "anchors": ["imap-codec/src/fragmentizer.rs: Fragmentizer::progress, enqueue_bytes, LineParser::parse, LiteralParser::parse"]}
{"id": "C14", "title": "The fragmentizer respects the size limit and keeps message boundaries", "statement": "At every point message_bytes() is at most max_message_size long and is a prefix of the true current message; is_max_message_size_exceeded() holds iff bytes were dropped; the fragment boundaries and message boundaries are the same as without a limit; the internal size subtraction never underflows. If chunks are enqueued only after progress() returned None, the bytes held never exceed max_message_size plus the last chunk, whatever is announced.", "quantifier": "all byte streams, all limits, all histories of calls", "why_tests_cant": "It is an invariant over histories.", "anchors": ["imap-codec/src/fragmentizer.rs: dequeue_parsed_bytes, message_bytes, is_max_message_size_exceeded"]}
{"id": "C15", "title": "Fragments partition the message", "statement": "The ranges of the fragments of a message are contiguous, start at 0 and end at the message length; fragments alternate as announced: a literal follows exactly a line with an announcement and has exactly the announced length; with no limit exceeded the fragment bytes concatenate to message_bytes(), and all emitted messages concatenate to a prefix of the input stream.", "quantifier": "all byte streams", "why_tests_cant": "It ranges over all inputs and histories.", "anchors": ["imap-codec/src/fragmentizer.rs: Fragmentizer, FragmentInfo"]}
{"id": "C16", "title": "Encoder, fragmentizer and decoder agree on client messages", "statement": "For each well-formed Command the Fragmentizer splits encode(cmd) into exactly the fragments the encoder produced (each line ending CRLF, each literal with its announced length and mode), signals completion exactly at the end, and decode_message(CommandCodec) then returns the command.", "quantifier": "all well-formed commands without UTF-8 quoted strings that contain line breaks", "why_tests_cant": "A disagreement between the two layers (a literal interpreted as a line or vice versa) is the classic command-injection bug; it must be excluded for all contents.", "anchors": ["imap-codec/src/fragmentizer.rs: Fragmentizer::decode_message, LineParser", "imap-codec/src/codec/encode.rs: Encoded"]}
{"id": "C17", "title": "Poisoned or oversized messages are never decoded", "statement": "If the current message was poisoned or exceeded the limit, decode_message never returns Ok for it, whatever codec is used; poisoning does not change the fragmentation; the next message starts clean.", "quantifier": "all histories of enqueue/progress/poison/skip calls, all codecs", "why_tests_cant": "It is a statement about histories.", "anchors": ["imap-codec/src/fragmentizer.rs: poison_message, skip_message, decode_message, progress"]}
{"id": "C18", "title": "The tag found by the fragmentizer is the command's tag", "statement": "If the message bytes decode as a Command with tag t, then decode_tag() returns t; when decode_tag() returns a tag it is a valid tag equal to the bytes before the first space.", "quantifier": "all message buffers", "why_tests_cant": "It relates two independent tag parsers on all inputs.", "anchors": ["imap-codec/src/fragmentizer.rs: parse_tag", "imap-codec/src/core.rs: tag_imap"]}
{"id": "C19", "title": "SequenceSet::iter enumerates exactly the denoted numbers in ascending order", "statement": "seq.iter(largest) yields, in strictly ascending order and without duplicates, exactly those n with n in one of the set's singles or (unordered, inclusive) ranges, where `*` denotes `largest`.", "quantifier": "all sequence sets, all values of `largest`", "why_tests_cant": "All sets and all u32 boundaries including u32::MAX.", "anchors": ["imap-types/src/sequence.rs: SequenceSet::iter, simplify, cleanup, SequenceSetIter"]}
{"id": "C20", "title": "SequenceSet::iter_naive expands each element in order", "statement": "seq.iter_naive(largest) yields the concatenation of the expansions of its elements in order: ascending for a:b with a<=b, descending for a>b, keeping duplicates.", "quantifier": "all sequence sets, all values of `largest`", "why_tests_cant": "All sets.", "anchors": ["imap-types/src/sequence.rs: SequenceSet::iter_naive"]}
{"id": "C21", "title": "Sequence-set normalization preserves the denoted set", "statement": "normalize() does not change the set of messages denoted by a sequence set.", "quantifier": "all sequence sets and all values of `largest`", "why_tests_cant": "The normalizer merges ranges with saturating arithmetic at the u32 boundary and goes through a hash set; a wrong merge makes a client act on the wrong messages.", "anchors": ["imap-types/src/sequence.rs: SequenceSet::normalize, merge_ranges"]}
{"id": "C22", "title": "Sequence-set normalization is canonical", "statement": "The normalized set is non-empty and sorted with disjoint, non-adjacent elements, does not depend on the iteration order of the internal hash set, and normalizing twice gives the same result as normalizing once.", "quantifier": "all sequence sets, all hash iteration orders", "why_tests_cant": "The hash order is randomized per process.", "anchors": ["imap-types/src/sequence.rs: SequenceSet::normalize, Sequence::normalize"]}
{"id": "C23", "title": "Quoting is invertible", "statement": "unescape_quoted(escape_quoted(s)) = s for each string; conversely each string accepted inside a quoted string is the escape of its decoded value.", "quantifier": "all strings", "why_tests_cant": "The implementation uses two successive global replacements, whose interplay on runs of backslashes matters for all run lengths.", "anchors": ["imap-types/src/utils.rs: escape_quoted, unescape_quoted"]}
{"id": "C24", "title": "Base64 is exact", "statement": "Decoding accepts exactly the canonical encodings: decode(encode(d)) = d, and if decode(s) = d then s = encode(d).", "quantifier": "all byte strings", "why_tests_cant": "All lengths and padding classes.", "anchors": ["imap-codec/src/core.rs: base64", "imap-codec/src/codec/encode.rs: base64 use in AuthenticateData and CommandContinuationRequest"]}
{"id": "C25", "title": "String constructors keep the content and choose a representation that is valid", "statement": "Converting bytes to AString/IString/Literal/Quoted/Atom/Tag/Text succeeds exactly on the documented character sets, never changes the content, and yields Atom, else Quoted, else Literal representation so that the result encodes to something the decoder accepts.", "quantifier": "all byte strings", "why_tests_cant": "All byte strings; boundary bytes of each class.", "anchors": ["imap-types/src/core.rs: TryFrom impls, validate"]}
{"id": "C26", "title": "INBOX is recognised in each representation and letter case", "statement": "Whenever a mailbox name equals `inbox` ignoring ASCII case, in atom, quoted or literal form, it is decoded/converted to Mailbox::Inbox, and Mailbox::Other never holds such a name; any other name is kept byte for byte.", "quantifier": "all mailbox names and representations", "why_tests_cant": "All case variants and representations.", "anchors": ["imap-types/src/mailbox.rs: From<AString> for Mailbox, MailboxOther::validate", "imap-codec/src/mailbox.rs: mailbox"]}
{"id": "C27", "title": "Recursion while decoding is bounded", "statement": "Decoding of recursive constructs (search keys, threads, body structures, body extensions) nests at most a fixed constant number of levels, so that no input can exhaust the stack.", "quantifier": "all buffers", "why_tests_cant": "It is a bound over all inputs.", "anchors": ["imap-codec/src/search.rs: search_key", "imap-codec/src/extensions/thread.rs: thread_list", "imap-codec/src/body.rs: body, body_extension"]}
{"id": "C28", "title": "`Other` values never shadow a known value", "statement": "The conversions from an atom to AuthMechanism, Capability, CapabilityEnable, Resource, SortAlgorithm, ThreadingAlgorithm, Flag and FlagNameAttribute are case-insensitive and map the printed form of each known value back to that value, so that an Other/Extension value can not represent a known one.", "quantifier": "all atoms and all known values", "why_tests_cant": "All atoms and letter cases; documented as a guarantee of the types.", "anchors": ["imap-types/src/auth.rs: From<Atom> for AuthMechanism", "imap-types/src/response.rs: From<Atom> for Capability", "imap-types/src/flag.rs: Flag::system", "imap-types/src/extensions/quota.rs", "imap-types/src/extensions/enable.rs"]}
{"id": "C29", "title": "Encoded messages contain no line break outside their terminator and literals", "statement": "In the encoding of each well-formed message, every Line fragment contains exactly one line feed, at its end, preceded by a carriage return. User-supplied strings can therefore not inject a second command or response line.", "quantifier": "all well-formed messages (excluding the types documented as unvalidated)", "why_tests_cant": "Injection safety is about all user-supplied contents.", "anchors": ["imap-codec/src/codec/encode.rs", "imap-types/src/core.rs"]}
{"id": "C30", "title": "Generated tags are valid and unique", "statement": "Across any number of TagGenerator instances and interleavings of generate() calls in a process (up to the documented wrap-around of the counters), every generated tag is a valid Tag and no two are equal.", "quantifier": "all interleavings of new()/generate() calls from any number of generators", "why_tests_cant": "It ranges over concurrent histories.", "anchors": ["imap-types/src/core.rs: TagGenerator"]}
{"id": "C31", "title": "Numbers are decoded by value and overflow is rejected", "statement": "A decimal number followed by a non-digit is decoded to its value iff it fits the target type (u32, non-zero u32, u64), and rejected otherwise; encoding prints the canonical decimal form.", "quantifier": "all digit strings of any length", "why_tests_cant": "All lengths and the boundaries.", "anchors": ["imap-codec/src/core.rs: number, number64, nz_number"]}
{"id": "C32", "title": "Dates are decoded only if they exist, and round trip", "statement": "date and date_time accept exactly valid calendar dates and times with zone offsets, and decode(encode(d) ++ rest) = d.", "quantifier": "all dates with year 0..9999, times of day and minute-aligned zone offsets", "why_tests_cant": "All days, leap years and offsets.", "anchors": ["imap-codec/src/datetime.rs", "imap-types/src/datetime.rs"]}
{"id": "C33", "title": "Integer ranges convert to the sequence they denote", "statement": "Converting Rust ranges (a.., ..b, ..=b, a..b, a..=b) of integers or NonZeroU32 to Sequence yields a sequence denoting exactly the integers in the range, or an error when the range is not representable.", "quantifier": "all range endpoints", "why_tests_cant": "All endpoints and boundary cases.", "anchors": ["imap-types/src/sequence.rs: TryFrom<Range<..>> impls"]}
{"id": "C34", "title": "escape_byte_string is printable and unambiguous", "statement": "escape_byte_string maps each byte string to printable ASCII and different byte strings to different outputs. Between quotes, the output is a byte string literal of Rust that denotes the input, whatever follows it; printable characters other than the quote and the backslash stand for themselves.", "quantifier": "all byte strings", "why_tests_cant": "All byte strings.", "anchors": ["imap-types/src/utils.rs: escape_byte_string"]}
{"id": "C35", "title": "Keywords are case-insensitive", "statement": "Changing the letter case of the keywords of a command does not change the decoding result.", "quantifier": "all inputs and all letter-case variants of the keyword", "why_tests_cant": "Exponentially many case variants per keyword.", "anchors": ["imap-codec/src/command.rs", "imap-codec/src/response.rs"]}
{"id": "C36", "title": "A signalled literal needs exactly its announced length", "statement": "After a decoder signalled LiteralFound with length n for an input x, decoding x followed by 1 to n-1 further bytes always returns Incomplete: never a message, a failure or another literal.", "quantifier": "all inputs x on which a literal is signalled, all non-empty byte strings shorter than the announced length", "why_tests_cant": "Literal data is arbitrary binary data up to 4 GiB, in every syntactic position of every message.", "anchors": ["imap-codec/src/core.rs::literal", "imap-codec/src/codec/decode.rs::CommandDecodeError", "imap-codec/src/codec/decode.rs::ResponseDecodeError"]}
{"id": "C37", "title": "Constructors make messages that arrive unchanged", "statement": "The constructors of commands, greetings, status responses and continuation requests (login, select, append, copy, fetch, ...) reject exactly the arguments that cannot be sent, report which argument was rejected, and otherwise make a message that, after encoding and decoding, is equal to the one that was constructed.", "quantifier": "all byte strings, mailboxes and message sets given to the constructors, all bytes after the message", "why_tests_cant": "The arguments are arbitrary byte strings whose representation on the wire (atom, quoted, literal) depends on each byte.", "anchors": ["imap-types/src/command.rs::CommandBody", "imap-types/src/response.rs::Greeting", "imap-types/src/response.rs::Status", "imap-types/src/response.rs::CommandContinuationRequest"]}
{"id": "C38", "title": "The name of a command is the word on the wire", "statement": "CommandBody::name() is the keyword that the encoder writes directly after the tag, or after the tag and UID for the UID variants.", "quantifier": "all tags and all command bodies", "why_tests_cant": "Ranges over all values of 40 command variants with unbounded arguments.", "anchors": ["imap-types/src/command.rs::CommandBody::name", "imap-codec/src/codec/encode.rs"]}
{"id": "C39", "title": "Sequence sets written as text", "statement": "Parsing a sequence set from a string accepts exactly the comma-separated lists of numbers, `*` and colon-separated ranges, with the value the text stands for; what the encoder writes for a sequence set is such a text and is read back as the set that was written; and parsing a string and decoding from the wire accept the same texts.", "quantifier": "all byte strings, all sequence sets, all quirk settings, all bytes after the set", "why_tests_cant": "Ranges over all strings; numbers, elements and lists have no bound on their length.", "anchors": ["imap-types/src/sequence.rs::FromStr", "imap-codec/src/sequence.rs::sequence_set", "imap-codec/src/codec/encode.rs"]}
{"id": "C40", "title": "Order of sequences", "statement": "An element of a sequence set compares less (greater) than another one exactly if each message number of the first is less (greater) than each number of the second, `*` being larger than any written number; the order is irreflexive, transitive and antisymmetric under swapping; and two elements are equal in the order exactly if they are equal.", "quantifier": "all pairs and triples of elements", "why_tests_cant": "Quantifies over all pairs and triples of 32 bit ranges with `*` at each end.", "anchors": ["imap-types/src/sequence.rs::PartialOrd for Sequence", "imap-types/src/sequence.rs::Ord for SeqOrUid"]}
{"id": "C41", "title": "Decoder and Fragmentizer agree about message boundaries", "statement": "For the messages that a client sends, the decoder and the Fragmentizer agree: on the bytes of a complete message the decoder returns a message that consumes exactly these bytes or fails for good (decode_message never reports missing bytes, a literal, or a remainder); up to the announcement of a literal it reports exactly that literal or fails; on any other unfinished part it asks for more bytes or fails; and what it consumes for a message is one complete message of the Fragmentizer.", "quantifier": "all byte strings, all histories of a Fragmentizer, all quirk settings, all bytes after the message", "why_tests_cant": "Relates two independent parsers (a line scanner and a grammar) on every byte string and every split; a single disagreement lets a client smuggle commands.", "anchors": ["imap-codec/src/fragmentizer.rs::Fragmentizer::decode_message", "imap-codec/src/codec/decode.rs::CommandCodec", "imap-codec/src/core.rs::literal", "imap-codec/src/extensions/utf8.rs::quoted_utf8"]}
{"id": "C42", "title": "The literals of a command are signalled one by one while it is sent", "statement": "While a client sends an encoded command line by line and the server decodes its buffer after each line, the command decoder signals each literal of the command exactly once, in order and before it is sent, with the tag of the command and the length and mode of the literal, and returns the command after the last line.", "quantifier": "all commands that round-trip (Supported), any number and size of literals below 4 GiB, all quirk settings", "why_tests_cant": "The handshake must work at every literal of every command; each argument position of each command has its own parser path up to the announcement.", "anchors": ["imap-codec/src/codec/decode.rs::CommandCodec", "imap-codec/src/core.rs::literal", "imap-codec/src/codec/encode.rs::Encoded"]}
{"id": "C43", "title": "The decoders of client messages frame their input like a reader that knows quoted strings", "statement": "For every input, the decoder of a client message behaves as a fixed framing says: if the input begins with a complete message (lines that end with the first LF outside of quoted strings, literals of the announced lengths, a last line without an announcement), it returns a message that consumes exactly that, or fails for good; if the input ends just after an announcement, it signals exactly that literal or fails; otherwise it asks for more bytes or fails. What it consumes, waits for and signals is always described by this framing.", "quantifier": "all byte strings, all decoders of client messages, all quirk settings, all bytes after the message", "why_tests_cant": "Characterises message boundaries for every byte string, including malformed ones; tests only see samples.", "anchors": ["imap-codec/src/codec/decode.rs::CommandCodec", "imap-codec/src/codec/decode.rs::AuthenticateDataCodec", "imap-codec/src/codec/decode.rs::IdleDoneCodec", "imap-codec/src/core.rs::literal", "imap-codec/src/core.rs::quoted"]}
{"id": "C44", "title": "The letter case of keywords in server messages does not matter", "statement": "Two greetings that differ in the letter case of letters only give the same outcome from the decoder: the same kind of result, and on success the same message, except for the letter case of the strings in it. The same holds for two responses, provided that the base64 line of a request to continue is unchanged, and for the DONE that ends IDLE. Moreover every keyword an untagged, numbered or tagged response begins with can be written in any letter case with exactly the same outcome.", "quantifier": "all pairs of byte strings equal up to letter case, all response keywords, all quirk settings, all bytes after the keyword", "why_tests_cant": "There are exponentially many spellings of every keyword in every message; tests only see a few.", "anchors": ["imap-codec/src/response.rs::response", "imap-codec/src/response.rs::greeting", "imap-codec/src/mailbox.rs::mailbox_data", "imap-codec/src/fetch.rs::msg_att", "imap-codec/src/codec/decode.rs::ResponseCodec"]}
{"id": "C45", "title": "The decoders of server messages find the ends of messages", "statement": "A greeting, a status response and a command continuation request are exactly one line: the decoder consumes the input up to and including the first line feed. A data response is exactly one message of a reader that knows quoted strings and literals: it ends with the first line feed that is outside of quoted strings and literals and does not announce a literal. The decoder asks for more bytes only if its input is the beginning of such a message, asks for a literal only if the input ends with the announcement of exactly that literal, and never asks for more once a message is complete. So, after the Fragmentizer says that a response is complete, decoding it returns the message or says for good that it is malformed.", "quantifier": "all byte strings, all ways to cut them, all quirk settings, all histories of the Fragmentizer", "why_tests_cant": "It is about every input, including malformed and hostile ones, and every nesting of body structures, quoted strings and literals in it.", "anchors": ["imap-codec/src/codec/decode.rs::GreetingCodec", "imap-codec/src/codec/decode.rs::ResponseCodec", "imap-codec/src/response.rs::response", "imap-codec/src/response.rs::continue_req", "imap-codec/src/body.rs::body", "imap-codec/src/fragmentizer.rs::Fragmentizer"]}
{"id": "C46", "title": "Threads of any depth are printed, and the text determines the thread", "statement": "Printing a thread ends for every thread, however deep, without recursion: the loop over the explicit stack writes the text of RFC 5256, makes two iterations per thread below the outermost one and one more, and never holds more iterators than the thread is deep. Different threads have different texts, and no text is the beginning of another one.", "quantifier": "all threads, of any width and depth", "why_tests_cant": "Threads can be nested without bound, and the tests print a few shallow ones.", "anchors": ["imap-types/src/extensions/thread.rs::Thread", "imap-types/src/extensions/thread.rs::write_prefix"]}
{"id": "C47", "title": "Secrets are not printed by Debug", "statement": "When compiled without debug assertions, what Debug prints of a command, of SASL data, or of a result of decode_message does not depend on the password, on the initial response, on the SASL data, or on the bytes that come with an error; and nothing else is hidden. This holds for a command from its encoding by the client to the log of the server that has decoded it. It does not hold with debug assertions, and not for encoded messages and the state of a Fragmentizer, which hold the bytes without protection.", "quantifier": "all commands, all secrets, all results of decode_message", "why_tests_cant": "It is a statement about pairs of runs with any two secrets: that the output contains no trace of a secret can not be seen from outputs for a few secrets.", "anchors": ["imap-types/src/secret.rs::Secret", "imap-types/src/command.rs::CommandBody", "imap-types/src/auth.rs::AuthenticateData", "imap-codec/src/fragmentizer.rs::DecodeMessageError", "imap-codec/src/codec/encode.rs::Encoded"]}
{"id": "C48", "title": "Client messages are decoded as the formal syntax of the RFCs says", "statement": "The decoder of commands returns a command exactly if its input begins with a text that the formal syntax (the ABNF of RFC 3501 and the extensions, with the listed deviations of imap-codec) derives as a command; it consumes exactly that text, and returns exactly the command that the text denotes. What it rejects for good is not the beginning of any command. The syntax is unambiguous, and the beginning of a command is not a command. What the encoder writes for a command that can be decoded back (see C01) is a text of the syntax that denotes the command. The same holds for the data of AUTHENTICATE and the end of IDLE. The macros of FETCH stand for the items that RFC 3501 lists.", "quantifier": "all byte strings, all commands, all quirk settings", "why_tests_cant": "It compares the decoder with a grammar over all inputs: ordered alternatives, greedy repetitions and follow sets must not make the parser accept less, more, or something else than the declarative grammar; round-trip tests do not notice errors that encoder and decoder share.", "anchors": ["imap-codec/src/command.rs::command", "imap-codec/src/search.rs::search_key", "imap-codec/src/fetch.rs::fetch_att", "imap-codec/src/core.rs", "imap-codec/src/auth.rs::authenticate_data", "imap-codec/src/extensions/idle.rs::idle_done", "imap-types/src/fetch.rs::Macro::expand"]}
{"id": "C49", "title": "Server messages are decoded as the formal syntax of the RFCs says", "statement": "The decoder of responses returns a response exactly if its input begins with a text that the formal syntax (the ABNF of RFC 3501 and the extensions, with the listed deviations of imap-codec) derives as a response; it consumes exactly that text, and returns exactly the response that the text denotes. What it rejects for good is not the beginning of any response. The syntax is unambiguous, and the beginning of a response is not a response. What the encoder writes for a response that can be decoded back (see C03) is a text of the syntax that denotes the response. The same holds for greetings.", "quantifier": "all byte strings, all greetings and responses, all quirk settings", "why_tests_cant": "It compares the decoder with a grammar over all inputs: ordered alternatives, greedy repetitions, recursion and follow sets must not make the parser accept less, more, or something else than the declarative grammar; round-trip tests do not notice errors that encoder and decoder share.", "anchors": ["imap-codec/src/response.rs::response", "imap-codec/src/response.rs::greeting", "imap-codec/src/response.rs::resp_text", "imap-codec/src/body.rs::body", "imap-codec/src/envelope.rs::envelope", "imap-codec/src/fetch.rs::msg_att", "imap-codec/src/mailbox.rs::mailbox_data", "imap-codec/src/extensions/thread.rs::thread_data"]}
{"id": "C50", "title": "A protocol-following client and the example server never deadlock, and the server sees exactly what was meant", "statement": "Let a client send any list of commands, waiting for the server exactly where the protocol asks for it (before a synchronizing literal, after AUTHENTICATE and for its completion, after IDLE) and giving up a command whose literal is rejected; and let a server run the loop of the example server, with any limits. Whatever the sizes of the chunks in which bytes arrive and whatever the order in which client, network and server take their steps: the session ends after a bounded number of steps; as long as it has not ended, some step is possible; and the server notices exactly the messages of the client and the rejections of the commands with too long literals, under their tags, in order.", "quantifier": "all lists of commands and answers, all limits of the server, all schedules of client, network and server, all chunkings, all quirk settings", "why_tests_cant": "The number of interleavings and of chunkings is unbounded, and a deadlock needs a particular one: a client that waits for a continuation request while the server waits for bytes.", "anchors": ["imap-codec/examples/server.rs::main", "imap-codec/src/fragmentizer.rs::Fragmentizer", "imap-codec/src/codec/decode.rs::CommandCodec", "imap-codec/src/codec/encode.rs::CommandCodec"]}
{"id": "C51", "title": "Messages survive serialization with serde", "statement": "Each message that satisfies the invariants of its type, in particular each decoded message, is deserialized from the value that it is serialized to, unchanged; different messages are serialized to different values.", "quantifier": "all greetings, commands, authenticate data, responses and IDLE terminations, whatever the size and the nesting of their parts", "why_tests_cant": "The representation (tags, contents, field names, validation through shadow types) is derived for about a hundred types that are nested in each other without a bound; a wrong attribute shows only for the variants that a test constructs.", "anchors": ["imap-types/src/command.rs::Command", "imap-types/src/response.rs::Response", "imap-types/src/response.rs::Greeting", "imap-types/src/core.rs::Literal", "imap-types/src/core.rs::VecN", "imap-types/src/search.rs::SearchKey", "imap-types/src/body.rs::BodyStructure", "imap-types/src/extensions/thread.rs::Thread"]}
{"id": "C52", "title": "Deserialization establishes the invariants of the types", "statement": "Whatever value a message is deserialized from, the message satisfies the invariants that the constructors of its type guarantee; no value that could not be constructed otherwise is created by deserialization.", "quantifier": "all values of a self-describing data format, all five kinds of messages", "why_tests_cant": "It is about all inputs of deserialization: each of the derived implementations must validate, and one that does not is enough to forge an invalid value.", "anchors": ["imap-types/src/core.rs::Atom", "imap-types/src/core.rs::Quoted", "imap-types/src/core.rs::Text", "imap-types/src/core.rs::VecN", "imap-types/src/mailbox.rs::MailboxOther", "imap-types/src/flag.rs::FlagExtension", "imap-types/src/response.rs::CapabilityOther", "imap-types/src/response.rs::CommandContinuationRequestBasic"]}
{"id": "C53", "title": "The example client shows exactly the messages that are in the bytes", "statement": "The loop of the example client, on whatever bytes and in whatever chunks they arrive, reads all chunks and then has printed exactly one entry for each complete message in the bytes, in order: failures until the first message that decodes as a greeting, then this greeting, then for each message the response that it decodes to, or a failure; messages above the size limit are failures. The result does not depend on the chunks. When a server encodes a greeting and responses that are within the limit, decodable (C01 to C03) and whose free text does not end like the announcement of a literal (C16), the client has at each moment printed a prefix of them, and finally all, unchanged.", "quantifier": "all byte streams, all ways to cut them into chunks, all size limits, all numbers of iterations; all greetings and lists of responses", "why_tests_cant": "The state of the loop depends on the whole history of chunks, and on where they cut lines and literals; a message that is lost, repeated or assigned to the wrong codec may need a particular cut.", "anchors": ["imap-codec/examples/client.rs::main", "imap-codec/src/fragmentizer.rs::Fragmentizer::progress", "imap-codec/src/fragmentizer.rs::Fragmentizer::decode_message"]}
{"id": "C54", "title": "Names have a faithful textual form", "statement": "For authentication mechanisms, capabilities, capabilities to enable, resources of quotas, sort, threading and compression algorithms, flags, and flags in searches for modification sequences: a value that is printed and parsed again is the same value; the texts that can be parsed are exactly the atoms (for flags: also a backslash and an atom; for compression algorithms: the name DEFLATE), and all others give an error and no panic; and a parsed value prints as the text that it was parsed from, up to letter case. The message of the error for a character that is not allowed names the first such byte in hexadecimal and its position.", "quantifier": "all values of these types, all texts", "why_tests_cant": "It is about all texts and values, also those with names that the library does not know; a name that is printed in one way and recognised in another is only found by whoever tests exactly this name.", "anchors": ["imap-types/src/auth.rs::AuthMechanism", "imap-types/src/flag.rs::Flag", "imap-types/src/response.rs::Capability", "imap-types/src/extensions/enable.rs::CapabilityEnable", "imap-types/src/extensions/quota.rs::Resource", "imap-types/src/extensions/sort.rs::SortAlgorithm", "imap-types/src/extensions/thread.rs::ThreadingAlgorithm", "imap-types/src/extensions/compress.rs::CompressionAlgorithm", "imap-types/src/extensions/condstore_qresync.rs::AttributeFlag", "imap-types/src/error.rs::ValidationError"]}
{"id": "C55", "title": "What the fuzz targets of the repository can find", "statement": "The fuzz targets fragmentizer, tags_structured and authenticate_data never panic: in particular the Fragmentizer never emits more bytes than were enqueued, and what it emits is a prefix of the enqueued bytes if these fit the size limit. The targets greeting, command and response panic for exactly those inputs that are decoded to a message which the encoder normalizes to another one (sequence sets that are not normalized, with the default quirk quirk_always_normalize_sequence_sets; an empty list of ID parameters with quirk_id_empty_to_nil), or to a FETCH response with MODSEQ. The targets *_to_bytes_and_back panic for exactly those messages that are outside of what the round trip supports or that the encoder normalizes to another one.", "quantifier": "all inputs of the fuzz targets: all byte strings, all lists of chunks and limits, all messages; all settings of the quirks", "why_tests_cant": "A fuzzer samples inputs; that a target has no crashing input left, or which ones it has, is a statement about all of them.", "anchors": ["imap-codec/fuzz/src/lib.rs::impl_decode_target", "imap-codec/fuzz/src/lib.rs::impl_to_bytes_and_back", "imap-codec/fuzz/fuzz_targets/fragmentizer.rs", "imap-codec/fuzz/fuzz_targets/tags_structured.rs", "imap-codec/src/core.rs::fuzz_tag_imap"]}
{"id": "C56", "title": "A reader without the Fragmentizer gets exactly the messages in the stream", "statement": "A reader that keeps a buffer and calls decode as its documentation describes (handle a decoded message and go on with the remainder, read more bytes on Incomplete, answer the announcement and read more on LiteralFound, stop on Failed) delivers, for any bytes in any chunks, exactly the messages that decoding the whole bytes again and again gives. How the bytes are cut into chunks changes neither the messages nor the outcome nor the bytes that are left. Encodings of supported messages, sent one after the other in any chunks, are all delivered and nothing is left. Each reported announcement is at the end of the bytes that were read so far. The loop never panics and never gets stuck without reading.", "quantifier": "all codecs, all byte streams, all ways to cut them into chunks, all sequences of supported messages, all settings of the quirks", "why_tests_cant": "It is about all byte streams and all ways to cut them into chunks.", "anchors": ["imap-codec/src/codec/decode.rs (module documentation, Decoder, CommandDecodeError)", "imap-codec/src/codec.rs"]}
{"id": "C57", "title": "Features and quirks are additive", "statement": "Cargo unifies features, so a program may get a build with more features than it asked for. A build with more of the features that add parts of IMAP, and possibly more quirks, decodes whatever a build with fewer features decodes, with the same remaining bytes and the same message, except that names of capabilities, names after ENABLE and codes in brackets that were unknown (Other) may be known now, and then denote what the formal syntax says. What the larger build rejects, the smaller build never accepts, whatever follows. The bytes written for a message do not depend on the features, only on the two quirks of the encoder. Without a feature no command is decoded to what the feature adds.", "quantifier": "all pairs of builds where one has the features of the other, all codecs, all inputs, all messages", "why_tests_cant": "There are 2^21 builds and unboundedly many inputs; a test suite runs with few of the builds and compares no two of them.", "anchors": ["imap-codec/Cargo.toml (features)", "imap-types/Cargo.toml (features)", "imap-codec/src/command.rs", "imap-codec/src/response.rs", "imap-types/src/response.rs (Capability, Code)", "imap-types/src/extensions/enable.rs"]}
{"id": "C58", "title": "Generated messages are valid, and what the structured fuzz targets can find", "statement": "With the feature `arbitrary`, generating a greeting, command, authenticate data or response from random bytes never panics, and every generated message satisfies the invariants of its type. A generated message survives encoding and decoding, unless it contains a referral code, the FETCH item MODSEQ or an extension flag spelled \\Recent in FETCH flags, or the encoder normalizes it (sequence sets, empty ID lists). So the targets *_to_bytes_and_back panic exactly for these; authenticate_data never does, and greeting never does without the extensions for referrals and CONDSTORE. All sequence sets can be generated.", "quantifier": "all builds, all random inputs of less than 4 GiB (for validity: of any size), all codecs, all generated messages", "why_tests_cant": "Generators are sampled by fuzzing, which neither shows that no sample panics nor which messages can never be generated.", "anchors": ["imap-types/src/arbitrary.rs", "imap-types/src/extensions/thread.rs (arbitrary_thread_limited)", "derive(Arbitrary) in imap-types/src", "imap-codec/fuzz/src/lib.rs (impl_to_bytes_and_back)", "imap-codec/fuzz/fuzz_targets/*_to_bytes_and_back.rs"]}
{"id": "C59", "title": "The generators cover every message except a known list", "statement": "With the feature `arbitrary` and enough random bytes, every greeting, command, authenticate data and response that survives the round trip of encode and decode can be generated, unless it has one of a fixed list of parts: a mailbox not in the simplest form for its name, a time to the west of UTC, more than seven levels of search keys (or MODSEQ at the innermost level), a body structure with more than three levels or with a list among its extensions, a thread other than pairs of equal threads, an unknown code other than one constant, a greeting whose text starts with `[`. Nothing with such a part is ever generated, so these are exactly the blind spots of the structured fuzz targets.", "quantifier": "every message that the round trip supports, every amount of random bytes that is large enough, with and without the simplifying feature (for what is never generated), every set of features and quirks", "why_tests_cant": "a run of a fuzz target shows only some messages; that a message can be generated at all, or never is, is a statement about all inputs of the fuzzer", "anchors": ["imap-types/src/arbitrary.rs", "imap-types/src/extensions/thread.rs (Thread::arbitrary)", "imap-codec/fuzz/fuzz_targets"]}
{"id": "C60", "title": "Encoding a decoded message takes at most twice the bytes it came from", "statement": "If a decoder accepts a message at the start of its input, then encoding that message yields at most twice as many bytes as the decoder consumed. The single exception is the seven bytes `+ ...` CRLF, which stand for an empty continuation request of at least two bytes, and only with the quirk for empty continuation requests. In particular normalizing sequence sets, rewriting numbers, dates, flags, strings, base64 and empty lists never makes a message grow beyond that, however it nests.", "quantifier": "every codec, every input, every split into message and rest, every set of features and quirks", "why_tests_cant": "a proxy that re-encodes what it decodes needs a bound on memory and traffic for every input of a hostile peer; tests measure only some inputs", "anchors": ["imap-codec/src/codec/decode.rs (Decoder::decode)", "imap-codec/src/codec/encode.rs (Encoder::encode)", "imap-types/src/sequence.rs (SequenceSet::normalize)"]}
{"id": "C61", "title": "A quirk never changes what was already accepted", "statement": "Enabling more quirks (workarounds for the output of faulty peers), with the same features, keeps every message that was decoded: the same input is still decoded, to the same message, with the same bytes left over. The only exception is quirk_trailing_space_capability: it turns a code in brackets that was unknown, made of the text of a capability code and one space, into that capability code; everything else about the message stays. What is rejected with more quirks is never accepted with fewer, whatever bytes follow.", "quantifier": "all pairs of builds with the same features where one has the quirks of the other, all codecs, all inputs, all continuations of a rejected input", "why_tests_cant": "The tests of a quirk show what it accepts additionally; that it never disturbs a valid message, in any combination with the other quirks, is about all inputs and all pairs of builds.", "anchors": ["imap-codec/Cargo.toml (quirk_* features)", "imap-codec/src/response.rs", "imap-codec/src/core.rs", "imap-codec/src/envelope.rs", "imap-codec/src/body.rs", "imap-codec/src/mailbox.rs", "imap-codec/src/extensions/quota.rs", "imap-codec/src/extensions/id.rs"]}
{"id": "C62", "title": "A decoded message is in proportion to its bytes", "statement": "The message that a decoder returns is at most linear in the bytes that it consumed: counted as serde shows it, with all values, strings and names, it has at most 128 units for each byte consumed, and 488 more. No input makes the decoder build a message that is out of proportion to the input (no list of n elements from log n bytes, no default that is filled in repeatedly).", "quantifier": "all codecs, all inputs that are accepted, all quirks and features", "why_tests_cant": "An input that is blown up can hide in any combination of nested parts; the bound is about every accepted input of every length.", "anchors": ["imap-codec/src/codec/decode.rs (Decoder::decode)", "imap-types (derive(Serialize) of every message type)", "imap-codec/src/sequence.rs", "imap-codec/src/fetch.rs", "imap-codec/src/body.rs"]}
{"id": "C63", "title": "The order of serialized fields does not matter", "statement": "With the feature serde, a message is deserialized from its serialized form also after the fields of the objects in it, at any depth, have been put into any other order (as formats and stores that sort keys do). More generally, a value and its reordering are deserialized to the same message or are both rejected. In the outermost object, fields with unknown names are ignored, and an object in which a field of the message occurs twice is rejected rather than one of them being picked.", "quantifier": "all codecs, all values of a self-describing format, all reorderings of all objects in them", "why_tests_cant": "There are as many orders as there are permutations of the fields of all nested objects; tests show the order in which the serializer writes.", "anchors": ["imap-types (derive(Serialize, Deserialize) of every message type)", "imap-types/src/response.rs (Greeting, Response)", "imap-types/src/command.rs (Command)", "imap-types/src/auth.rs (AuthenticateData)"]}
{"id": "C64", "title": "The Fragmentizer does work in proportion to its input", "statement": "Over every history of calls of a Fragmentizer, progress looks at each enqueued byte at most once, however the bytes were cut into chunks, whatever literals they announce and however often progress was called in vain. It reports at most as many fragments as bytes were enqueued, also when there are empty literals, and a loop that calls progress until it has nothing to report ends after at most that many calls.", "quantifier": "all size limits, all histories of enqueue_bytes, progress, skip_message and poison_message", "why_tests_cant": "A peer chooses the bytes and the chunks; that no choice makes the Fragmentizer rescan what it has, or loop, is a statement about all of them.", "anchors": ["imap-codec/src/fragmentizer.rs: Fragmentizer::progress, Fragmentizer::enqueue_bytes, LineParser::parse, LiteralParser::parse"]}
{"id": "C65", "title": "Decoding takes polynomial time", "statement": "Whatever bytes a peer sends, one call of decode does an amount of work that is bounded by a fixed polynomial in the number of bytes: constant for the end of IDLE, linear for what is sent during authentication, quadratic for greetings, cubic for commands and of degree four for responses. The decoders backtrack, and search keys, body structures, body extensions and threads nest, but no nesting and no choice of bytes makes them try exponentially many combinations, also where the input is cut short or wrong only at its end. Work is counted in calls of basic parsers, bytes they look at and rounds of loops.", "quantifier": "all codecs, all inputs (accepted, rejected or incomplete), all quirks and features", "why_tests_cant": "An input that makes backtracking explode is one among all inputs, and typically one that is rejected; benchmarks only time inputs that somebody thought of.", "anchors": ["imap-codec/src/codec/decode.rs: Decoder::decode", "imap-codec/src/search.rs: search_key_limited", "imap-codec/src/body.rs: body_limited, body_type_1part_limited, body_type_mpart_limited, body_type_msg_limited, body_extension_limited", "imap-codec/src/extensions/thread.rs: thread_list_limited"]}
{"id": "C66", "title": "The kinds of messages cannot be confused", "statement": "If one of the five decoders accepts some bytes, then the others reject them, whatever follows: a command is never taken for data of an authentication, for the end of IDLE, or for something a server says, and the other way round. There are two exceptions, and they are exact. A greeting with OK or BYE is also decoded as a response, with the same code and text and the same rest, and such a response also as a greeting; a greeting with PREAUTH, and all other responses, are not. The line DONE, in any letter case, ends IDLE and is also data of an authentication.", "quantifier": "all codecs, all inputs that one of them accepts, all quirks and features", "why_tests_cant": "It is a statement about pairs of decoders and all inputs; tests run each decoder on inputs that were written for it.", "anchors": ["imap-codec/src/codec/decode.rs: Decoder::decode", "imap-codec/src/response.rs: greeting, response, response_tagged", "imap-codec/src/command.rs: command", "imap-codec/src/auth.rs: authenticate_data", "imap-codec/src/extensions/idle.rs: idle_done"]}
{"id": "C67", "title": "No input leaves a decoder or the Fragmentizer waiting for ever", "statement": "Whatever bytes have arrived, there are a few more bytes after which the decoder has decided for good: it returns a message or fails, whatever comes next, and does not ask for more bytes or for a literal again. Five bytes suffice; if the input ends in a literal, the missing bytes of the literal and three more suffice. The same holds for the Fragmentizer: whatever was done with it, once progress has nothing more to report, there are a few more bytes after which at most two calls of progress report that the message is complete.", "quantifier": "all codecs, all inputs, all quirks and features, all bytes that follow; all histories of calls of the Fragmentizer, all size limits", "why_tests_cant": "A test shows that some input can be completed; a state from which no continuation leads out could hide behind any other input.", "anchors": ["imap-codec/src/codec/decode.rs: Decoder::decode", "imap-codec/src/core.rs: quoted, literal", "imap-codec/src/response.rs: response, continue_req", "imap-codec/src/fragmentizer.rs: Fragmentizer::progress, Fragmentizer::is_message_complete"]}
{"id": "C68", "title": "What is sent outside of literals is text", "statement": "Every line that the encoder sends is valid UTF-8, and without the feature for UTF-8 all its bytes are from 1 to 127: arbitrary bytes and NUL are sent only in literals. The exceptions are response codes that imap-codec does not know, which are sent as they are, and, for 7-bit text, the URL of a referral.", "quantifier": "all codecs, all well-formed messages of unbounded size, all lines of their encoding, all quirks and features", "why_tests_cant": "There are over a hundred places where text is sent, each with its own type; a test of some of them says nothing about the others, or about the bytes that the test does not use.", "anchors": ["imap-codec/src/codec/encode.rs: EncodeIntoContext, EncodeContext", "imap-types/src/core.rs: Atom, AtomExt, Quoted, QuotedUtf8, Text, Tag, Literal", "imap-types/src/response.rs: Code, CodeOther"]}
{"id": "C69", "title": "The places where the decoder could panic never do", "statement": "Decoding is given untrusted bytes. None of the unwrap, assert, unreachable and unvalidated calls in imap-codec's parsers, nor the unwrap in the conversion of strings to mailboxes, panics, with or without debug assertions, whatever the input is: each goes on with the value that was parsed.", "quantifier": "all inputs, with and without debug assertions, all quirks and features; for lists, all element parsers and separators", "why_tests_cant": "Each place relies on what an earlier parser accepts, for example that a class of bytes is ASCII or that a text is not also Base64; only inputs that a test did not think of would show the opposite.", "anchors": ["imap-codec/src/core.rs: number, number64, quoted, quoted_char, astring, atom, text, tag_imap", "imap-codec/src/datetime.rs: date_text, date_time, date_day_fixed, zone, digit_1_2, digit_2, digit_4", "imap-codec/src/mailbox.rs: list_mailbox, mailbox", "imap-codec/src/command.rs: uid", "imap-codec/src/fetch.rs: section_spec", "imap-codec/src/response.rs: resp_text, empty_continue_req, continue_req", "imap-codec/src/body.rs: body_fld_enc, body_type_mpart_limited", "imap-types/src/core.rs: VecN::unvalidated", "imap-types/src/mailbox.rs: From<AString> for Mailbox"]}
{"id": "C70", "title": "The Fragmentizer does not panic", "statement": "After any history of calls, progress does not panic: it never takes more bytes than are enqueued and its computation of the space that is left never overflows. fragment_bytes does not panic on any fragment that progress returned, whenever it is called: later, when the message was replaced by a shorter one, when it was cut off by the size limit, or on another Fragmentizer. It can panic on a FragmentInfo that the caller made.", "quantifier": "all histories of enqueue_bytes, progress, poison_message and skip_message calls with all bytes, all size limits, all fragments returned, all later states", "why_tests_cant": "The bounds of a fragment and the stored bytes are unrelated once a message was cut off, skipped or replaced; a test sees only some of the combinations.", "anchors": ["imap-codec/src/fragmentizer.rs: Fragmentizer::progress, Fragmentizer::fragment_bytes, Fragmentizer::dequeue_parsed_bytes, LineParser::parse, LiteralParser::parse, FragmentInfo"]}
