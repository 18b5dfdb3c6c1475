# Formal model of imap-codec: design

Properties are listed in `properties.jsonl`; the status of each one is in `MANIFEST.json`.

## 1. What is modelled and how

All modules live in `lean/Verif/`. Every definition cites the file and lines in /repo it models.

* Bytes are `List UInt8`. `b!"text"` is a macro that expands a string literal to the list of its UTF-8 bytes.
* nom parsers are functions `List UInt8 → Res α` with
  `Res = ok rem value | incomplete | error | failure kind`. `nom::Err::Error` (recoverable) carries no
  payload in the model: no caller of the parsers in /repo can observe it. `nom::Err::Failure` keeps the payload that
  callers observe (literal announcement, recursion limit, NUL in literal).
* The nom combinators (`alt`, `opt`, `many0`, `separated_list1`, `tag`, `tag_no_case`, `take_while1`, `escaped`, ...,
  all in their *streaming* flavour) are library code that is not part of /repo. They are modelled from nom 7's
  documented behaviour and are part of the trusted base (section 4).
* Cargo features: the `quirk_*` features and the features that add a part of IMAP (`starttls`, `ext_condstore_qresync`, `ext_id`,
  `ext_login_referrals`, `ext_mailbox_referrals`, `ext_metadata`, `ext_namespace`, `ext_utf8`) are parameters (`class Quirks`), so
  theorems hold for each of the 2^21 builds. An alternative under `#[cfg(feature = ..)]` is `gate feature parser` in the model: without the
  feature it is not there. The types always have all constructors; a value that has a constructor of a feature that is off
  does not exist in such a build, and is excluded by `valid`/`Spec.*.Inv`. Exceptions: C51 and C52 (serde) are proved for the
  builds with all of these features (`class Complete`), whatever the quirks; the numbers of the variants in binary formats
  depend on the features.
* Message types are plain inductive types over raw bytes and `Nat`. The invariants enforced by the validating
  constructors of imap-types are separate decidable predicates. Theorems about decoding prove that the predicates hold of
  every decoded value; theorems about encoding assume them.
* Encoders produce the list of operations they perform on the `EncodeContext` (write bytes, `push_line`,
  `push_literal`). `EncodeContext` itself is modelled as the state machine that executes these.
* Fragmentizer, SequenceSet, string constructors, tag generator: plain state machines/functions.

## 2. Plan per property

| id | model | proof |
|----|-------|-------|
| C01 | command encoder + decoder | compositional round-trip lemmas with follow sets, `p (enc a ++ rest) = ok rest a` |
| C02 | response encoder + decoder | same; counterexamples for the values that do not round trip |
| C03 | greeting encoder + decoder | same |
| C04 | authenticate data, idle done | base64 round trip + combinators |
| C05, C06 | all decoders | compositional `Stable` predicate over combinators: `ok`, `error`, `failure` persist under appending input |
| C07 | all decoders | corollary of C05 + C06 |
| C08 | literal signal | compositional predicate: a literal failure implies the input ends with the announcement |
| C09 | all decoders | compositional predicate: remainder is a suffix; strict at the top level |
| C10 | all decoders + WF predicates | compositional predicate: `ok` results satisfy the WF predicate |
| C11 | all | C10 + C01/C02 |
| C12 | encoders, EncodeContext | invariant over the op list |
| C13 | Fragmentizer | refinement to a byte-at-a-time automaton |
| C14 | Fragmentizer | invariant over histories |
| C15 | Fragmentizer | invariant over histories |
| C16 | encoder + Fragmentizer + decoder | C12 + refinement of C13 + C01 |
| C17 | Fragmentizer | invariant over histories |
| C18 | parse_tag, command | case analysis on the tag parser |
| C19, C20 | SequenceSet iterators | induction over the merge loop |
| C21, C22 | normalize | induction over the merge loop; counterexamples at the `*`/u32::MAX boundary |
| C23 | escape/unescape | induction |
| C24 | base64 model | arithmetic on groups of three bytes, induction; compared with a specification of RFC 4648 by bits |
| C25 | constructors | case analysis |
| C26 | mailbox conversions | case analysis |
| C27 | recursion-limited parsers | depth of decoded value is bounded; counterexample for body structures |
| C28 | From<Atom> conversions | case analysis; counterexamples |
| C29 | encoders | compositional predicate over op lists |
| C30 | TagGenerator | invariant over histories of the interleaved transition system |
| C31 | number parsers | induction on digits |
| C32 | date parsers | arithmetic |
| C33 | TryFrom ranges | case analysis; counterexample |
| C34 | escape_byte_string | injectivity by prefix-code argument; a reader of Rust's byte string literals (`RustBytesSpec.lean`) gets the input back, by induction |
| C35 | tag_no_case, all command parsers | congruence of parsers under case change: a relation on results that all combinators preserve |
| C36 | command and response decoders | field `more` of the compositional predicate on parsers: a signalled literal stays incomplete until its length is there |
| C37 | constructors of commands (also of extensions), greetings, status responses, codes, data responses and continuation requests | case analysis + C01/C02/C03 |
| C38 | CommandBody::name, encoder | case analysis on the encoder |
| C39 | FromStr of sequence sets, wire decoder | both are proved equal to a small grammar; they differ in signs and leading zeros |
| C40 | Ord/PartialOrd of sequences | reduction to the least and greatest number of an element |
| C41 | decoders of client messages, Fragmentizer | an automaton over lines, literals and quoted strings; Hoare triples over it for each combinator and each parser of commands; the automaton agrees with the specification of messages. Needs: quoted strings are closed at the ends of lines (else false) |
| C42 | command encoder, command decoder | the lines of encoded commands are tidy (quoted strings closed, line breaks in quoted strings only) by a pass over all encoders; then C43 for the prefix, C06 and C01 exclude a failure, C08 and C18 give the tag |
| C43 | decoders of client messages | the automaton of C41 accepts exactly the messages of `QuotedMessage` and the prefixes of `QuotedUnfinished`; no hypothesis on the input |
| C44 | decoders of greetings, responses and DONE | the relation of C35 passes through every parser of server messages; base64 of requests to continue by comparing first lines; keywords by the word lemma of C35, also after numbers and tags |
| C45 | decoders of greetings and responses, Fragmentizer | parsers of texts and codes stay within the line (`FramingText.lean`); the automaton of C41/C43 passes through every parser of data responses, bodies by induction on the length of the input (`FramingData.lean`); partial: false for the text of a status response that looks like an announcement of a literal, and for a command continuation request that ends with LF: without the quirk, the decoder waits for CRLF even after LF |
| C46 | the loop of `Display for Thread` with its stack | the loop drains an iterator in a number of steps given by the number of threads in it (induction on that number); invariant for the height of the stack; injectivity from the parser without its limit |
| C47 | `Debug` of `Secret` and of the types around it, as documents that the formatter lays out | equality of the documents of two messages that differ in their secrets; injectivity of the other parts; C01 for the way over the wire; counterexamples for debug assertions, `Encoded` and `Fragmentizer` |
| C48 | decoders of client messages | a grammar as a relation between texts and values (`GrammarSpec.lean`, after the ABNF, with a comment on each deviation); each parser fits its grammar on a follow set: soundness, and completeness for inputs that go on with a byte of the follow set. Rules for each combinator; ordered choice, options and repetitions need that keywords diverge, which is computed from first words by type class resolution and checked by evaluation (`GrammarLemmas.lean`) |
| C49 | decoders of server messages | as C48, with the grammar in `GrammarServerSpec.lean`. Texts at the end of lines need a follow set that is the end of a line (`FitsLine`), because response texts and codes may contain anything else. Two rules of RFC 3501 are ambiguous (a text that starts with a bracket, and a continuation request that may be base64); the grammar says which reading is meant. Bodies are a relation with a height, since attached messages restart the count of the nesting |
| C50 | the server of examples/server.rs, the Fragmentizer, the command codec; a client and a network as a transition system (`SessionSpec.lean`) | invariant: the plan of the client (bytes to send, replies to wait for) fits the server once it has read what is under way. Reading more bytes commutes with the steps of the server, so that the order does not matter; C42 and C18 give the tag of a rejection, C16 the fragments, C01 the messages; a weight that each step decreases gives the termination |
| C51 | `Serialize` and `Deserialize` of all types in messages, as functions to and from the values of a self-describing format (`Serde.lean`, `SerdeTypes.lean`) | laws for the combinators that stand for what `derive` generates, passed on to the types by type class resolution; search keys, body extensions, body structures and threads by induction on their depth |
| C52 | the same | the same laws give the exact set of the messages that can be deserialized (`SerdeSpec.lean`); partial: the types for unknown names are deserialized without a check of the name |
| C53 | the loop of examples/client.rs, the Fragmentizer, the greeting and response codecs | invariant of the loop: the bytes read are complete messages, the current one and the rest, and what is printed is what `shown` (`ViewerSpec.lean`) says for the complete ones; the cut of bytes into messages is unique; a weight gives that all chunks are read; C01 and C02 give the messages of a conversation |
| C54 | `Display`, `AsRef<str>`, `TryFrom<&str>` and `FromStr` of names and flags, `Display` of `ValidationError` | the tables of C28 read in both directions, case analysis; partial: two mechanisms and the capabilities of the findings |
| C55 | the fuzz targets of imap-codec/fuzz as propositions `...Panics` (`Fuzz.lean`) | C08, C11 and the exact form of the round trip; for the fragmentizer target: its loops are a history of calls, and an invariant over histories says that the emitted bytes are the concatenation of the finished fragments |
| C56 | the loop around `decode` that the documentation of the decoders describes (`Stream.lean`) | induction on the chunks; C05 and C06 make the messages found in a prefix those of the whole, C09 bounds the rounds |
| C57 | the order on builds `Spec.Extends` and what may differ between two messages (`FeaturesSpec.lean`) | the formal syntax of a build is contained in that of a build with more features and quirks, up to names that were unknown (`Features.lean`, `FeaturesServer.lean`); C48 and C49 carry that over to the decoders, C05 gives the statement about rejected inputs |
| C58 | the implementations of `Arbitrary`, handwritten and derived, as sets of possible results (`Arbitrary.lean`) | rules for the combinators and one instance per type, with induction on the depth for the recursive types (`ArbitraryLemmas.lean`); C55 gives the statements about the fuzz targets |
| C59 | as C58; the messages that are never generated are in `ArbitrarySpec.lean` (`Typical`) | for each type that its values can be generated from enough bytes, by induction on values (`ArbitraryReach.lean`); for each blind spot that no value in it is generated (`ArbitraryTypical.lean`) |
| C60 | all decoders and encoders as they are; the size of a list of writes is the length of the bytes (`Size.lean`) | for every parser a lower bound on twice the bytes it consumes by the size of the encoding of its result (`Uses`), compositional by type class (`SizeParts.lean`, `SizeCommand.lean`, `SizeResponse.lean`), by induction on the recursion limit for nested parts and on the merged ranges for sequence sets |
| C61 | the order on builds with the same features, `Spec.MoreQuirks`, and the one change that a quirk can make, `Spec.CodeQuirk` (`QuirksSpec.lean`) | C57 for the two builds; with the same features the known names are the same, so that only a code can differ, and the grammar of codes shows which (`Props/Quirks.lean`) |
| C62 | the size of a value of serde, `Value.size` (`MemorySpec.lean`) | for each type, its size is at most 64 times the length of its encoding (by induction for the recursive types), in a build that does not normalize sequence sets (`Memory.lean`, `MemoryResponse.lean`); then C60 and, for the builds that do, C61 (`Props/Memory.lean`). The capacity of vectors, and what is allocated and freed while decoding, are not modelled |
| C63 | values that differ in the order of fields, as sequences of swaps of two adjacent fields at any depth (`ReorderSpec.lean`) | each combinator of `Serde.lean` is shown to be invariant under a swap and passes this on to the types by type class resolution (`Reorder.lean`, `ReorderTypes.lean`); the recursive types by induction on the bound of their depth, which a swap does not change (`Props/Reorder.lean`) |
| C64 | the number of iterations of the loop of `LineParser::parse` during a history of calls (`WorkSpec.lean`) | that number is what the parser returns as parsed and what is dequeued, by induction on the bytes, then on the history; the bound on the fragments from C15, as a line that announces a literal has at least four bytes (`Props/Work.lean`) |
| C65 | all parsers once more, in a monad that counts the calls of basic parsers, the bytes that they look at and the rounds of loops (`TimedNom.lean`, `TimedCommand.lean`, `TimedResponse.lean`) | (1) they have the results of the parsers of the model, resolved by a type class along their structure (`TimedErase*.lean`); (2) ranks (constant, one look at each byte consumed, linear, and degrees) and factors are computed by a type class along their structure (`TimedBound.lean`, `TimedInst.lean`, `TimedBound*.lean`); (3) the recursive parsers pay with a weight for each byte that they consume, by induction on the limit (`TimedAmor.lean`): it is crucial that no two alternatives of one level recurse on the same input, or that whatever is tried after a recursion that failed fails at once. For a message in a body structure, the part that is tried next stops before the envelope, so that the closing parenthesis is missing. The conversions of what was parsed (`map`, `map_res`: numbers, base64, dates) are not counted; each runs once over the bytes that its parser consumed (`Props/Time.lean`) |
| C66 | the five decoders; which greeting looks like which response (`Response.asGreeting`, `Greeting.asResponse` in `Props/Kinds.lean`) | an accepted message is in the formal syntax of its kind (C48, C49), which says how it begins: with a tag and the name of a command, with a tag and OK, NO or BAD, with an asterisk or a plus sign and a space, or without a space before the line break. For each such beginning and each other decoder, the parser is shown to fail on it (`Kinds.lean`, `Props/Kinds.lean`) |
| C67 | the five decoders and the framing of C43 and C45 (`FramingSpec.lean`) | from each state of the reader that knows quoted strings and literals, a short continuation is constructed that ends with CRLF and ends the message (`run_close`); by C43 and C45 a decoder does not wait on a complete message, and a continuation request does not wait after CRLF; C05 and C06 extend this to all bytes that follow. The Fragmentizer: the invariant of C15 says what its parser waits for (`Props/Liveness.lean`) |
| C68 | the five encoders; UTF-8 as in Lean's library (`String.utf8EncodeChar`) | the calls that the encoder makes are listed as for C12 (`Shape.lean`), with another property of the text between the literals: one that 7-bit text has, that survives concatenation and that quoted UTF-8 has (`Wire.lean`). The validator of UTF-8 in the model accepts exactly the encodings of lists of characters (`Utf8.lean`), by cases on the lead byte and linear arithmetic (`Props/Wire.lean`) |
| C69 | the places in the decoder with `unwrap`, `assert_eq!`, `unreachable!`, indexing or `unvalidated` (`Panics.lean`), each as a parser followed by a function that can panic; debug assertions are a parameter | the postcondition of the parser (`Post.lean`) implies that the function does not panic; so each place equals the parser of the model, which cannot panic. The list of places comes from a search of the source and is trusted; panics in nom, chrono and base64 are not modelled |
| C70 | `progress` and `fragment_bytes` with the panics of slicing, `drain` and subtraction (`FragPanics.lean`) | invariant over all histories: the parser's start is not after its end, so that neither is that of a fragment; the stored bytes do not exceed the limit (C14) |

## 3. Findings

Where the code does not have a property, the negation is proved with a concrete witness, and a theorem with the suffix `_partial`
states the largest part that was found to hold. Paths are relative to /repo.

| what | where | theorem |
|------|-------|---------|
| FETCH data `MODSEQ` is encoded as `MODSEQ n`, but the decoder wants `MODSEQ (n)`: the encoding of each decoded response with MODSEQ is rejected | imap-codec/src/codec/encode.rs:1780, imap-codec/src/fetch.rs:153 | `C02_negation`, `C11_negation`, `C11_modSeq` |
| SCRAM-SHA3-512 and SCRAM-SHA3-512-PLUS are printed but not recognised; they are decoded to `Other` values of the same name, which the documentation excludes | imap-types/src/auth.rs:149-163 | `C01_negation`, `C28_negation_mechanism`, `C54_negation_mechanism` |
| The capability NAMESPACE is printed but not recognised | imap-types/src/response.rs:1117, 1163, 1177-1283 | `C02_negation_namespace`, `C28_negation_namespace`, `C54_negation_capability` |
| `QUOTA=X-RES-STORAGE` is taken for `QuotaRes(Storage)`, because the text before `res-` is ignored; names of other resources are turned to lowercase | imap-types/src/response.rs:1255-1261 | `C28_negation_quota`, `C54_negation_capability` |
| `FlagFetch::Flag` with the extension flag `Recent` is decoded as `FlagFetch::Recent` | imap-codec/src/flag.rs:59-67 | `C02_negation_recent` |
| `Code::Referral` is encoded but has no parser | imap-codec/src/codec/encode.rs:1367 | `C03_negation_referral` |
| A text that starts with `[` without a code is encoded as is, and then parsed as a code or rejected | imap-codec/src/response.rs | `C03_negation` |
| `QuotedUtf8` is public and unvalidated: CR LF inside of it is sent as is, so that it can carry a second command; pure ASCII content is decoded as `Quoted` | imap-types/src/extensions/utf8.rs:36, imap-codec/src/extensions/utf8.rs:20-54 | `C29_negation_quotedUtf8`, `C01_negation_utf8` |
| `CodeOther::unvalidated` and the URL of `Code::Referral` are unvalidated | imap-types/src/response.rs:880, 1013 | `C29_negation_code` |
| A literal of more than u32::MAX bytes is encoded but cannot be decoded | imap-codec/src/core.rs:155-167 | `C01_negation_literal` |
| Search keys nested deeper than the decoder's limit are encoded without complaint, and then rejected by the decoder | imap-codec/src/search.rs:103 | `C01_negation_depth` |
| The recursion limit of body structures starts again at 8 in each message/rfc822 part: for each n an accepted response with n nested messages exists, and the depth of calls is not bounded | imap-codec/src/body.rs:73 | `C27_negation_message`, `C27_negation_calls` |
| The text of a response may end with `{5}`: the fragmentizer (meant for client messages) then waits for a literal | imap-codec/src/fragmentizer.rs:333 | `C16_negation_text`, `C45_fails_text` |
| `SequenceSet::normalize` identifies u32::MAX with `*` and merges ranges into `x:*`; the result can denote other messages. The encoder calls it when `quirk_always_normalize_sequence_sets` is on | imap-types/src/sequence.rs:39-78 | `C21_fails_star_dropped`, `C21_fails_star_merged`, `C21_fails_existing` |
| `TryFrom<Range<..>>`: empty and reversed ranges denote messages, and the start of a `Range<NonZeroU32>` is ignored | imap-types/src/sequence.rs | `C33_fails_empty`, `C33_fails_reversed`, `C33_fails_nonzero_range` |
| `FromStr for SequenceSet` accepts `+5` (and `+05`), which the wire decoder and RFC 3501 reject; the wire decoder accepts `05`, which `FromStr` and RFC 3501 reject | imap-types/src/sequence.rs:431-450, imap-codec/src/core.rs:38-47 | `C39_fails_plus`, `C39_fails_zero` |
| `PartialOrd for Sequence` is not consistent with `Eq`: a range is not comparable with itself | imap-types/src/sequence.rs:260-270 | `C40_fails_reflexive` |
| The decoder accepts line breaks in quoted strings, the Fragmentizer does not know quoted strings: a message that is complete for the Fragmentizer is incomplete for the decoder, and one LOGIN command for the decoder is three messages for the Fragmentizer, one of which deletes a mailbox | imap-codec/src/extensions/utf8.rs:26-54, imap-codec/src/fragmentizer.rs | `C41_fails_waiting`, `C41_fails_decoded` |
| `continue_req` looks for CRLF with `take_until` before anything else: for a request that ends with LF, the decoder asks for more bytes forever, where other responses are rejected | imap-codec/src/response.rs:293-299 | `C45_fails_continuation` |
| `fragment_bytes` clamps both bounds to the message, but not start to end: it panics on a `FragmentInfo` made by the caller (its fields are public) with start after end, when end is before the end of the message | imap-codec/src/fragmentizer.rs:172-180 | `C70_fails_handmade` |
| `Debug` of `Encoded`, `Fragment` and `Fragmentizer` prints passwords, byte by byte, with or without debug assertions | imap-codec/src/codec/encode.rs:127-164, imap-codec/src/fragmentizer.rs:63 | `C47_fails_encoded`, `C47_fails_fragmentizer` |
| With debug assertions, `Debug` prints secrets | imap-types/src/secret.rs:46 | `C47_fails_debug_assertions` |
| Deviations from the ABNF of the RFCs, more is accepted: leading zeros in nz-number; 64 instead of 63 bits in RFC 7162 and RFC 9208; empty lists of items in STATUS and FETCH; empty base64 where RFC 4959 wants `=`; any octets in quoted strings with UTF-8, also line breaks; `*` in the UID sets of QRESYNC; VANISHED in FETCH without UID; any string as entry name of METADATA | comments LENIENT in Verif/GrammarSpec.lean | `C48_lenient`, `C48_command` |
| Less is accepted: no literals as charset of SEARCH; search keys nested at most 9 deep | comments STRICT in Verif/GrammarSpec.lean | `C48_strict`, `C48_command` |
| Server messages, more is accepted: capabilities without IMAP4rev1; any characters in an unknown code; any characters before `RES-` in `QUOTA=`; empty lists of parameters in bodies; contradicting flags of mailboxes; any string as entry name of METADATA; and what the quirks allow | comments LENIENT in Verif/GrammarServerSpec.lean | `C49_lenient`, `C49_response` |
| Server messages, less is accepted: no literals as charset; one UID after APPENDUID; no empty list of quota resources; bodies, body extensions and threads only up to a depth | comments STRICT in Verif/GrammarServerSpec.lean | `C49_strict`, `C49_response` |
| The encoder writes FETCH MODSEQ without parentheses, which no RFC allows (see C03) | imap-codec/src/codec/encode.rs | `C49_encode_counterexample` |
| `Deserialize` is derived for `FlagExtension`, `FlagNameAttributeExtension`, `AttributeFlagExtension`, `AuthMechanismOther`, `CapabilityOther`, `CapabilityEnableOther`, `ResourceOther`, `SortAlgorithmOther` and `ThreadingAlgorithmOther`: a deserialized value can hold a known name, which the documentation excludes; the peer then decodes another value | imap-types/src/flag.rs:48-50 and others | `C52_negation`, `C52_negation_decoded` |
| With the default features the fuzz target `command` panics for valid input such as `A COPY 2,1 x`: the decoder keeps the set 2,1, the encoder writes 1:2, and the target compares the two messages | imap-codec/fuzz/src/lib.rs:34, imap-codec/src/codec/encode.rs:1028-1036 | `C55_command_negation`, `C55_decode_target` |
| The structured fuzz targets panic for messages that the generators make: `COPY 2,1` (normalization, as above), FETCH flags with an extension flag spelled `\Recent`, and, with these extensions, referral codes and FETCH MODSEQ. Nothing else in a generated message can make them panic | imap-types/src/arbitrary.rs, imap-codec/fuzz/src/lib.rs:78-108 | `C58_back_target`, `C58_negation_command`, `C58_negation_response`, `C58_negation_greeting` |
| The generators never make a body extension that is a list (`int_in_range(1..=2)` before a match with three cases), nor a time west of UTC (the range of `hours` starts at 0 and is in seconds), nor a mailbox as a quoted string or literal if its name is an atom | imap-types/src/arbitrary.rs:458, 508, 70 | `C58_bodyExtension`, `C58_dateTime`, `C58_mailbox` |
| The generators never make a thread with two different subthreads (each level is a pair of clones), an unknown response code other than `IMAP-CODEC-CODE-OTHER>`, a greeting whose text starts with `[` after a code, more than seven levels of search keys or three levels of body structures, nor the search key MODSEQ inside seven levels | imap-types/src/arbitrary.rs, extensions/thread.rs | `C59_typical`, `C59_negation_thread`, `C59_negation_code`, `C59_negation_greeting` |
| With `quirk_trailing_space_capability` (on by default), the code in `* OK [CAPABILITY IMAP4rev1 ] x`, which is unknown without it, becomes the code CAPABILITY. No other quirk changes a message that is accepted without it | imap-codec/src/response.rs | `C61_exception`, `C61_same` |

## 4. Trusted base

* The kernel of Lean 4.33.0. Each theorem listed in `MANIFEST.json` depends on no other axioms than `propext`, `Classical.choice` and
  `Quot.sound`. There is no `sorry`, `native_decide`, `bv_decide` or additional axiom.
* The faithfulness of the hand translation of /repo; each definition of the model cites the lines it models, and states where it
  simplifies. As a check on the translation, `ConformanceDecode.lean` and `ConformanceParts.lean` run the repository's own tests of the
  codec on the model: 126 cases of `kat_inverse_*`, 252 lines of traces, 112 outcomes of decoding, the fragments and bytes expected of the
  encoder and the tests of single parsers, with and without the quirks. They are tests of the model, not proofs, and no property rests on
  them. The model agrees with all of them.
* Library code that is not part of /repo and is modelled from its documentation: nom 7 streaming combinators, abnf-core rules (`sp`, `crlf`,
  `dquote`, ...), `base64::STANDARD`, `chrono`, `std::str::from_utf8` (the validator is proved to accept exactly UTF-8 as Lean's library defines it: `isUtf8_iff`), integer parsing and printing, `str`/`Vec`/`HashSet`
  operations, atomics, and what serde_derive generates (`Verif/Nom.lean`, `Verif/Core.lean`, `Verif/Serde.lean` and the files that cite them). `HashSet` iteration order and the sorting algorithm are
  parameters of the theorems about `normalize`.
* The reading of the English properties: the specifications are in `WellFormed.lean`, `SeqSpec.lean`, `FragSpec.lean`, `FragEncSpec.lean`,
  `ConstructorsSpec.lean`, `NamesSpec.lean`, `NumbersSpec.lean`, `Base64Spec.lean`, `DatesSpec.lean`, `RecursionSpec.lean`, `CaseSpec.lean`, `CaseResponseSpec.lean`, `SeqTextSpec.lean`, `FramingSpec.lean`, `HandshakeSpec.lean`, `GrammarSpec.lean`, `GrammarServerSpec.lean`, `SerdeSpec.lean`, `PrintingSpec.lean`, `FeaturesSpec.lean`, `QuirksSpec.lean`, `MemorySpec.lean`, `ReorderSpec.lean`, `WorkSpec.lean`, `TimedNom.lean` (what C65 counts), and do not
  refer to the parsers or encoders. `StreamSpec.lean` refers to `decode` on the whole input. `SessionSpec.lean` specifies a client and a network in terms of the encoder.

## 5. What is modelled

| code | model |
|------|-------|
| imap-codec/src/core.rs, sequence.rs, mailbox.rs, flag.rs, datetime.rs, auth.rs, status.rs | Core.lean, Parts.lean |
| imap-codec/src/search.rs, fetch.rs (names) | Search.lean, FetchName.lean |
| imap-codec/src/command.rs, extensions/*.rs (commands) | Command.lean |
| imap-codec/src/envelope.rs, body.rs | Body.lean |
| imap-codec/src/response.rs, fetch.rs (items), extensions/*.rs (responses) | Response.lean |
| imap-codec/src/codec.rs, codec/decode.rs, codec/encode.rs | Codec.lean, Enc.lean and the `enc` functions in the files above |
| imap-codec/src/fragmentizer.rs | Fragmentizer.lean; with the panics of slicing, `drain` and subtraction: FragPanics.lean |
| the places in the parsers that can panic, and debug assertions of `unvalidated` | Panics.lean |
| imap-codec/examples/server.rs | Server.lean |
| imap-codec/examples/client.rs | Viewer.lean |
| imap-codec/fuzz | Fuzz.lean |
| imap-types: the feature `arbitrary` (arbitrary.rs, extensions/{sort,thread}.rs, derived implementations) | Arbitrary.lean |
| imap-codec/src/codec/decode.rs (documentation: how to use a decoder) | Stream.lean |
| imap-types: the feature `serde` | Serde.lean, SerdeTypes.lean |
| imap-types/src/sequence.rs | Sequence.lean, SeqText.lean |
| imap-types/src/core.rs, mailbox.rs, command.rs, response.rs, flag.rs, auth.rs (constructors) | Types.lean, Core.lean, Parts.lean |
| imap-types/src/extensions/*.rs (constructors) | ExtTypes.lean |
| imap-types: `Display`, `AsRef<str>`, `TryFrom<&str>` of names, error.rs | Printing.lean |
| imap-types/src/core.rs (TagGenerator) | TagGen.lean |
| imap-types/src/utils.rs | Utils.lean |
| imap-types/src/extensions/thread.rs (`Display`) | ThreadDisplay.lean |
| imap-types/src/secret.rs, `Debug` of the types that hold secrets | Debug.lean |

## 6. Not modelled

The crate `arbitrary` itself (its generators of numbers, strings and lists are assumed to return any value of the type; strings are parts of the random bytes) and the generators of `chrono`,
`Debug` of types without secrets, `bounded-static` (owned copies), texts of errors other than `ValidationError`, the memory that decoding uses other than for its result (C62, C14), time in seconds (C64 and C65 count steps), `state.rs`, benchmarks,
and in the examples the reading of lines from a terminal.
