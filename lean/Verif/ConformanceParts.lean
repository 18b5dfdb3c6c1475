/-
The repository's own tests of the parts of messages, run on the model: the parsers of the single rules, and what the
encoder writes for single values and for messages.

These are tests, not proofs of anything about all inputs: they compare the model with the answers that the authors of
the code expect of it. Each example names the test in /repo that it transcribes.
-/
import Verif.Codec

set_option maxRecDepth 10000

namespace Imap.Conformance

section
attribute [local instance] Quirks.default

/-- `is_ok` of a parser's result. -/
def accepts {α : Type} : Res α → Bool
  | .ok _ _ => true
  | _ => false

/-- The parser's value and remainder. -/
def yields {α : Type} : Res α → Option (Bytes × α)
  | .ok r v => some (r, v)
  | _ => none

/-! ### Encoding -/

/-- imap-codec/src/codec/encode.rs:2189 `test_encode_command`. -/
example :
    [ Codec.encode .command ⟨b!"A", .login (.atom b!"alice") (.atom b!"pass")⟩,
      Codec.encode .command ⟨b!"A", .login (.atom b!"alice") (.string (.literal ⟨[0xCA, 0xFE], .sync⟩))⟩,
      Codec.encode .command ⟨b!"A", .authenticate .login none⟩,
      Codec.encode .command ⟨b!"A", .authenticate .login (some b!"alice")⟩,
      Codec.encode .command ⟨b!"A", .authenticate .plain none⟩,
      Codec.encode .command ⟨b!"A", .authenticate .plain (some ([0] ++ b!"alice" ++ [0] ++ b!"pass"))⟩ ] =
    [ [.line b!"A LOGIN alice pass\r\n"],
      [.line b!"A LOGIN alice {2}\r\n", .literal [0xCA, 0xFE] .sync, .line b!"\r\n"],
      [.line b!"A AUTHENTICATE LOGIN\r\n"],
      [.line b!"A AUTHENTICATE LOGIN YWxpY2U=\r\n"],
      [.line b!"A AUTHENTICATE PLAIN\r\n"],
      [.line b!"A AUTHENTICATE PLAIN AGFsaWNlAHBhc3M=\r\n"] ] := by with_unfolding_all rfl

/-- imap-codec/src/codec/encode.rs:2261 `test_encode_response`. -/
example :
    [ Codec.encode .response (.data (.fetch 12345 [.bodyExt none none (some (.literal ⟨b!"ABCDE", .sync⟩))])),
      Codec.encode .response (.data (.fetch 12345 [.bodyExt none none (some (.literal ⟨b!"ABCDE", .nonSync⟩))])) ] =
    [ [.line b!"* 12345 FETCH (BODY[] {5}\r\n", .literal b!"ABCDE" .sync, .line b!")\r\n"],
      [.line b!"* 12345 FETCH (BODY[] {5+}\r\n", .literal b!"ABCDE" .nonSync, .line b!")\r\n"] ] := by
  with_unfolding_all rfl

/-- imap-codec/src/command.rs:882 `test_that_empty_ir_is_encoded_correctly`. -/
example : dump (Codec.encode .command ⟨b!"A", .authenticate .plain (some [])⟩) = b!"A AUTHENTICATE PLAIN =\r\n" := by
  with_unfolding_all rfl

/-- imap-codec/src/datetime.rs:226 `test_encode_date_time`. -/
example :
    [ (⟨⟨1994, 2, 7⟩, 21, 52, 25, -28800⟩ : DateTime), ⟨⟨0, 2, 7⟩, 21, 52, 25, -28800⟩ ].map (fun t => bytes t.enc) =
    [ b!"\"07-Feb-1994 21:52:25 -0800\"", b!"\"07-Feb-0000 21:52:25 -0800\"" ] := by with_unfolding_all rfl

/-- imap-codec/src/body.rs:754 `test_encode_single_part_extension_data`. -/
example : bytes (SinglePartExt.enc ⟨none, some ⟨none, some ⟨[], some ⟨some (.quoted []), []⟩⟩⟩⟩) = b!"NIL NIL NIL \"\"" := by
  with_unfolding_all rfl

/-- imap-codec/src/search.rs:328 `test_encode_search_key`. -/
example :
    [ .and [.answered], .and [.answered, .seen], .sequenceSet [.single (.value 1)], .all, .answered, .bcc (.atom b!"A"),
      .before ⟨2023, 4, 12⟩, .body (.atom b!"A"), .cc (.atom b!"A"), .deleted, .draft, .flagged, .from_ (.atom b!"A"),
      .header (.atom b!"A") (.atom b!"B"), .keyword b!"A", .larger 42, .new, .not .new, .old, .on ⟨2023, 4, 12⟩,
      .or .new .recent, .recent, .seen, .sentBefore ⟨2023, 4, 12⟩, .sentOn ⟨2023, 4, 12⟩, .sentSince ⟨2023, 4, 12⟩,
      .since ⟨2023, 4, 12⟩, .smaller 1337, .subject (.atom b!"A"), .text (.atom b!"A"), .to (.atom b!"A"),
      .uid [.range (.value 1) .asterisk], .unanswered, .undeleted, .undraft, .unflagged, .unkeyword b!"A",
      .unseen ].map (fun k : SearchKey => bytes k.enc) =
    [ b!"(ANSWERED)", b!"(ANSWERED SEEN)", b!"1", b!"ALL", b!"ANSWERED", b!"BCC A", b!"BEFORE \"12-Apr-2023\"",
      b!"BODY A", b!"CC A", b!"DELETED", b!"DRAFT", b!"FLAGGED", b!"FROM A", b!"HEADER A B", b!"KEYWORD A",
      b!"LARGER 42", b!"NEW", b!"NOT NEW", b!"OLD", b!"ON \"12-Apr-2023\"", b!"OR NEW RECENT", b!"RECENT", b!"SEEN",
      b!"SENTBEFORE \"12-Apr-2023\"", b!"SENTON \"12-Apr-2023\"", b!"SENTSINCE \"12-Apr-2023\"",
      b!"SINCE \"12-Apr-2023\"", b!"SMALLER 1337", b!"SUBJECT A", b!"TEXT A", b!"TO A", b!"UID 1:*", b!"UNANSWERED",
      b!"UNDELETED", b!"UNDRAFT", b!"UNFLAGGED", b!"UNKEYWORD A", b!"UNSEEN" ] := by with_unfolding_all rfl

/-- imap-codec/src/auth.rs:52 `test_encode_auth_mechanism`. -/
example :
    [ .plain, .login, .oAuthBearer, AuthMechanism.ofAtom b!"PLAINX", AuthMechanism.ofAtom b!"LOGINX",
      AuthMechanism.ofAtom b!"XOAUTH2X" ].map (fun m : AuthMechanism => bytes m.enc) =
    [ b!"PLAIN", b!"LOGIN", b!"OAUTHBEARER", b!"PLAINX", b!"LOGINX", b!"XOAUTH2X" ] := by with_unfolding_all rfl

/-- imap-codec/src/response.rs:715 `test_encode_body_structure`. -/
example :
    [ .basic ⟨[], none, some (.quoted b!"description"), .quoted b!"cte", 123⟩ (.quoted b!"application") (.quoted b!"voodoo")
        none,
      .text ⟨[], none, some (.quoted b!"description"), .quoted b!"cte", 123⟩ (.quoted b!"plain") 14 none,
      .text ⟨[], none, some (.quoted b!"description"), .quoted b!"cte", 123⟩ (.quoted b!"plain") 14
        (some ⟨some (.quoted b!"AABB"), some ⟨none, some ⟨[], some ⟨none, [.list [.number 1337]]⟩⟩⟩⟩) ].map
      (fun b : BodyStructure => bytes b.enc) =
    [ b!"(\"application\" \"voodoo\" NIL NIL \"description\" \"cte\" 123)",
      b!"(\"TEXT\" \"plain\" NIL NIL \"description\" \"cte\" 123 14)",
      b!"(\"TEXT\" \"plain\" NIL NIL \"description\" \"cte\" 123 14 \"AABB\" NIL NIL NIL (1337))" ] := by
  with_unfolding_all rfl

/-- imap-codec/src/fetch.rs:365 `test_encode_message_data_item_name`. -/
example :
    [ .body, .bodyExt none none false, .bodyStructure, .envelope, .flags, .internalDate, .rfc822, .rfc822Header,
      .rfc822Size, .rfc822Text, .uid ].map (fun n : MessageDataItemName => bytes n.enc) =
    [ b!"BODY", b!"BODY[]", b!"BODYSTRUCTURE", b!"ENVELOPE", b!"FLAGS", b!"INTERNALDATE", b!"RFC822", b!"RFC822.HEADER",
      b!"RFC822.SIZE", b!"RFC822.TEXT", b!"UID" ] := by with_unfolding_all rfl

/-- imap-codec/src/fetch.rs:393 `test_encode_message_data_item`. -/
example :
    [ .body (.text ⟨[], none, none, .quoted b!"base64", 42⟩ (.quoted b!"foo") 1337 none),
      .bodyExt none none none, .bodyExt none (some 123) none,
      .bodyStructure (.text ⟨[], none, none, .quoted b!"base64", 213⟩ (.quoted []) 224 none),
      .envelope ⟨none, none, [], [], [], [], [], [], none, none⟩, .flags [],
      .internalDate ⟨⟨2003, 7, 1⟩, 10, 52, 37, 7200⟩, .rfc822 none, .rfc822Header none, .rfc822Size 3456,
      .rfc822Text none, .uid 4294967295 ].map (fun x : MessageDataItem => bytes x.enc) =
    [ b!"BODY (\"TEXT\" \"foo\" NIL NIL NIL \"base64\" 42 1337)", b!"BODY[] NIL", b!"BODY[]<123> NIL",
      b!"BODYSTRUCTURE (\"TEXT\" \"\" NIL NIL NIL \"base64\" 213 224)",
      b!"ENVELOPE (NIL NIL NIL NIL NIL NIL NIL NIL NIL NIL)", b!"FLAGS ()",
      b!"INTERNALDATE \"01-Jul-2003 10:52:37 +0200\"", b!"RFC822 NIL", b!"RFC822.HEADER NIL", b!"RFC822.SIZE 3456",
      b!"RFC822.TEXT NIL", b!"UID 4294967295" ] := by with_unfolding_all rfl

/-- imap-codec/src/fetch.rs:497 `test_encode_section`. -/
example :
    [ .part [1], .header none, .header (some [1]), .headerFields none [.string (.quoted [])],
      .headerFields (some [1]) [.string (.quoted [])], .headerFieldsNot none [.string (.quoted [])],
      .headerFieldsNot (some [1]) [.string (.quoted [])], .text none, .text (some [1]), .mime [1] ].map
      (fun s : Section => bytes s.enc) =
    [ b!"1", b!"HEADER", b!"1.HEADER", b!"HEADER.FIELDS (\"\")", b!"1.HEADER.FIELDS (\"\")",
      b!"HEADER.FIELDS.NOT (\"\")", b!"1.HEADER.FIELDS.NOT (\"\")", b!"TEXT", b!"1.TEXT", b!"1.MIME" ] := by
  with_unfolding_all rfl

/-- imap-codec/src/status.rs:106 `test_encode_status_data_item_name`. -/
example :
    [ .messages, .recent, .uidNext, .uidValidity, .unseen, .deleted, .deletedStorage ].map
      (fun s : StatusDataItemName => bytes s.enc) =
    [ b!"MESSAGES", b!"RECENT", b!"UIDNEXT", b!"UIDVALIDITY", b!"UNSEEN", b!"DELETED", b!"DELETED-STORAGE" ] := by
  with_unfolding_all rfl

/-- imap-codec/src/status.rs:123 `test_encode_status_data_item`. -/
example :
    [ .messages 0, .recent 4294967295, .uidNext 1, .uidValidity 4294967295, .unseen 0, .deleted 1,
      .deletedStorage 18446744073709551615 ].map (fun s : StatusDataItem => bytes s.enc) =
    [ b!"MESSAGES 0", b!"RECENT 4294967295", b!"UIDNEXT 1", b!"UIDVALIDITY 4294967295", b!"UNSEEN 0", b!"DELETED 1",
      b!"DELETED-STORAGE 18446744073709551615" ] := by with_unfolding_all rfl

/-- imap-codec/src/sequence.rs:90 `test_encode_of_some_sequence_sets`. -/
example :
    [ .single (.value 1), .single .asterisk, .range (.value 1) .asterisk ].map (fun s : Sequence => bytes s.enc) =
    [ b!"1", b!"*", b!"1:*" ] := by with_unfolding_all rfl

/-- imap-codec/src/core.rs `test_encode_charset`; what `Charset::try_from` makes of a text is in `Verif.ConstructorsSpec`. -/
example :
    [ .atom b!"bengali", .quoted b!"\"simple\" english", .quoted [], .quoted b!"\"", .quoted b!"\\" ].map
      (fun c : Charset => bytes c.enc) =
    [ b!"bengali", b!"\"\\\"simple\\\" english\"", b!"\"\"", b!"\"\\\"\"", b!"\"\\\\\"" ] := by with_unfolding_all rfl

/-! ### Parsing -/

/-- imap-codec/src/core.rs `test_atom`. -/
example :
    accepts (atom b!" ") = false ∧ accepts (atom []) = false ∧ atom b!"a(" = .ok b!"(" b!"a" ∧
    atom b!"xxx yyy" = .ok b!" yyy" b!"xxx" := by with_unfolding_all decide

/-- imap-codec/src/core.rs `test_quoted`. -/
example :
    quoted b!"\"Hello\"???" = .ok b!"???" b!"Hello" ∧ accepts (quoted b!"\"Hello \\\" \"???") ∧
    accepts (quoted b!"\"Hello \\\\ \"???") ∧ accepts (quoted b!"\"Hello \\a \"???") = false ∧
    accepts (quoted b!"\"Hello \\z \"???") = false ∧ accepts (quoted b!"\"Hello \\? \"???") = false ∧
    quoted b!"\"Hello \\\"World\\\"\"???" = .ok b!"???" b!"Hello \"World\"" ∧ quoted [] = .incomplete ∧
    quoted b!"\"\\" = .incomplete ∧ quoted b!"\"Hello " = .incomplete ∧ quoted b!"\\" = .error := by
  refine ⟨?_, ?_, ?_, ?_, ?_, ?_, ?_, ?_, ?_, ?_, ?_⟩ <;> with_unfolding_all rfl

/-- imap-codec/src/core.rs `test_quoted_char`, `test_number`, `test_nz_number`, `test_nil`. -/
example :
    quotedChar b!"\\\"xxx" = .ok b!"xxx" 34 ∧ [[], b!"?", b!"0?", b!"55?", b!"999?"].map (fun x => accepts (number x)) =
      [false, false, true, true, true] ∧
    [b!"0?", b!"55?", b!"999?"].map (fun x => accepts (nzNumber x)) = [false, true, true] ∧
    [b!"nil", b!"nil ", b!" nil", b!"null"].map (fun x => accepts (nil x)) = [true, true, false, false] ∧
    nil b!"nilxxx" = .ok b!"xxx" () := by
  refine ⟨?_, ?_, ?_, ?_, ?_⟩ <;> with_unfolding_all rfl

/-- imap-codec/src/core.rs `test_literal`. -/
example :
    accepts (literal b!"{3}\r\n123") = true ∧ accepts (literal (b!"{3}\r\n1" ++ [0] ++ b!"3")) = false ∧
    literal b!"{3}\r\n123xxx" = .ok b!"xxx" ⟨b!"123", .sync⟩ := by
  refine ⟨?_, ?_, ?_⟩ <;> with_unfolding_all rfl

/-- imap-codec/src/datetime.rs:252-316 `test_date`, `test_date_text`, `test_date_day`, `test_date_month`,
`test_date_year`, `test_date_day_fixed`. -/
example :
    [b!"1-Feb-2020xxx", b!"\"1-Feb-2020\"xxx", b!"\"01-Feb-2020\"xxx"].map date =
      List.replicate 3 (.ok b!"xxx" (some ⟨2020, 2, 1⟩)) ∧
    dateText b!"1-Feb-2020" = .ok [] (some ⟨2020, 2, 1⟩) ∧
    [b!"1xxx", b!"01xxx", b!"999xxx"].map digit12 = [.ok b!"xxx" 1, .ok b!"xxx" 1, .ok b!"9xxx" 99] ∧
    [b!"jAn", b!"DeCxxx"].map dateMonth = [.ok [] 1, .ok b!"xxx" 12] ∧
    [b!"1985xxx", b!"1991xxx"].map digit4 = [.ok b!"xxx" 1985, .ok b!"xxx" 1991] ∧
    [b!"00", b!" 0", b!"99", b!" 9"].map dateDayFixed = [.ok [] 0, .ok [] 0, .ok [] 99, .ok [] 9] := by
  refine ⟨?_, ?_, ?_, ?_, ?_, ?_⟩ <;> with_unfolding_all rfl

/-- imap-codec/src/datetime.rs:341 `test_time`. -/
example :
    [b!"1:34:56xxx", b!"12:3:56xxx", b!"12:34:5xxx", b!"12:34:56xxx", b!"99:99:99 ", b!"12:34:56", b!"99:99:99"].map
      (fun x => yields (time x)) =
    [none, none, none, some (b!"xxx", some (12, 34, 56)), some (b!" ", none), some ([], some (12, 34, 56)),
      some ([], none)] := by with_unfolding_all rfl

/-- imap-codec/src/datetime.rs:364 `test_date_time`. -/
example : dateTime b!"\" 1-Feb-1985 12:34:56 +0100\"xxx" = .ok b!"xxx" ⟨⟨1985, 2, 1⟩, 12, 34, 56, 3600⟩ := by
  with_unfolding_all rfl

/-- imap-codec/src/datetime.rs:387 `test_date_time_invalid`. -/
example :
    [ b!"\" 1-Feb-0000 12:34:56 +0000\"xxx", b!"\" 1-Feb-9999 12:34:56 +0000\"xxx",
      b!"\" 1-Feb-0000 12:34:56 -0000\"xxx", b!"\" 1-Feb-9999 12:34:56 -0000\"xxx",
      b!"\" 1-Feb-2020 00:00:00 +0100\"xxx", b!"\" 1-Feb-0000 12:34:56 +9999\"xxx",
      b!"\" 1-Feb-9999 12:34:56 +9999\"xxx", b!"\" 1-Feb-0000 12:34:56 -9999\"xxx",
      b!"\" 1-Feb-9999 12:34:56 -9999\"xxx", b!"\" 1-Feb-2020 99:99:99 +0100\"xxx",
      b!"\"31-Feb-2020 00:00:00 +0100\"xxx", b!"\"99-Feb-2020 99:99:99 +0100\"xxx" ].map
      (fun x => (yields (dateTime x)).map (·.1)) =
    List.replicate 5 (some b!"xxx") ++ List.replicate 7 none := by with_unfolding_all rfl

/-- imap-codec/src/datetime.rs:415 `test_zone`. -/
example :
    [b!"+0000xxx", b!"+0000", b!"-0205xxx", b!"-1159"].map zone =
    [.ok b!"xxx" (some 0), .ok [] (some 0), .ok b!"xxx" (some (-7500)), .ok [] (some (-43140))] := by
  with_unfolding_all rfl

/-- imap-codec/src/flag.rs:144-191 `test_parse_flag_fetch`, `test_parse_flag_perm`, `test_parse_mbx_list_flags`. -/
example :
    flagFetch b!"iS)" = .ok b!")" (.flag (.keyword b!"iS")) ∧
    [b!"\\Deleted)", b!"\\Deletedx)", b!"\\Seen ", b!"\\*)"].map flagPerm =
      [.ok b!")" (.flag .deleted), .ok b!")" (.flag (.extension b!"Deletedx")), .ok b!" " (.flag .seen),
        .ok b!")" .asterisk] ∧
    [b!"\\Markedm)", b!"\\Marked)"].map mbxListFlags =
      [.ok b!")" [.extension b!"Markedm"], .ok b!")" [.marked]] := by
  refine ⟨?_, ?_, ?_⟩ <;> with_unfolding_all rfl

/-- imap-codec/src/sequence.rs:113-153 `test_parse_sequence_set`, `test_parse_seq_number`, `test_parse_seq_range`. -/
example :
    accepts (sequenceSet b!"1:*?") = true ∧ accepts (sequenceSet b!"1:*,5?") = true ∧
    [b!"0?", b!"1?", b!"*?"].map (fun x => accepts (seqNumber x)) = [false, true, true] ∧
    [b!"0:1?", b!"1:2?", b!"1:*?", b!"*:10?"].map (fun x => yields (seqRange x)) =
      [none, some (b!"?", .value 1, .value 2), some (b!"?", .value 1, .asterisk), some (b!"?", .asterisk, .value 10)] := by
  refine ⟨?_, ?_, ?_, ?_⟩ <;> with_unfolding_all rfl

/-- imap-codec/src/envelope.rs:251 `test_parse_address`. -/
example : address b!"(nil {3}\r\nxxx \"xxx\" nil)" =
    .ok [] ⟨none, some (.literal ⟨b!"xxx", .sync⟩), some (.quoted b!"xxx"), none⟩ := by with_unfolding_all rfl

/-- imap-codec/src/extensions/condstore_qresync.rs:146 `test_condstore_qresync_codes`. -/
example :
    [ b!"[MODIFIED 7,9] Conditional STORE failed\r\n",
      b!"[NOMODSEQ] Sorry, this mailbox format doesn't support modsequences\r\n",
      b!"[HIGHESTMODSEQ 715194045007] Highest\r\n" ].map (fun x => accepts (respText x)) = [true, true, true] := by
  with_unfolding_all rfl

/-- imap-codec/src/extensions/uidplus.rs:216 `test_uid_set`. -/
example : uidSet b!"1:5 " = .ok b!" " [.range 1 5] := by with_unfolding_all rfl

/-- imap-codec/src/extensions/thread.rs:165 `test_thread_list`: what is parsed, and what the expected threads print as. -/
example :
    [ b!"(1)", b!"(1 2)", b!"((1)(2))", b!"(1 (2)(3))", b!"(1 (2 4)(3))", b!"(1 (2 4 (5)(6))(3))",
      b!"(1 (2)(3)(((4)(5))(6)))" ].map (fun x => (yields (threadList 8 x)).map (fun y => (y.1, bytes y.2.enc))) =
    [ b!"(1)", b!"(1 2)", b!"((1)(2))", b!"(1 (2)(3))", b!"(1 (2 4)(3))", b!"(1 (2 4 (5)(6))(3))",
      b!"(1 (2)(3)(((4)(5))(6)))" ].map (fun x => some ([], x)) := by with_unfolding_all rfl

/-- imap-codec/src/auth.rs:68 `test_parse_auth_type`. -/
example :
    [b!"plain ", b!"pLaiN ", b!"lOgiN ", b!"login ", b!"loginX ", b!"Xplain "].map authType =
    [ .ok b!" " .plain, .ok b!" " .plain, .ok b!" " .login, .ok b!" " .login, .ok b!" " (.other b!"loginX"),
      .ok b!" " (.other b!"Xplain") ] := by with_unfolding_all rfl

/-- imap-codec/src/command.rs:825 `test_parse_fetch_att`. -/
example :
    [ b!"ENVELOPE???", b!"FLAGS???", b!"INTERNALDATE???", b!"RFC822???", b!"RFC822.HEADER???", b!"RFC822.SIZE???",
      b!"RFC822.TEXT???", b!"BODY???", b!"BODYSTRUCTURE???", b!"UID???", b!"BODY[]???", b!"BODY.PEEK[]???",
      b!"BODY.PEEK[TEXT]???", b!"BODY.PEEK[TEXT]<42.1337>???" ].map fetchAtt =
    [ .envelope, .flags, .internalDate, .rfc822, .rfc822Header, .rfc822Size, .rfc822Text, .body, .bodyStructure, .uid,
      .bodyExt none none false, .bodyExt none none true, .bodyExt (some (.text none)) none true,
      .bodyExt (some (.text none)) (some (42, 1337)) true ].map (Res.ok b!"???") := by with_unfolding_all rfl

/-- imap-codec/src/search.rs:255 `test_parse_search`. -/
example : search b!"search (uid 5 or uid 5 (uid 1 uid 2) not uid 5)???" =
    .ok b!"???" (.search none
      [.and [.uid [.single (.value 5)],
        .or (.uid [.single (.value 5)]) (.and [.uid [.single (.value 1)], .uid [.single (.value 2)]]),
        .not (.uid [.single (.value 5)])]] false) := by with_unfolding_all rfl

/-- imap-codec/src/search.rs:320 `test_parse_search_key`. -/
example :
    accepts (searchKey 1 b!"1:5|") = true ∧ accepts (searchKey 1 b!"(1:5)|") = false ∧
    accepts (searchKey 2 b!"(1:5)|") = true ∧ accepts (searchKey 2 b!"((1:5))|") = false := by
  refine ⟨?_, ?_, ?_, ?_⟩ <;> with_unfolding_all rfl

/-- imap-codec/src/body.rs:620 `test_parse_body_ext_1part`. -/
example :
    ∀ x ∈ [ b!"nil|xxx", b!"\"md5\"|xxx", b!"\"md5\" nil|xxx", b!"\"md5\" (\"dsp\" nil)|xxx",
      b!"\"md5\" (\"dsp\" (\"key\" \"value\")) nil|xxx",
      b!"\"md5\" (\"dsp\" (\"key\" \"value\")) \"swedish\"|xxx",
      b!"\"md5\" (\"dsp\" (\"key\" \"value\")) (\"german\" \"russian\")|xxx",
      b!"\"md5\" (\"dsp\" (\"key\" \"value\")) (\"german\" \"russian\") nil|xxx",
      b!"\"md5\" (\"dsp\" (\"key\" \"value\")) (\"german\" \"russian\") \"loc\"|xxx",
      b!"\"md5\" (\"dsp\" (\"key\" \"value\")) (\"german\" \"russian\") \"loc\" (1 \"2\" (nil 4))|xxx",
      b!"\"AABB\" NIL NIL NIL 1337|xxx", b!"\"AABB\" NIL NIL NIL (1337)|xxx", b!"\"AABB\" NIL NIL NIL (1337 1337)|xxx",
      b!"\"AABB\" NIL NIL NIL (1337 (1337 (1337 \"FOO\" {0}\r\n)))|xxx" ],
    (yields (bodyExt1part x)).map (·.1) = some b!"|xxx" := by decide +kernel

/-- imap-codec/src/body.rs:651 `test_parse_body_ext_mpart`. -/
example :
    ∀ x ∈ [ b!"nil|xxx", b!"(\"key\" \"value\")|xxx", b!"(\"key\" \"value\") nil|xxx",
      b!"(\"key\" \"value\") (\"dsp\" nil)|xxx",
      b!"(\"key\" \"value\") (\"dsp\" (\"key\" \"value\")) nil|xxx",
      b!"(\"key\" \"value\") (\"dsp\" (\"key\" \"value\")) \"swedish\"|xxx",
      b!"(\"key\" \"value\") (\"dsp\" (\"key\" \"value\")) (\"german\" \"russian\")|xxx",
      b!"(\"key\" \"value\") (\"dsp\" (\"key\" \"value\")) (\"german\" \"russian\") nil|xxx",
      b!"(\"key\" \"value\") (\"dsp\" (\"key\" \"value\")) (\"german\" \"russian\") \"loc\"|xxx",
      b!"(\"key\" \"value\") (\"dsp\" (\"key\" \"value\")) (\"german\" \"russian\") \"loc\" (1 \"2\" (nil 4))|xxx",
      b!"(\"key\" \"value\") (\"dsp\" (\"key\" \"value\")) (\"german\" \"russian\") \"loc\" (1 \"2\" (nil 4) {0}\r\n)|xxx",
      b!"(\"key\" \"value\") (\"dsp\" (\"key\" \"value\")) (\"german\" \"russian\") \"loc\" {0}\r\n {0}\r\n|xxx" ],
    (yields (bodyExtMpart x)).map (·.1) = some b!"|xxx" := by decide +kernel

/-- imap-codec/src/body.rs:675 `test_parse_body`. -/
example : (yields (body 9
      b!"((((((({0}\r\n {0}\r\n NIL NIL NIL {0}\r\n 0 \"FOO\" NIL NIL \"LOCATION\" 1337) \"mixed\") \"mixed\") \"mixed\") \"mixed\") \"mixed\") \"mixed\")|xxx")).map
      (·.1) = some b!"|xxx" := by decide +kernel

/-- imap-codec/src/body.rs:776 `test_number_quirk`, with the quirk. -/
example :
    [b!"0)", b!"1)", b!"-0)", b!"-1)", b!"-999999)"].map bodyFldOctets =
    [.ok b!")" 0, .ok b!")" 1, .ok b!")" 0, .ok b!")" 0, .ok b!")" 0] := by with_unfolding_all rfl

/-- imap-codec/src/response.rs:788-833 `test_parse_resp_text_quirk`, `test_parse_resp_space_quirk` and
`test_quirk_trailing_space_capability`, with the quirks. -/
example :
    [b!"[IMAP4rev1]\r\n", b!"[IMAP4rev1] \r\n", b!"[IMAP4rev1]  \r\n"].map (fun x => accepts (respText x)) =
      [true, false, true] ∧
    [ b!"* STATUS INBOX (MESSAGES 100 UNSEEN 0)\r\n", b!"* STATUS INBOX (MESSAGES 100 UNSEEN 0)  \r\n",
      b!"* STATUS INBOX (MESSAGES 100 UNSEEN 0) \r\n", b!"* CAPABILITY IMAP4REV1\r\n", b!"* CAPABILITY IMAP4REV1  \r\n",
      b!"* CAPABILITY IMAP4REV1 \r\n" ].map (fun x => accepts (responseData x)) = [true, false, true, true, false, true] := by
  refine ⟨?_, ?_⟩ <;> with_unfolding_all rfl

end

/-! ### The tests for builds without a quirk -/

section

/-- All the quirks off, with every part of IMAP. -/
def plain : Quirks :=
  { Quirks.default with
    crlfRelaxed := false, idEmptyToNil := false, missingText := false, rectifyNumbers := false,
    excessiveSpaceQuotaResource := false, spacesBetweenAddresses := false, trailingSpaceStatus := false,
    trailingSpaceCapability := false, trailingSpaceId := false, trailingSpaceSearch := false, emptyContinueReq := false,
    bodyFldEncNilToEmpty := false, alwaysNormalizeSequenceSets := false }

attribute [local instance] plain

/-- imap-codec/src/body.rs:776 `test_number_quirk`, imap-codec/src/response.rs:788-833, and
imap-codec/src/codec/decode.rs:747, without the quirks. -/
example :
    [b!"0)", b!"1)", b!"-0)", b!"-1)", b!"-999999)"].map (fun x => yields (bodyFldOctets x)) =
      [some (b!")", 0), some (b!")", 1), none, none, none] ∧
    [b!"[IMAP4rev1]\r\n", b!"[IMAP4rev1] \r\n", b!"[IMAP4rev1]  \r\n"].map (fun x => accepts (respText x)) =
      [false, false, true] ∧
    [ b!"* STATUS INBOX (MESSAGES 100 UNSEEN 0)\r\n", b!"* STATUS INBOX (MESSAGES 100 UNSEEN 0)  \r\n",
      b!"* STATUS INBOX (MESSAGES 100 UNSEEN 0) \r\n", b!"* CAPABILITY IMAP4REV1\r\n", b!"* CAPABILITY IMAP4REV1  \r\n",
      b!"* CAPABILITY IMAP4REV1 \r\n" ].map (fun x => accepts (responseData x)) =
      [true, false, false, true, false, false] ∧
    Codec.decode .response b!"* search \r\n" = .failed := by
  refine ⟨?_, ?_, ?_, ?_⟩ <;> with_unfolding_all rfl

end

end Imap.Conformance
