import Verif.TimedCommand
/-
The parsers of the model with a counter, for property C65: the parsers for greetings and responses. Each definition is the one of the same name in Verif/Body.lean and
Verif/Response.lean, with the combinators of
Verif/TimedNom.lean. Verif/TimedErase.lean proves that they give the same results.
-/
namespace Imap.Timed

/-- The parenthesized part of `address` (imap-codec/src/envelope.rs:182-186). -/
def addressParen [q : Quirks] : T Address := do
  tag b!"("
  let name ← nstring
  sp
  let adl ← nstring
  sp
  let mailbox ← nstring
  sp
  let host ← nstring
  tag b!")"
  return ⟨name, adl, mailbox, host⟩

/-- `address` (imap-codec/src/envelope.rs:180-202), including quirk_spaces_between_addresses. -/
def address [q : Quirks] : T Address := if q.spacesBetweenAddresses then (do let _ ← (many0 sp : T (List Unit)); addressParen) else addressParen

/-- `env_from`, `env_sender`, `env_reply_to`, `env_to`, `env_cc`, `env_bcc` (imap-codec/src/envelope.rs:113-160): the code repeats the
same parser. -/
def envAddresses [q : Quirks] : T (List Address) := alt [do tag b!"("; let l ← many1 address; tag b!")"; return l, value [] nil]

/-- `envelope` (imap-codec/src/envelope.rs:33-93). -/
def envelope [q : Quirks] : T Envelope := do
  tag b!"("
  let date ← nstring
  sp
  let subject ← nstring
  sp
  let from_ ← envAddresses
  sp
  let sender ← envAddresses
  sp
  let replyTo ← envAddresses
  sp
  let to_ ← envAddresses
  sp
  let cc ← envAddresses
  sp
  let bcc ← envAddresses
  sp
  let inReplyTo ← nstring
  sp
  let messageId ← nstring
  tag b!")"
  return ⟨date, subject, from_, sender, replyTo, to_, cc, bcc, inReplyTo, messageId⟩

/-- `body_extension_limited` (imap-codec/src/body.rs:416-440). The argument is `remaining_recursion`. -/
def bodyExtension [q : Quirks] : Nat → T BodyExtension
  | 0 => failWith .recursionLimit
  | n + 1 =>
    alt [.nstring <$> nstring, .number <$> number,
      .list <$> (do tag b!"("; let l ← sepList1 sp (bodyExtension n); tag b!")"; return l)]

/-- One parameter (imap-codec/src/body.rs:225-228). -/
def fldParam [q : Quirks] : T (IString × IString) := do
  let k ← string
  sp
  let v ← string
  return (k, v)

/-- `body_fld_param` (imap-codec/src/body.rs:219-237). -/
def bodyFldParam [q : Quirks] : T Params := alt [do tag b!"("; let l ← sepList0 sp fldParam; tag b!")"; return l, value [] nil]

/-- `body_fld_enc` (imap-codec/src/body.rs:272-281), including quirk_body_fld_enc_nil_to_empty. `IString::try_from("")` is the empty
quoted string (imap-types/src/core.rs:420-468). -/
def bodyFldEnc [q : Quirks] : T IString := if q.bodyFldEncNilToEmpty then (fun s => s.getD (.quoted [])) <$> nstring else string

/-- `body_fld_octets` (imap-codec/src/body.rs:292-307), including quirk_rectify_numbers. -/
def bodyFldOctets [q : Quirks] : T Nat := if q.rectifyNumbers then alt [number, do tag b!"-"; value 0 number] else number

/-- `body_fld_dsp` (imap-codec/src/body.rs:363-377). -/
def bodyFldDsp [q : Quirks] : T (Option (IString × Params)) :=
  alt [do tag b!"("; let s ← string; sp; let ps ← bodyFldParam; tag b!")"; return some (s, ps), value none nil]

/-- `body_fld_lang` (imap-codec/src/body.rs:380-388). -/
def bodyFldLang [q : Quirks] : T (List IString) :=
  alt [(fun s => s.toList) <$> nstring, do tag b!"("; let l ← sepList1 sp string; tag b!")"; return l]

/-- The location and what follows it (imap-codec/src/body.rs:335-344, 498-507). -/
def extLocation [q : Quirks] : T Location := do
  sp
  let location ← nstring
  let extensions ← (many0 (do sp; bodyExtension 8) : T (List BodyExtension))
  return ⟨location, extensions⟩

/-- The language and what follows it (imap-codec/src/body.rs:332-347, 495-510). -/
def extLanguage [q : Quirks] : T Language := do
  sp
  let language ← bodyFldLang
  let tail ← opt extLocation
  return ⟨language, tail⟩

/-- The disposition and what follows it (imap-codec/src/body.rs:329-350, 492-513). -/
def extDisposition [q : Quirks] : T Disposition := do
  sp
  let disposition ← bodyFldDsp
  let tail ← opt extLanguage
  return ⟨disposition, tail⟩

/-- `body_ext_1part` (imap-codec/src/body.rs:324-354). -/
def bodyExt1part [q : Quirks] : T SinglePartExt := do
  let md5 ← nstring
  let tail ← opt extDisposition
  return ⟨md5, tail⟩

/-- `body_ext_mpart` (imap-codec/src/body.rs:487-520). -/
def bodyExtMpart [q : Quirks] : T MultiPartExt := do
  let ps ← bodyFldParam
  let tail ← opt extDisposition
  return ⟨ps, tail⟩

/-- `body_fields` (imap-codec/src/body.rs:185-212). -/
def bodyFields [q : Quirks] : T BasicFields := do
  let ps ← bodyFldParam
  sp
  let id ← nstring
  sp
  let desc ← nstring
  sp
  let enc ← bodyFldEnc
  sp
  let size ← bodyFldOctets
  return ⟨ps, id, desc, enc, size⟩

/-- `body_type_basic` (imap-codec/src/body.rs:94-109), with `media_basic` (imap-codec/src/body.rs:542-548). -/
def bodyTypeBasic [q : Quirks] {B : Type} : T (BasicFields × SpecificFields B) := do
  let t ← string
  sp
  let s ← string
  sp
  let f ← bodyFields
  return (f, .basic t s)

/-- `body_type_text` (imap-codec/src/body.rs:163-177), with `media_text` (imap-codec/src/body.rs:578-584). -/
def bodyTypeText [q : Quirks] {B : Type} : T (BasicFields × SpecificFields B) := do
  tagNC b!"\"TEXT\" "
  let s ← string
  sp
  let f ← bodyFields
  sp
  let n ← number
  return (f, .text s n)

/-- `body_type_msg_limited` (imap-codec/src/body.rs:119-157), with `media_message` (imap-codec/src/body.rs:569-571). The parser for the
nested body is an argument. The check of the recursion limit is dropped because the function is always called with limit 8
(imap-codec/src/body.rs:73). -/
def bodyTypeMsg [q : Quirks] {B : Type} (body : T B) : T (BasicFields × SpecificFields B) := do
  tagNC b!"\"MESSAGE\" \"RFC822\""
  sp
  let f ← bodyFields
  sp
  let e ← envelope
  sp
  let b ← body
  sp
  let n ← number
  return (f, .message e b n)

/-- `body_type_1part_limited` (imap-codec/src/body.rs:62-89). The parser for nested bodies is an argument. -/
def bodyType1part [q : Quirks] (n : Nat) (body : T BodyStructure) : T BodyStructure :=
  if n = 0 then failWith .recursionLimit else do
    let x ← alt [bodyTypeMsg body, bodyTypeText, bodyTypeBasic]
    let ext ← opt (do sp; bodyExt1part)
    return .single x.1 ext x.2

/-- `body_type_mpart_limited` (imap-codec/src/body.rs:446-475). The parser for nested bodies is an argument. -/
def bodyTypeMpart [q : Quirks] (n : Nat) (body : T BodyStructure) : T BodyStructure :=
  if n = 0 then failWith .recursionLimit else do
    let bs ← many1 body
    sp
    let s ← string
    let ext ← opt (do sp; bodyExtMpart)
    return .multi bs s ext

/-- One level of `body_limited` (imap-codec/src/body.rs:33-51): `msg` parses the body nested in a message, `part` the parts of a
multipart. -/
def bodyStep [q : Quirks] (n : Nat) (msg part : T BodyStructure) : T BodyStructure :=
  if n = 0 then failWith .recursionLimit else do
    tag b!"("
    let b ← alt [bodyType1part (n - 1) msg, bodyTypeMpart (n - 1) part]
    tag b!")"
    return b

/-- `body_limited` (imap-codec/src/body.rs:33-51), with an additional bound `fuel` on the number of nested calls. It is needed because
the code bounds the number of nested calls by `remaining_recursions` only between two messages: for the body nested in a message, the
limit is reset to 7 (imap-codec/src/body.rs:73, 130). -/
def bodyFuel [q : Quirks] : Nat → Nat → T BodyStructure
  | 0, _ => ⟨fun _ => (.incomplete, 0)⟩
  | fuel + 1, n => bodyStep n (bodyFuel fuel 7) (bodyFuel fuel (n - 1))

/-- `body` (imap-codec/src/body.rs:27-31). Each nested call consumes at least one byte, so the length of the input bounds the number of
nested calls: see `body_eq`, which is the recursion of the code without fuel. -/
def body [q : Quirks] (n : Nat) : T BodyStructure := ⟨fun i => (bodyFuel (i.length + 1) n).run i⟩

/-- `capability` (imap-codec/src/response.rs:240-242). -/
def capability [q : Quirks] : T Capability := Capability.ofAtom <$> atom

/-- `capability_data` (imap-codec/src/response.rs:224-235). -/
def capabilityData [q : Quirks] : T (List Capability) := do
  tagNC b!"CAPABILITY "
  let l ← sepList1 sp capability
  if q.trailingSpaceCapability then (do let _ ← opt sp; return l) else return l

/-- `uid_range` (imap-codec/src/extensions/uidplus.rs:94-96). -/
def uidRange : T UidElement := do
  let a ← nzNumber
  tag b!":"
  let b ← nzNumber
  return .range a b

/-- `uid_set` (imap-codec/src/extensions/uidplus.rs:75-87). -/
def uidSet : T (List UidElement) := sepList1 (tag b!",") (alt [uidRange, .single <$> nzNumber])

/-- `metadata_code` (imap-codec/src/extensions/metadata.rs:239-252). -/
def metadataCode : T MetadataCode :=
  alt [.longEntries <$> (do tagNC b!"LONGENTRIES "; number), .maxSize <$> (do tagNC b!"MAXSIZE "; number),
    value .tooMany (tagNC b!"TOOMANY"), value .noPrivate (tagNC b!"NOPRIVATE")]

/-- The charsets of BADCHARSET (imap-codec/src/response.rs:158-162). -/
def charsetList : T (List Charset) := do
  tag b!" ("
  let l ← sepList1 sp charset
  tag b!")"
  return l

/-- The flags of PERMANENTFLAGS (imap-codec/src/response.rs:173-179). -/
def flagPermList : T (List FlagPerm) := do
  tag b!"("
  let l ← opt (sepList1 sp flagPerm)
  tag b!")"
  return l.getD []

/-- `resp_code_apnd` (imap-codec/src/extensions/uidplus.rs:42-47). -/
def respCodeApnd : T Code := do
  tagNC b!"APPENDUID "
  let v ← nzNumber
  sp
  let u ← nzNumber
  return .appendUid v u

/-- `resp_code_copy` (imap-codec/src/extensions/uidplus.rs:52-64). -/
def respCodeCopy : T Code := do
  tagNC b!"COPYUID "
  let v ← nzNumber
  sp
  let s ← uidSet
  sp
  let d ← uidSet
  return .copyUid v s d

/-- `resp_text_code` (imap-codec/src/response.rs:152-218). -/
def respTextCode [q : Quirks] : T Code :=
  alt [value .alert (tagNC b!"ALERT"),
    do tagNC b!"BADCHARSET"; let l ← opt charsetList; return .badCharset (l.getD []),
    .capability <$> capabilityData,
    value .parse (tagNC b!"PARSE"),
    .permanentFlags <$> (do tagNC b!"PERMANENTFLAGS "; flagPermList),
    value .readOnly (tagNC b!"READ-ONLY"),
    value .readWrite (tagNC b!"READ-WRITE"),
    value .tryCreate (tagNC b!"TRYCREATE"),
    .uidNext <$> (do tagNC b!"UIDNEXT "; nzNumber),
    .uidValidity <$> (do tagNC b!"UIDVALIDITY "; nzNumber),
    .unseen <$> (do tagNC b!"UNSEEN "; nzNumber),
    value .compressionActive (tagNC b!"COMPRESSIONACTIVE"),
    value .overQuota (tagNC b!"OVERQUOTA"),
    value .tooBig (tagNC b!"TOOBIG"),
    gate Quirks.extMetadata (.metadata <$> (do tagNC b!"METADATA "; metadataCode)),
    value .unknownCte (tagNC b!"UNKNOWN-CTE"),
    respCodeApnd,
    respCodeCopy,
    value .uidNotSticky (tagNC b!"UIDNOTSTICKY"),
    gate Quirks.extCondstoreQresync
      (alt [.highestModSeq <$> (do tagNC b!"HIGHESTMODSEQ "; modSequenceValue),
        value .noModSeq (tagNC b!"NOMODSEQ"),
        .modified <$> (do tagNC b!"MODIFIED "; sequenceSet),
        value .closed (tagNC b!"CLOSED")])]

/-- `terminated(resp_text_code, tag("]"))` (imap-codec/src/response.rs:93). -/
def codeKnown [q : Quirks] : T Code := do
  let c ← respTextCode
  tag b!"]"
  return c

/-- The alternative for unknown codes (imap-codec/src/response.rs:94-100). -/
def codeOther : T Code := do
  let bs ← takeWhile isCodeOtherChar
  tag b!"]"
  return .other bs

/-- The text after a code (imap-codec/src/response.rs:105-115). -/
def textAfterCode [q : Quirks] : T Bytes :=
  if q.missingText then alt [do sp; text, value b!"..." (peek crlf)] else do sp; text

/-- The case of `resp_text` for an input starting with `[` (imap-codec/src/response.rs:87-116). -/
def respTextCoded [q : Quirks] : T (Option Code × Bytes) := do
  tag b!"["
  let c ← alt [codeKnown, codeOther]
  let t ← textAfterCode
  return (some c, t)

/-- The case of `resp_text` for an input not starting with `[` (imap-codec/src/response.rs:118). -/
def respTextPlain : T (Option Code × Bytes) := do
  let t ← text
  return (none, t)

/-- `resp_text` (imap-codec/src/response.rs:82-120). -/
def respText [q : Quirks] : T (Option Code × Bytes) := do
  let start ← peek (opt (tag b!"["))
  if start.isSome then respTextCoded else respTextPlain

/-- The keywords of `resp_cond_auth` (imap-codec/src/response.rs:69-72). -/
def condAuthKind : T GreetingKind := alt [value .ok (tagNC b!"OK "), value .preAuth (tagNC b!"PREAUTH ")]

/-- `resp_cond_auth` (imap-codec/src/response.rs:65-79). -/
def respCondAuth [q : Quirks] : T (GreetingKind × Option Code × Bytes) := do
  let k ← condAuthKind
  let t ← respText
  return (k, t)

/-- `resp_cond_bye` (imap-codec/src/response.rs:245-247). -/
def respCondBye [q : Quirks] : T (Option Code × Bytes) := do
  tagNC b!"BYE "
  respText

/-- `greeting` (imap-codec/src/response.rs:46-59). -/
def greeting [q : Quirks] : T Greeting := do
  tag b!"* "
  let x ← alt [respCondAuth, (fun t => (GreetingKind.bye, t)) <$> respCondBye]
  crlf
  return ⟨x.1, x.2.1, x.2.2⟩

/-- The keywords of `resp_cond_state` (imap-codec/src/response.rs:364-368). -/
def condStateKind : T StatusKind :=
  alt [value .ok (tagNC b!"OK "), value .no (tagNC b!"NO "), value .bad (tagNC b!"BAD ")]

/-- `resp_cond_state` (imap-codec/src/response.rs:362-375). -/
def respCondState [q : Quirks] : T (StatusKind × Option Code × Bytes) := do
  let k ← condStateKind
  let t ← respText
  return (k, t)

/-- `response_tagged` (imap-codec/src/response.rs:383-395). -/
def responseTagged [q : Quirks] : T Status := do
  let tag ← tagImap
  sp
  let x ← respCondState
  crlf
  return .tagged tag x.1 x.2.1 x.2.2

/-- `response_fatal` (imap-codec/src/response.rs:400-406). -/
def responseFatal [q : Quirks] : T Status := do
  tag b!"* "
  let x ← respCondBye
  crlf
  return .bye x.1 x.2

/-- `response_done` (imap-codec/src/response.rs:378-380). -/
def responseDone [q : Quirks] : T Status := alt [responseTagged, responseFatal]

/-- `empty_continue_req` (imap-codec/src/response.rs:269-276). The `unwrap` succeeds: `...` is a text, does not start with `[` and is
not base64. -/
def emptyContinueReq [q : Quirks] : T ContinueReq := do
  tag b!"+"
  crlf
  return .basic none b!"..."

/-- The base64 alternative of `continue_req` (imap-codec/src/response.rs:293-309). -/
def continueBase64 [q : Quirks] : T Bytes :=
  if q.crlfRelaxed then mapRes (takeUntil b!"\n") fun s => b64Decode (stripCr s)
  else mapRes (takeUntil b!"\r\n") b64Decode

/-- The parser inside of `continue_req` (imap-codec/src/response.rs:290-314). -/
def continueInner [q : Quirks] : T ContinueEither := do
  tag b!"+ "
  let x ← alt [.base64 <$> continueBase64, .basic <$> respText]
  crlf
  return x

/-- `continue_req` (imap-codec/src/response.rs:279-322). The panic of `unwrap` is modelled as an error of `mapRes` and never reached
(theorem `continueInner_toReq`). -/
def continueReq [q : Quirks] : T ContinueReq := mapRes continueInner ContinueEither.toReq

/-- `status_att_val` (imap-codec/src/status.rs:53-98). -/
def statusAttVal [q : Quirks] : T StatusDataItem :=
  alt [.messages <$> (do tagNC b!"MESSAGES "; number), .recent <$> (do tagNC b!"RECENT "; number),
    .uidNext <$> (do tagNC b!"UIDNEXT "; nzNumber), .uidValidity <$> (do tagNC b!"UIDVALIDITY "; nzNumber),
    .unseen <$> (do tagNC b!"UNSEEN "; number), .deletedStorage <$> (do tagNC b!"DELETED-STORAGE "; number64),
    .deleted <$> (do tagNC b!"DELETED "; number),
    gate Quirks.extCondstoreQresync (.highestModSeq <$> (do tagNC b!"HIGHESTMODSEQ "; modSequenceValzer))]

/-- The flags of `msg_att_dynamic` (imap-codec/src/fetch.rs:148-154). -/
def flagFetchList : T (List FlagFetch) := do
  tag b!"("
  let l ← opt (sepList1 sp flagFetch)
  tag b!")"
  return l.getD []

/-- `msg_att_dynamic` (imap-codec/src/fetch.rs:142-170). -/
def msgAttDynamic [q : Quirks] : T MessageDataItem :=
  alt [.flags <$> (do tagNC b!"FLAGS "; flagFetchList),
    gate Quirks.extCondstoreQresync (.modSeq <$> (do tagNC b!"MODSEQ "; tag b!"("; let n ← modSequenceValue; tag b!")"; return n))]

/-- The BODY item with a section (imap-codec/src/fetch.rs:214-227). -/
def msgBodyExt [q : Quirks] : T MessageDataItem := do
  tagNC b!"BODY"
  let s ← «section»
  let o ← opt (do tag b!"<"; let n ← number; tag b!">"; return n)
  sp
  let d ← nstring
  return .bodyExt s o d

/-- `msg_att_static` (imap-codec/src/fetch.rs:185-251). -/
def msgAttStatic [q : Quirks] : T MessageDataItem :=
  alt [.envelope <$> (do tagNC b!"ENVELOPE "; envelope),
    .internalDate <$> (do tagNC b!"INTERNALDATE "; dateTime),
    .rfc822Header <$> (do tagNC b!"RFC822.HEADER "; nstring),
    .rfc822Text <$> (do tagNC b!"RFC822.TEXT "; nstring),
    .rfc822Size <$> (do tagNC b!"RFC822.SIZE "; number),
    .rfc822 <$> (do tagNC b!"RFC822 "; nstring),
    .bodyStructure <$> (do tagNC b!"BODYSTRUCTURE "; body 8),
    .body <$> (do tagNC b!"BODY "; body 8),
    msgBodyExt,
    .uid <$> (do tagNC b!"UID "; nzNumber),
    do tagNC b!"BINARY"; let s ← sectionBinary; sp; let v ← imapValue; return .binary s v,
    do tagNC b!"BINARY.SIZE"; let s ← sectionBinary; sp; let n ← number; return .binarySize s n]

/-- `msg_att` (imap-codec/src/fetch.rs:126-135). -/
def msgAtt [q : Quirks] : T (List MessageDataItem) := do
  tag b!"("
  let l ← sepList1 sp (alt [msgAttDynamic, msgAttStatic])
  tag b!")"
  return l

/-- `thread_list_limited` (imap-codec/src/extensions/thread.rs:117-154). -/
def threadList : Nat → T Thread
  | 0 => failWith .recursionLimit
  | n + 1 => do
    tag b!"("
    let t ← alt [do
        let p ← sepList1 sp nzNumber
        let l ← opt (do sp; many2 (threadList n))
        return .members p (l.getD []),
      .nested <$> many2 (threadList n)]
    tag b!")"
    return t

/-- `thread_data` (imap-codec/src/extensions/thread.rs:84-93). -/
def threadData : T (List Thread) := do
  tagNC b!"THREAD"
  let l ← opt (do sp; many1 (threadList 8))
  return l.getD []

/-- An optional delimiter (imap-codec/src/extensions/namespace.rs:87-90; imap-codec/src/mailbox.rs:197-200). -/
def delimiter : T (Option UInt8) := alt [some <$> (do dquote; let c ← quotedChar; dquote; return c), value none nil]

/-- `namespace_response_extension` (imap-codec/src/extensions/namespace.rs:104-119). -/
def namespaceExt [q : Quirks] : T NamespaceExt := do
  sp
  let k ← string
  sp
  char 40
  let l ← sepList1 sp string
  char 41
  return ⟨k, l⟩

/-- `namespace_descr` (imap-codec/src/extensions/namespace.rs:78-99). -/
def namespaceDescr [q : Quirks] : T Namespace := do
  char 40
  let p ← string
  sp
  let d ← delimiter
  let l ← many0 namespaceExt
  char 41
  return ⟨p, d, l⟩

/-- `namespace` (imap-codec/src/extensions/namespace.rs:65-70). -/
def namespaces [q : Quirks] : T (List Namespace) :=
  alt [value [] nil, do char 40; let l ← many1 namespaceDescr; char 41; return l]

/-- The spaces in `quota_resource` (imap-codec/src/extensions/quota.rs:69-73). -/
def quotaSp [q : Quirks] : T Unit := if q.excessiveSpaceQuotaResource then value () (many1 sp) else sp

/-- `quota_resource` (imap-codec/src/extensions/quota.rs:68-86). -/
def quotaResource [q : Quirks] : T QuotaGet := do
  let r ← resourceName
  quotaSp
  let u ← number64
  quotaSp
  let l ← number64
  return ⟨r, u, l⟩

/-- The items of `metadata_resp` (imap-codec/src/extensions/metadata.rs:201-204), with `entry_list` (216-218). -/
def metadataItems [q : Quirks] : T MetadataResponse :=
  alt [.withValues <$> entryValues, .withoutValues <$> sepList1 sp entry]

/-- `mailbox_list` (imap-codec/src/mailbox.rs:186-203), with the default of its callers (93, 101). -/
def mailboxList [q : Quirks] : T (List FlagNameAttribute × Option UInt8 × Mailbox) := do
  tag b!"("
  let l ← opt mbxListFlags
  tag b!")"
  sp
  let d ← delimiter
  sp
  let m ← mailbox
  return (l.getD [], d, m)

/-- `search_sort_mod_seq` (imap-codec/src/extensions/condstore_qresync.rs:38-44). -/
def searchSortModSeq : T Nat := do
  char 40
  tagNC b!"MODSEQ "
  let n ← modSequenceValue
  char 41
  return n

/-- The numbers and the modification sequence of SEARCH and SORT (imap-codec/src/mailbox.rs:128-136, 153-157). -/
def searchNumbers [q : Quirks] : T (List NzU32 × Option Nat) := do
  let l ← many0 (do sp; nzNumber)
  let m ← opt (gate Quirks.extCondstoreQresync (do char 32; searchSortModSeq))
  return (l, m)

/-- The optional space of the quirks `trailing_space_search` and `trailing_space_status`. -/
def optSpIf (b : Bool) : T Unit := if b then value () (opt sp) else pure ()

/-- The SEARCH response (imap-codec/src/mailbox.rs:121-144). -/
def searchData [q : Quirks] : T Data := do
  tagNC b!"SEARCH"
  let x ← searchNumbers
  optSpIf q.trailingSpaceSearch
  return .search x.1 x.2

/-- The SORT response (imap-codec/src/mailbox.rs:151-158). -/
def sortData [q : Quirks] : T Data := do
  tagNC b!"SORT"
  let x ← searchNumbers
  return .sort x.1 x.2

/-- `status_att_list` (imap-codec/src/status.rs:46-48), between parentheses and optional (imap-codec/src/mailbox.rs:164). -/
def statusItems [q : Quirks] : T (List StatusDataItem) := do
  tag b!" ("
  let l ← opt (sepList1 sp statusAttVal)
  tag b!")"
  return l.getD []

/-- The STATUS response (imap-codec/src/mailbox.rs:160-174). -/
def statusData [q : Quirks] : T Data := do
  tagNC b!"STATUS "
  let m ← mailbox
  let l ← statusItems
  optSpIf q.trailingSpaceStatus
  return .status m l

/-- `metadata_resp` (imap-codec/src/extensions/metadata.rs:195-211). -/
def metadataResp [q : Quirks] : T Data := do
  tagNC b!"METADATA"
  sp
  let m ← mailbox
  sp
  let r ← metadataItems
  return .metadata m r

/-- `namespace_response` (imap-codec/src/extensions/namespace.rs:40-60). -/
def namespaceResponse [q : Quirks] : T Data := do
  tagNC b!"NAMESPACE "
  let p ← namespaces
  sp
  let o ← namespaces
  sp
  let s ← namespaces
  return .namespace_ p o s

/-- `quotaroot_response` (imap-codec/src/extensions/quota.rs:129-139). -/
def quotarootResponse [q : Quirks] : T Data := do
  tagNC b!"QUOTAROOT "
  let m ← mailbox
  let l ← many0 (do sp; astring)
  return .quotaRoot m l

/-- `quota_response` (imap-codec/src/extensions/quota.rs:107-124). -/
def quotaResponse [q : Quirks] : T Data := do
  tagNC b!"QUOTA "
  let r ← astring
  tag b!" ("
  let l ← sepList1 sp quotaResource
  tag b!")"
  return .quota r l

/-- `mailbox_data` (imap-codec/src/mailbox.rs:87-180). -/
def mailboxData [q : Quirks] : T Data :=
  alt [.flags <$> (do tagNC b!"FLAGS "; flagList),
    (fun x => .list x.1 x.2.1 x.2.2) <$> (do tagNC b!"LIST "; mailboxList),
    (fun x => .lsub x.1 x.2.1 x.2.2) <$> (do tagNC b!"LSUB "; mailboxList),
    searchData,
    sortData,
    .thread <$> threadData,
    statusData,
    gate Quirks.extMetadata metadataResp,
    gate Quirks.extNamespace namespaceResponse,
    .exists_ <$> (do let n ← number; tagNC b!" EXISTS"; return n),
    .recent <$> (do let n ← number; tagNC b!" RECENT"; return n),
    quotarootResponse,
    quotaResponse]

/-- The part of `message_data` after the message number (imap-codec/src/response.rs:428-439). -/
def messageDataTail [q : Quirks] (n : NzU32) : T Data :=
  alt [value (.expunge n) (tagNC b!"EXPUNGE"), .fetch n <$> (do tagNC b!"FETCH "; msgAtt)]

/-- The VANISHED response (imap-codec/src/response.rs:440-451). -/
def vanishedData : T Data := do
  tagNC b!"VANISHED"
  let e ← opt (tagNC b!" (EARLIER)")
  sp
  let s ← sequenceSet
  return .vanished e.isSome s

/-- `message_data` (imap-codec/src/response.rs:419-453). -/
def messageData [q : Quirks] : T Data := alt [do let n ← nzNumber; sp; messageDataTail n,
  gate Quirks.extCondstoreQresync vanishedData]

/-- `enable_data` (imap-codec/src/extensions/enable.rs:58-67). -/
def enableData [q : Quirks] : T Data := do
  tagNC b!"ENABLED"
  let l ← many0 (do sp; capabilityEnable)
  return .enabled l

/-- `id_response` (imap-codec/src/extensions/id.rs:42-44). -/
def idResponse [q : Quirks] : T (Option IdParams) := do
  tagNC b!"ID "
  idParamsList

/-- The alternatives of `response_data` (imap-codec/src/response.rs:337-354). -/
def responseDataInner [q : Quirks] : T Response :=
  alt [(fun x => .status (.untagged x.1 x.2.1 x.2.2)) <$> respCondState,
    (fun x => .status (.bye x.1 x.2)) <$> respCondBye,
    .data <$> mailboxData,
    .data <$> messageData,
    (fun l => .data (.capability l)) <$> capabilityData,
    .data <$> enableData,
    gate Quirks.extId ((fun p => .data (.id_ p)) <$> idResponse)]

/-- `response_data` (imap-codec/src/response.rs:334-357). -/
def responseData [q : Quirks] : T Response := do
  tag b!"* "
  let r ← responseDataInner
  crlf
  return r

/-- `response` (imap-codec/src/response.rs:252-265). -/
def response [q : Quirks] : T Response :=
  alt ((if q.emptyContinueReq then [.continue_ <$> emptyContinueReq] else []) ++
    [.continue_ <$> continueReq, responseData, .status <$> responseDone])

/-- `decode` of each codec (imap-codec/src/codec/decode.rs:301-400) with what it counts. -/
def decodeCounted [Quirks] : (k : Codec) → Bytes → Outcome k.Message × Nat
  | .greeting, x => let w := greeting.run x; (outcomePlain w.1, w.2)
  | .command, x => let w := command.run x; (outcomeCommand w.1, w.2)
  | .authenticateData, x => let w := authenticateData.run x; (outcomePlain w.1, w.2)
  | .response, x => let w := response.run x; (outcomeResponse w.1, w.2)
  | .idleDone, x => let w := idleDone.run x; (outcomePlain w.1, w.2)

end Imap.Timed
