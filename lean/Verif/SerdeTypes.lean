import Verif.Serde
/-
`Serialize` and `Deserialize` of the types of imap-types. The comments cite the declarations, with their attributes. Where a type of the
model differs from the one of the code, e.g. because the model has no type for a newtype, the difference is visible in the functions that
are given to the combinators.

A name of a field or variant occurs in the serializer and in the deserializer, because `derive` generates both from the declaration.
-/
set_option maxRecDepth 10000

namespace Imap.Serde

open Imap

/-! ### Core types (imap-types/src/core.rs) -/

/-- `Atom` (imap-types/src/core.rs:109-112), `try_from = "String"`. -/
def atom : S Bytes := string.tryFrom isAtom

/-- `AtomExt` (imap-types/src/core.rs:259-262), `try_from = "String"`. -/
def atomExt : S Bytes := string.tryFrom isAtomExt

/-- `Quoted` (imap-types/src/core.rs:760-763), `try_from = "String"`. -/
def quoted : S Bytes := string.tryFrom isQuoted

/-- `QuotedUtf8` (imap-types/src/extensions/utf8.rs:32-36), `try_from = "String"`, which cannot fail. -/
def quotedUtf8 : S Bytes := string.tryFrom fun _ => true

/-- `Tag` (imap-types/src/core.rs:1057-1060), `try_from = "String"`. -/
def tag : S Bytes := string.tryFrom isTagStr

/-- `Text` (imap-types/src/core.rs:1230-1233), `try_from = "String"`. -/
def text : S Bytes := string.tryFrom isText

/-- `QuotedChar` (imap-types/src/core.rs:1357-1360), `try_from = "char"`. A `char` is a string with one character. The check accepts
some ASCII characters only, that is, strings of one byte. -/
def quotedChar : S UInt8 where
  ser b := .str [b]
  de
    | .str [b] => if isUtf8 [b] && isQuotedChar b then some b else none
    | _ => none

/-- `VecN<T, N>` (imap-types/src/core.rs:1529-1532), `try_from = "Vec<T>"`. -/
def vec {α : Type} (n : Nat) (s : S α) : S (List α) := (list s).tryFrom fun l => n ≤ l.length

/-- `LiteralMode` (imap-types/src/core.rs:724-736). -/
def literalMode : S Mode := names
  (fun
    | .sync => b!"Sync"
    | .nonSync => b!"NonSync")
  [(b!"Sync", .sync), (b!"NonSync", .nonSync)]

/-- `Literal` (imap-types/src/core.rs:516-532). The data is deserialized by `deserialize_literal_data`, which calls `validate`. -/
def literal : S Literal := (record (.cons b!"data" (bytes.tryFrom fun d => d.all isChar8) (.one b!"mode" literalMode))).newtype
  (fun x => ⟨x.1, x.2⟩) (fun l => (l.data, l.mode))

/-- `Literal8` (imap-types/src/extensions/binary.rs:27-40). -/
def literal8 : S Literal8 := (record (.cons b!"data" bytes (.one b!"mode" literalMode))).newtype
  (fun x => ⟨x.1, x.2⟩) (fun l => (l.data, l.mode))

/-- `IString` (imap-types/src/core.rs:390-401). -/
def istring : S IString := enum
  (fun
    | .literal l => (b!"Literal", some (literal.ser l))
    | .quoted s => (b!"Quoted", some (quoted.ser s))
    | .quotedUtf8 s => (b!"QuotedUtf8", some (quotedUtf8.ser s)))
  [.of b!"Literal" literal .literal,
   .of b!"Quoted" quoted .quoted,
   .of b!"QuotedUtf8" quotedUtf8 .quotedUtf8]

/-- `NString` (imap-types/src/core.rs:877-884). -/
def nstring : S NString := (opt istring).newtype id id

/-- `AString` (imap-types/src/core.rs:941-949). -/
def astring : S AString := enum
  (fun
    | .atom s => (b!"Atom", some (atomExt.ser s))
    | .string s => (b!"String", some (istring.ser s)))
  [.of b!"Atom" atomExt .atom,
   .of b!"String" istring .string]

/-- `Charset` (imap-types/src/core.rs:1431-1438). -/
def charset : S Charset := enum
  (fun
    | .atom s => (b!"Atom", some (atom.ser s))
    | .quoted s => (b!"Quoted", some (quoted.ser s)))
  [.of b!"Atom" atom .atom,
   .of b!"Quoted" quoted .quoted]

/-- `LiteralOrLiteral8` (imap-types/src/extensions/binary.rs:17-24). -/
def literalOrLiteral8 : S LiteralOrLiteral8 := enum
  (fun
    | .literal l => (b!"Literal", some (literal.ser l))
    | .literal8 l => (b!"Literal8", some (literal8.ser l)))
  [.of b!"Literal" literal .literal,
   .of b!"Literal8" literal8 .literal8]

/-- `NString8` (imap-types/src/core.rs:1511-1518). -/
def nstring8 : S NString8 := enum
  (fun
    | .nstring s => (b!"NString", some (nstring.ser s))
    | .literal8 l => (b!"Literal8", some (literal8.ser l)))
  [.of b!"NString" nstring .nstring,
   .of b!"Literal8" literal8 .literal8]

/-! ### Sequence sets, dates, flags, mailboxes, mechanisms -/

/-- `SeqOrUid` (imap-types/src/sequence.rs:318-325). -/
def seqOrUid : S SeqOrUid := enum
  (fun
    | .value n => (b!"Value", some (nz32.ser n))
    | .asterisk => (b!"Asterisk", none))
  [.of b!"Value" nz32 .value,
   .unit b!"Asterisk" .asterisk]

/-- `Sequence` (imap-types/src/sequence.rs:206-213). -/
def sequence : S Sequence := enum
  (fun
    | .single a => (b!"Single", some (seqOrUid.ser a))
    | .range a b => (b!"Range", some ((pair seqOrUid seqOrUid).ser (a, b))))
  [.of b!"Single" seqOrUid .single,
   .of b!"Range" (pair seqOrUid seqOrUid) fun x => .range x.1 x.2]

/-- `SequenceSet` (imap-types/src/sequence.rs:33-36). -/
def sequenceSet : S SequenceSet := (vec 1 sequence).newtype id id

/-- `NaiveDate` (imap-types/src/datetime.rs:94-97), `try_from = "chrono::NaiveDate"`. -/
def naiveDate : S NaiveDate where
  ser := .date
  de
    | .date d => if d.valid then some d else none
    | _ => none

/-- `DateTime` (imap-types/src/datetime.rs:12-15), `try_from = "chrono::DateTime<FixedOffset>"`. -/
def dateTime : S DateTime where
  ser := .dateTime
  de
    | .dateTime t => if t.valid then some t else none
    | _ => none

/-- `Flag` (imap-types/src/flag.rs:25-43) and `FlagExtension` (imap-types/src/flag.rs:48-50), whose deserialization does not check that
the name is not the one of another flag. -/
def flag : S Flag := enum
  (fun
    | .answered => (b!"Answered", none)
    | .deleted => (b!"Deleted", none)
    | .draft => (b!"Draft", none)
    | .flagged => (b!"Flagged", none)
    | .seen => (b!"Seen", none)
    | .extension s => (b!"Extension", some (atom.ser s))
    | .keyword s => (b!"Keyword", some (atom.ser s)))
  [.unit b!"Answered" .answered,
   .unit b!"Deleted" .deleted,
   .unit b!"Draft" .draft,
   .unit b!"Flagged" .flagged,
   .unit b!"Seen" .seen,
   .of b!"Extension" atom .extension,
   .of b!"Keyword" atom .keyword]

/-- `FlagFetch` (imap-types/src/flag.rs:95-109). -/
def flagFetch : S FlagFetch := enum
  (fun
    | .flag f => (b!"Flag", some (flag.ser f))
    | .recent => (b!"Recent", none))
  [.of b!"Flag" flag .flag,
   .unit b!"Recent" .recent]

/-- `FlagPerm` (imap-types/src/flag.rs:117-127). -/
def flagPerm : S FlagPerm := enum
  (fun
    | .flag f => (b!"Flag", some (flag.ser f))
    | .asterisk => (b!"Asterisk", none))
  [.of b!"Flag" flag .flag,
   .unit b!"Asterisk" .asterisk]

/-- `FlagNameAttribute` (imap-types/src/flag.rs:136-159) and `FlagNameAttributeExtension` (imap-types/src/flag.rs:168-170), without a
check of the name. -/
def flagNameAttribute : S FlagNameAttribute := enum
  (fun
    | .noinferiors => (b!"Noinferiors", none)
    | .noselect => (b!"Noselect", none)
    | .marked => (b!"Marked", none)
    | .unmarked => (b!"Unmarked", none)
    | .extension s => (b!"Extension", some (atom.ser s)))
  [.unit b!"Noinferiors" .noinferiors,
   .unit b!"Noselect" .noselect,
   .unit b!"Marked" .marked,
   .unit b!"Unmarked" .unmarked,
   .of b!"Extension" atom .extension]

/-- `MailboxOther` (imap-types/src/mailbox.rs:198-201), `try_from = "AString"`. -/
def mailboxOther : S AString := astring.tryFrom fun s => (MailboxOther.tryFrom s).isSome

/-- `Mailbox` (imap-types/src/mailbox.rs:173-179). -/
def mailbox : S Mailbox := enum
  (fun
    | .inbox => (b!"Inbox", none)
    | .other s => (b!"Other", some (mailboxOther.ser s)))
  [.unit b!"Inbox" .inbox,
   .of b!"Other" mailboxOther .other]

/-- `ListCharString` (imap-types/src/mailbox.rs:18-21), `try_from = "String"`. -/
def listCharString : S Bytes := string.tryFrom isListCharString

/-- `ListMailbox` (imap-types/src/mailbox.rs:89-96). -/
def listMailbox : S ListMailbox := enum
  (fun
    | .token s => (b!"Token", some (listCharString.ser s))
    | .string s => (b!"String", some (istring.ser s)))
  [.of b!"Token" listCharString .token,
   .of b!"String" istring .string]

/-- `AuthMechanism` (imap-types/src/auth.rs:22-141) and `AuthMechanismOther` (imap-types/src/auth.rs:200-202), without a check of the
name. -/
def authMechanism : S AuthMechanism := enum
  (fun
    | .plain => (b!"Plain", none)
    | .login => (b!"Login", none)
    | .oAuthBearer => (b!"OAuthBearer", none)
    | .xOAuth2 => (b!"XOAuth2", none)
    | .scramSha1 => (b!"ScramSha1", none)
    | .scramSha1Plus => (b!"ScramSha1Plus", none)
    | .scramSha256 => (b!"ScramSha256", none)
    | .scramSha256Plus => (b!"ScramSha256Plus", none)
    | .scramSha3_512 => (b!"ScramSha3_512", none)
    | .scramSha3_512Plus => (b!"ScramSha3_512Plus", none)
    | .other s => (b!"Other", some (atom.ser s)))
  [.unit b!"Plain" .plain,
   .unit b!"Login" .login,
   .unit b!"OAuthBearer" .oAuthBearer,
   .unit b!"XOAuth2" .xOAuth2,
   .unit b!"ScramSha1" .scramSha1,
   .unit b!"ScramSha1Plus" .scramSha1Plus,
   .unit b!"ScramSha256" .scramSha256,
   .unit b!"ScramSha256Plus" .scramSha256Plus,
   .unit b!"ScramSha3_512" .scramSha3_512,
   .unit b!"ScramSha3_512Plus" .scramSha3_512Plus,
   .of b!"Other" atom .other]

/-- `AuthenticateData` (imap-types/src/auth.rs:207-219) and `Secret` (imap-types/src/secret.rs:15-18). -/
def authenticateData : S AuthenticateData := enum
  (fun
    | .continue_ d => (b!"Continue", some (bytes.ser d))
    | .cancel => (b!"Cancel", none))
  [.of b!"Continue" bytes .continue_,
   .unit b!"Cancel" .cancel]

/-! ### Fetch (imap-types/src/fetch.rs) -/

/-- `Part` (imap-types/src/fetch.rs:459-462). -/
def part : S (List NzU32) := (vec 1 nz32).newtype id id

/-- `Section` (imap-types/src/fetch.rs:434-457). -/
def section_ : S Section := enum
  (fun
    | .part p => (b!"Part", some (part.ser p))
    | .header p => (b!"Header", some ((opt part).ser p))
    | .headerFields p l => (b!"HeaderFields", some ((pair (opt part) (vec 1 astring)).ser (p, l)))
    | .headerFieldsNot p l => (b!"HeaderFieldsNot", some ((pair (opt part) (vec 1 astring)).ser (p, l)))
    | .text p => (b!"Text", some ((opt part).ser p))
    | .mime p => (b!"Mime", some (part.ser p)))
  [.of b!"Part" part .part,
   .of b!"Header" (opt part) .header,
   .of b!"HeaderFields" (pair (opt part) (vec 1 astring)) fun x => .headerFields x.1 x.2,
   .of b!"HeaderFieldsNot" (pair (opt part) (vec 1 astring)) fun x => .headerFieldsNot x.1 x.2,
   .of b!"Text" (opt part) .text,
   .of b!"Mime" part .mime]

/-- The fields of `MessageDataItemName::BodyExt` (imap-types/src/fetch.rs:104-147). -/
abbrev bodyExtNameFields : Fields (Option Section × Option (Nat × NzU32) × Bool) :=
  .cons b!"section" (opt section_) (.cons b!"partial" (opt (pair u32 nz32)) (.one b!"peek" bool))

/-- The fields of `MessageDataItemName::Binary` (imap-types/src/fetch.rs:234-238). -/
abbrev binaryNameFields : Fields (List NzU32 × Option (Nat × NzU32) × Bool) :=
  .cons b!"section" (list nz32) (.cons b!"partial" (opt (pair u32 nz32)) (.one b!"peek" bool))

/-- `MessageDataItemName` (imap-types/src/fetch.rs:86-247). -/
def messageDataItemName : S MessageDataItemName := enum
  (fun
    | .body => (b!"Body", none)
    | .bodyExt s p k => (b!"BodyExt", some ((record bodyExtNameFields).ser (s, p, k)))
    | .bodyStructure => (b!"BodyStructure", none)
    | .envelope => (b!"Envelope", none)
    | .flags => (b!"Flags", none)
    | .internalDate => (b!"InternalDate", none)
    | .rfc822 => (b!"Rfc822", none)
    | .rfc822Header => (b!"Rfc822Header", none)
    | .rfc822Size => (b!"Rfc822Size", none)
    | .rfc822Text => (b!"Rfc822Text", none)
    | .uid => (b!"Uid", none)
    | .binary s p k => (b!"Binary", some ((record binaryNameFields).ser (s, p, k)))
    | .binarySize s => (b!"BinarySize", some ((record (.one b!"section" (list nz32))).ser s))
    | .modSeq => (b!"ModSeq", none))
  [.unit b!"Body" .body,
   .of b!"BodyExt" (record bodyExtNameFields) fun x => .bodyExt x.1 x.2.1 x.2.2,
   .unit b!"BodyStructure" .bodyStructure,
   .unit b!"Envelope" .envelope,
   .unit b!"Flags" .flags,
   .unit b!"InternalDate" .internalDate,
   .unit b!"Rfc822" .rfc822,
   .unit b!"Rfc822Header" .rfc822Header,
   .unit b!"Rfc822Size" .rfc822Size,
   .unit b!"Rfc822Text" .rfc822Text,
   .unit b!"Uid" .uid,
   .of b!"Binary" (record binaryNameFields) fun x => .binary x.1 x.2.1 x.2.2,
   .of b!"BinarySize" (record (.one b!"section" (list nz32))) .binarySize,
   .unit b!"ModSeq" .modSeq]

/-- `Macro` (imap-types/src/fetch.rs:25-37). -/
def macro_ : S Macro := enum
  (fun
    | .fast => (b!"Fast", none)
    | .all => (b!"All", none)
    | .full => (b!"Full", none))
  [.unit b!"Fast" .fast,
   .unit b!"All" .all,
   .unit b!"Full" .full]

/-- `MacroOrMessageDataItemNames` (imap-types/src/fetch.rs:64-71). -/
def macroOrNames : S MacroOrNames := enum
  (fun
    | .macro_ m => (b!"Macro", some (macro_.ser m))
    | .names l => (b!"MessageDataItemNames", some ((list messageDataItemName).ser l)))
  [.of b!"Macro" macro_ .macro_,
   .of b!"MessageDataItemNames" (list messageDataItemName) .names]

/-! ### Search (imap-types/src/search.rs) -/

/-- `AttributeFlag` (imap-types/src/extensions/condstore_qresync.rs:11-22) and `AttributeFlagExtension`
(imap-types/src/extensions/condstore_qresync.rs:40-42), without a check of the name. -/
def attributeFlag : S AttributeFlag := enum
  (fun
    | .answered => (b!"Answered", none)
    | .deleted => (b!"Deleted", none)
    | .draft => (b!"Draft", none)
    | .flagged => (b!"Flagged", none)
    | .seen => (b!"Seen", none)
    | .extension s => (b!"Extension", some (atom.ser s))
    | .keyword s => (b!"Keyword", some (atom.ser s)))
  [.unit b!"Answered" .answered,
   .unit b!"Deleted" .deleted,
   .unit b!"Draft" .draft,
   .unit b!"Flagged" .flagged,
   .unit b!"Seen" .seen,
   .of b!"Extension" atom .extension,
   .of b!"Keyword" atom .keyword]

/-- `EntryTypeReq` (imap-types/src/extensions/condstore_qresync.rs:70-78). -/
def entryTypeReq : S EntryTypeReq := names
  (fun
    | .private_ => b!"Private"
    | .shared => b!"Shared"
    | .all => b!"All")
  [(b!"Private", .private_), (b!"Shared", .shared), (b!"All", .all)]

/-- The fields of `SearchKey::ModSequence` (imap-types/src/search.rs:167-170). -/
abbrev modSequenceFields : Fields (Option (AttributeFlag × EntryTypeReq) × Nat) :=
  .cons b!"entry" (opt (pair attributeFlag entryTypeReq)) (.one b!"modseq" u64)

mutual

/-- `Serialize for SearchKey` (imap-types/src/search.rs:16-171). -/
def serKey : SearchKey → Value
  | .and l => tagged (b!"And", some (.array (serKeys l)))
  | .sequenceSet s => tagged (b!"SequenceSet", some (sequenceSet.ser s))
  | .all => tagged (b!"All", none)
  | .answered => tagged (b!"Answered", none)
  | .bcc s => tagged (b!"Bcc", some (astring.ser s))
  | .before d => tagged (b!"Before", some (naiveDate.ser d))
  | .body s => tagged (b!"Body", some (astring.ser s))
  | .cc s => tagged (b!"Cc", some (astring.ser s))
  | .deleted => tagged (b!"Deleted", none)
  | .draft => tagged (b!"Draft", none)
  | .flagged => tagged (b!"Flagged", none)
  | .from_ s => tagged (b!"From", some (astring.ser s))
  | .header n v => tagged (b!"Header", some ((pair astring astring).ser (n, v)))
  | .keyword a => tagged (b!"Keyword", some (atom.ser a))
  | .larger n => tagged (b!"Larger", some (u32.ser n))
  | .new => tagged (b!"New", none)
  | .not k => tagged (b!"Not", some (serKey k))
  | .old => tagged (b!"Old", none)
  | .on d => tagged (b!"On", some (naiveDate.ser d))
  | .or a b => tagged (b!"Or", some (.array [serKey a, serKey b]))
  | .recent => tagged (b!"Recent", none)
  | .seen => tagged (b!"Seen", none)
  | .sentBefore d => tagged (b!"SentBefore", some (naiveDate.ser d))
  | .sentOn d => tagged (b!"SentOn", some (naiveDate.ser d))
  | .sentSince d => tagged (b!"SentSince", some (naiveDate.ser d))
  | .since d => tagged (b!"Since", some (naiveDate.ser d))
  | .smaller n => tagged (b!"Smaller", some (u32.ser n))
  | .subject s => tagged (b!"Subject", some (astring.ser s))
  | .text s => tagged (b!"Text", some (astring.ser s))
  | .to s => tagged (b!"To", some (astring.ser s))
  | .uid s => tagged (b!"Uid", some (sequenceSet.ser s))
  | .unanswered => tagged (b!"Unanswered", none)
  | .undeleted => tagged (b!"Undeleted", none)
  | .undraft => tagged (b!"Undraft", none)
  | .unflagged => tagged (b!"Unflagged", none)
  | .unkeyword a => tagged (b!"Unkeyword", some (atom.ser a))
  | .unseen => tagged (b!"Unseen", none)
  | .modSequence e n => tagged (b!"ModSequence", some ((record modSequenceFields).ser (e, n)))

/-- The elements of `Vec1<SearchKey>`. -/
def serKeys : List SearchKey → List Value
  | [] => []
  | k :: l => serKey k :: serKeys l

end

/-- The variants of `SearchKey`, given the deserialization of the keys in it. -/
def keyVariants (key : S SearchKey) : List (Variant SearchKey) :=
  [.of b!"And" (vec 1 key) .and,
   .of b!"SequenceSet" sequenceSet .sequenceSet,
   .unit b!"All" .all,
   .unit b!"Answered" .answered,
   .of b!"Bcc" astring .bcc,
   .of b!"Before" naiveDate .before,
   .of b!"Body" astring .body,
   .of b!"Cc" astring .cc,
   .unit b!"Deleted" .deleted,
   .unit b!"Draft" .draft,
   .unit b!"Flagged" .flagged,
   .of b!"From" astring .from_,
   .of b!"Header" (pair astring astring) fun x => .header x.1 x.2,
   .of b!"Keyword" atom .keyword,
   .of b!"Larger" u32 .larger,
   .unit b!"New" .new,
   .of b!"Not" key .not,
   .unit b!"Old" .old,
   .of b!"On" naiveDate .on,
   .of b!"Or" (pair key key) fun x => .or x.1 x.2,
   .unit b!"Recent" .recent,
   .unit b!"Seen" .seen,
   .of b!"SentBefore" naiveDate .sentBefore,
   .of b!"SentOn" naiveDate .sentOn,
   .of b!"SentSince" naiveDate .sentSince,
   .of b!"Since" naiveDate .since,
   .of b!"Smaller" u32 .smaller,
   .of b!"Subject" astring .subject,
   .of b!"Text" astring .text,
   .of b!"To" astring .to,
   .of b!"Uid" sequenceSet .uid,
   .unit b!"Unanswered" .unanswered,
   .unit b!"Undeleted" .undeleted,
   .unit b!"Undraft" .undraft,
   .unit b!"Unflagged" .unflagged,
   .of b!"Unkeyword" atom .unkeyword,
   .unit b!"Unseen" .unseen,
   .of b!"ModSequence" (record modSequenceFields) fun x => .modSequence x.1 x.2]

/-- `Deserialize for SearchKey` (imap-types/src/search.rs:16-171), with a bound on the number of nested calls. -/
def deKey : Nat → Value → Option SearchKey
  | 0, _ => none
  | n + 1, v => untag (keyVariants { ser := serKey, de := deKey n }) v

/-- `SearchKey` (imap-types/src/search.rs:16-171). The calls are not nested deeper than the value. -/
def searchKey : S SearchKey where
  ser := serKey
  de v := deKey v.depth v

/-! ### Commands (imap-types/src/command.rs) -/

/-- The fields of `SelectParameter::QResync` (imap-types/src/command.rs:1864-1869). -/
abbrev qresyncFields : Fields (Nat × Nat × Option SequenceSet × Option (SequenceSet × SequenceSet)) :=
  .cons b!"uid_validity" nz32 (.cons b!"mod_sequence_value" nz64 (.cons b!"known_uids" (opt sequenceSet)
    (.one b!"seq_match_data" (opt (pair sequenceSet sequenceSet)))))

/-- `SelectParameter` (imap-types/src/command.rs:1856-1870). -/
def selectParameter : S SelectParameter := enum
  (fun
    | .condStore => (b!"CondStore", none)
    | .qresync u m k s => (b!"QResync", some ((record qresyncFields).ser (u, m, k, s))))
  [.unit b!"CondStore" .condStore,
   .of b!"QResync" (record qresyncFields) fun x => .qresync x.1 x.2.1 x.2.2.1 x.2.2.2]

/-- `FetchModifier` (imap-types/src/command.rs:1872-1881). -/
def fetchModifier : S FetchModifier := enum
  (fun
    | .changedSince n => (b!"ChangedSince", some (nz64.ser n))
    | .vanished => (b!"Vanished", none))
  [.of b!"ChangedSince" nz64 .changedSince,
   .unit b!"Vanished" .vanished]

/-- `StoreModifier` (imap-types/src/command.rs:1883-1891). -/
def storeModifier : S StoreModifier := enum
  (fun n => (b!"UnchangedSince", some (u64.ser n)))
  [.of b!"UnchangedSince" u64 id]

/-- `StoreType` (imap-types/src/flag.rs:205-212). -/
def storeType : S StoreType := names
  (fun
    | .replace => b!"Replace"
    | .add => b!"Add"
    | .remove => b!"Remove")
  [(b!"Replace", .replace), (b!"Add", .add), (b!"Remove", .remove)]

/-- `StoreResponse` (imap-types/src/flag.rs:214-220). -/
def storeResponse : S StoreResponse := names
  (fun
    | .answer => b!"Answer"
    | .silent => b!"Silent")
  [(b!"Answer", .answer), (b!"Silent", .silent)]

/-- `StatusDataItemName` (imap-types/src/status.rs:10-39). -/
def statusDataItemName : S StatusDataItemName := names
  (fun
    | .messages => b!"Messages"
    | .recent => b!"Recent"
    | .uidNext => b!"UidNext"
    | .uidValidity => b!"UidValidity"
    | .unseen => b!"Unseen"
    | .deleted => b!"Deleted"
    | .deletedStorage => b!"DeletedStorage"
    | .highestModSeq => b!"HighestModSeq")
  [(b!"Messages", .messages), (b!"Recent", .recent), (b!"UidNext", .uidNext), (b!"UidValidity", .uidValidity), (b!"Unseen", .unseen),
   (b!"Deleted", .deleted), (b!"DeletedStorage", .deletedStorage), (b!"HighestModSeq", .highestModSeq)]

/-- `CompressionAlgorithm` (imap-types/src/extensions/compress.rs:36-43). -/
def compressionAlgorithm : S Unit := enum
  (fun _ => (b!"Deflate", none))
  [.unit b!"Deflate" ()]

/-- `Utf8Kind` (imap-types/src/extensions/utf8.rs:12-20). -/
inductive Utf8Kind where
  | accept | only
  deriving DecidableEq, Repr

/-- `Utf8Kind` (imap-types/src/extensions/utf8.rs:12-20). -/
def utf8Kind : S Utf8Kind := enum
  (fun
    | .accept => (b!"Accept", none)
    | .only => (b!"Only", none))
  [.unit b!"Accept" .accept,
   .unit b!"Only" .only]

/-- `CapabilityEnable` (imap-types/src/extensions/enable.rs:37-54) and `CapabilityEnableOther`
(imap-types/src/extensions/enable.rs:101-103), without a check of the name. -/
def capabilityEnable : S CapabilityEnable := enum
  (fun
    | .condStore => (b!"CondStore", none)
    | .metadata => (b!"Metadata", none)
    | .metadataServer => (b!"MetadataServer", none)
    | .utf8Accept => (b!"Utf8", some (utf8Kind.ser .accept))
    | .utf8Only => (b!"Utf8", some (utf8Kind.ser .only))
    | .other a => (b!"Other", some (atom.ser a)))
  [.unit b!"CondStore" .condStore,
   .unit b!"Metadata" .metadata,
   .unit b!"MetadataServer" .metadataServer,
   .of b!"Utf8" utf8Kind fun
    | .accept => .utf8Accept
    | .only => .utf8Only,
   .of b!"Other" atom .other]

/-- `Resource` (imap-types/src/extensions/quota.rs:125-182) and `ResourceOther` (imap-types/src/extensions/quota.rs:187-189), without a
check of the name. -/
def resource : S Resource := enum
  (fun
    | .storage => (b!"Storage", none)
    | .message => (b!"Message", none)
    | .mailbox => (b!"Mailbox", none)
    | .annotationStorage => (b!"AnnotationStorage", none)
    | .other a => (b!"Other", some (atom.ser a)))
  [.unit b!"Storage" .storage,
   .unit b!"Message" .message,
   .unit b!"Mailbox" .mailbox,
   .unit b!"AnnotationStorage" .annotationStorage,
   .of b!"Other" atom .other]

/-- `QuotaSet` (imap-types/src/extensions/quota.rs:244-250). -/
def quotaSet : S QuotaSet := (record (.cons b!"resource" resource (.one b!"limit" u64))).newtype
  (fun x => ⟨x.1, x.2⟩) (fun q => (q.resource, q.limit))

/-- `SortKey` (imap-types/src/extensions/sort.rs:60-77). -/
def sortKey : S SortKey := names
  (fun
    | .arrival => b!"Arrival"
    | .cc => b!"Cc"
    | .date => b!"Date"
    | .from_ => b!"From"
    | .size => b!"Size"
    | .subject => b!"Subject"
    | .to => b!"To"
    | .displayFrom => b!"DisplayFrom"
    | .displayTo => b!"DisplayTo")
  [(b!"Arrival", .arrival), (b!"Cc", .cc), (b!"Date", .date), (b!"From", .from_), (b!"Size", .size), (b!"Subject", .subject),
   (b!"To", .to), (b!"DisplayFrom", .displayFrom), (b!"DisplayTo", .displayTo)]

/-- `SortCriterion` (imap-types/src/extensions/sort.rs:52-58). -/
def sortCriterion : S SortCriterion := (record (.cons b!"reverse" bool (.one b!"key" sortKey))).newtype
  (fun x => ⟨x.1, x.2⟩) (fun c => (c.reverse, c.key))

/-- `ThreadingAlgorithm` (imap-types/src/extensions/thread.rs:139-146) and `ThreadingAlgorithmOther`
(imap-types/src/extensions/thread.rs:171-173), without a check of the name. -/
def threadingAlgorithm : S ThreadingAlgorithm := enum
  (fun
    | .orderedSubject => (b!"OrderedSubject", none)
    | .references => (b!"References", none)
    | .other a => (b!"Other", some (atom.ser a)))
  [.unit b!"OrderedSubject" .orderedSubject,
   .unit b!"References" .references,
   .of b!"Other" atom .other]

/-- The parameters of ID: `Vec<(IString, NString)>` (imap-types/src/command.rs:1514). -/
def idParams : S IdParams := list (pair istring nstring)

/-- `Entry` (imap-types/src/extensions/metadata.rs:21-24), without a check. -/
def entry : S Entry := astring.newtype id id

/-- `EntryValue` (imap-types/src/extensions/metadata.rs:12-18). -/
def entryValue : S EntryValue := (record (.cons b!"entry" entry (.one b!"value" nstring8))).newtype
  (fun x => ⟨x.1, x.2⟩) (fun e => (e.entry, e.value))

/-- `Depth` (imap-types/src/extensions/metadata.rs:65-75). -/
inductive Depth where
  | null | one | infinity
  deriving DecidableEq, Repr

/-- `Depth` (imap-types/src/extensions/metadata.rs:65-75). -/
def depth : S Depth := names
  (fun
    | .null => b!"Null"
    | .one => b!"One"
    | .infinity => b!"Infinity")
  [(b!"Null", .null), (b!"One", .one), (b!"Infinity", .infinity)]

/-- `GetMetadataOption` (imap-types/src/extensions/metadata.rs:48-63). -/
def getMetadataOption : S GetMetadataOption := enum
  (fun
    | .maxSize n => (b!"MaxSize", some (u32.ser n))
    | .depthNull => (b!"Depth", some (depth.ser .null))
    | .depthOne => (b!"Depth", some (depth.ser .one))
    | .depthInfinity => (b!"Depth", some (depth.ser .infinity)))
  [.of b!"MaxSize" u32 .maxSize,
   .of b!"Depth" depth fun
    | .null => .depthNull
    | .one => .depthOne
    | .infinity => .depthInfinity]

/-- The fields of `Authenticate` (imap-types/src/command.rs:267-278). -/
abbrev authenticateFields : Fields (AuthMechanism × Option Bytes) :=
  .cons b!"mechanism" authMechanism (.one b!"initial_response" (opt bytes))

/-- The fields of `Login` (imap-types/src/command.rs:318-323). -/
abbrev loginFields : Fields (AString × AString) := .cons b!"username" astring (.one b!"password" astring)

/-- The fields of `Select` and `Examine` (imap-types/src/command.rs:399-404, 434-439). -/
abbrev selectFields : Fields (Mailbox × List SelectParameter) := .cons b!"mailbox" mailbox (.one b!"parameters" (list selectParameter))

/-- The field of `Create`, `Delete`, `Subscribe`, `Unsubscribe` and `GetQuotaRoot` (imap-types/src/command.rs:484-487, 521-524, 597-600,
614-617, 1438-1441). -/
abbrev mailboxField : Fields Mailbox := .one b!"mailbox" mailbox

/-- The fields of `Rename` (imap-types/src/command.rs:566-571). -/
abbrev renameFields : Fields (Mailbox × Mailbox) := .cons b!"from" mailbox (.one b!"to" mailbox)

/-- The fields of `List` and `Lsub` (imap-types/src/command.rs:750-755, 786-791). -/
abbrev listFields : Fields (Mailbox × ListMailbox) := .cons b!"reference" mailbox (.one b!"mailbox_wildcard" listMailbox)

/-- The fields of `Status` (imap-types/src/command.rs:839-844). -/
abbrev statusNameFields : Fields (Mailbox × List StatusDataItemName) :=
  .cons b!"mailbox" mailbox (.one b!"item_names" (list statusDataItemName))

/-- The fields of `Append` (imap-types/src/command.rs:902-915). -/
abbrev appendFields : Fields (Mailbox × List Flag × Option DateTime × LiteralOrLiteral8) :=
  .cons b!"mailbox" mailbox (.cons b!"flags" (list flag) (.cons b!"date" (opt dateTime) (.one b!"message" literalOrLiteral8)))

/-- The field of `ExpungeUid` (imap-types/src/command.rs:1011). -/
abbrev expungeUidField : Fields SequenceSet := .one b!"sequence_set" sequenceSet

/-- The fields of `Search` (imap-types/src/command.rs:1065-1072). -/
abbrev searchFields : Fields (Option Charset × List SearchKey × Bool) :=
  .cons b!"charset" (opt charset) (.cons b!"criteria" (vec 1 searchKey) (.one b!"uid" bool))

/-- The fields of `Sort` (imap-types/src/command.rs:1089-1098). -/
abbrev sortFields : Fields (List SortCriterion × Charset × List SearchKey × Bool) :=
  .cons b!"sort_criteria" (vec 1 sortCriterion) (.cons b!"charset" charset (.cons b!"search_criteria" (vec 1 searchKey)
    (.one b!"uid" bool)))

/-- The fields of `Thread` (imap-types/src/command.rs:1115-1124). -/
abbrev threadFields : Fields (ThreadingAlgorithm × Charset × List SearchKey × Bool) :=
  .cons b!"algorithm" threadingAlgorithm (.cons b!"charset" charset (.cons b!"search_criteria" (vec 1 searchKey) (.one b!"uid" bool)))

/-- The fields of `Fetch` (imap-types/src/command.rs:1150-1159). -/
abbrev fetchFields : Fields (SequenceSet × MacroOrNames × Bool × List FetchModifier) :=
  .cons b!"sequence_set" sequenceSet (.cons b!"macro_or_item_names" macroOrNames (.cons b!"uid" bool
    (.one b!"modifiers" (list fetchModifier))))

/-- The fields of `Store` (imap-types/src/command.rs:1211-1225). -/
abbrev storeFields : Fields (SequenceSet × StoreType × StoreResponse × List Flag × Bool × List StoreModifier) :=
  .cons b!"sequence_set" sequenceSet (.cons b!"kind" storeType (.cons b!"response" storeResponse (.cons b!"flags" (list flag)
    (.cons b!"uid" bool (.one b!"modifiers" (list storeModifier))))))

/-- The fields of `Copy` and `Move` (imap-types/src/command.rs:1253-1260, 1497-1504). -/
abbrev copyFields : Fields (SequenceSet × Mailbox × Bool) :=
  .cons b!"sequence_set" sequenceSet (.cons b!"mailbox" mailbox (.one b!"uid" bool))

/-- The field of `Enable` (imap-types/src/command.rs:1360-1363). -/
abbrev enableField : Fields (List CapabilityEnable) := .one b!"capabilities" (vec 1 capabilityEnable)

/-- The field of `Compress` (imap-types/src/command.rs:1370-1373). -/
abbrev compressField : Fields Unit := .one b!"algorithm" compressionAlgorithm

/-- The field of `GetQuota` (imap-types/src/command.rs:1401-1404). -/
abbrev getQuotaField : Fields AString := .one b!"root" astring

/-- The fields of `SetQuota` (imap-types/src/command.rs:1485-1490). -/
abbrev setQuotaFields : Fields (AString × List QuotaSet) := .cons b!"root" astring (.one b!"quotas" (list quotaSet))

/-- The field of `Id` (imap-types/src/command.rs:1512-1515). -/
abbrev idField : Fields (Option IdParams) := .one b!"parameters" (opt idParams)

/-- The fields of `SetMetadata` (imap-types/src/command.rs:1523-1526). -/
abbrev setMetadataFields : Fields (Mailbox × List EntryValue) := .cons b!"mailbox" mailbox (.one b!"entry_values" (vec 1 entryValue))

/-- The fields of `GetMetadata` (imap-types/src/command.rs:1534-1538). -/
abbrev getMetadataFields : Fields (List GetMetadataOption × Mailbox × List Entry) :=
  .cons b!"options" (list getMetadataOption) (.cons b!"mailbox" mailbox (.one b!"entries" (vec 1 entry)))

/-- `CommandBody` (imap-types/src/command.rs:71-1546). -/
def commandBody : S CommandBody := enum
  (fun
    | .capability => (b!"Capability", none)
    | .noop => (b!"Noop", none)
    | .logout => (b!"Logout", none)
    | .startTls => (b!"StartTLS", none)
    | .authenticate m r => (b!"Authenticate", some ((record authenticateFields).ser (m, r)))
    | .login u p => (b!"Login", some ((record loginFields).ser (u, p)))
    | .select m p => (b!"Select", some ((record selectFields).ser (m, p)))
    | .unselect => (b!"Unselect", none)
    | .examine m p => (b!"Examine", some ((record selectFields).ser (m, p)))
    | .create m => (b!"Create", some ((record mailboxField).ser m))
    | .delete m => (b!"Delete", some ((record mailboxField).ser m))
    | .rename a b => (b!"Rename", some ((record renameFields).ser (a, b)))
    | .subscribe m => (b!"Subscribe", some ((record mailboxField).ser m))
    | .unsubscribe m => (b!"Unsubscribe", some ((record mailboxField).ser m))
    | .list r w => (b!"List", some ((record listFields).ser (r, w)))
    | .lsub r w => (b!"Lsub", some ((record listFields).ser (r, w)))
    | .status m l => (b!"Status", some ((record statusNameFields).ser (m, l)))
    | .append m f d x => (b!"Append", some ((record appendFields).ser (m, f, d, x)))
    | .check => (b!"Check", none)
    | .close => (b!"Close", none)
    | .expunge => (b!"Expunge", none)
    | .expungeUid s => (b!"ExpungeUid", some ((record expungeUidField).ser s))
    | .search c l u => (b!"Search", some ((record searchFields).ser (c, l, u)))
    | .sort s c l u => (b!"Sort", some ((record sortFields).ser (s, c, l, u)))
    | .thread a c l u => (b!"Thread", some ((record threadFields).ser (a, c, l, u)))
    | .fetch s i u m => (b!"Fetch", some ((record fetchFields).ser (s, i, u, m)))
    | .store s k r f u m => (b!"Store", some ((record storeFields).ser (s, k, r, f, u, m)))
    | .copy s m u => (b!"Copy", some ((record copyFields).ser (s, m, u)))
    | .idle => (b!"Idle", none)
    | .enable l => (b!"Enable", some ((record enableField).ser l))
    | .compress => (b!"Compress", some ((record compressField).ser ()))
    | .getQuota r => (b!"GetQuota", some ((record getQuotaField).ser r))
    | .getQuotaRoot m => (b!"GetQuotaRoot", some ((record mailboxField).ser m))
    | .setQuota r l => (b!"SetQuota", some ((record setQuotaFields).ser (r, l)))
    | .move s m u => (b!"Move", some ((record copyFields).ser (s, m, u)))
    | .id p => (b!"Id", some ((record idField).ser p))
    | .setMetadata m l => (b!"SetMetadata", some ((record setMetadataFields).ser (m, l)))
    | .getMetadata o m l => (b!"GetMetadata", some ((record getMetadataFields).ser (o, m, l)))
    | .namespace_ => (b!"Namespace", none))
  [.unit b!"Capability" .capability,
   .unit b!"Noop" .noop,
   .unit b!"Logout" .logout,
   .unit b!"StartTLS" .startTls,
   .of b!"Authenticate" (record authenticateFields) fun x => .authenticate x.1 x.2,
   .of b!"Login" (record loginFields) fun x => .login x.1 x.2,
   .of b!"Select" (record selectFields) fun x => .select x.1 x.2,
   .unit b!"Unselect" .unselect,
   .of b!"Examine" (record selectFields) fun x => .examine x.1 x.2,
   .of b!"Create" (record mailboxField) .create,
   .of b!"Delete" (record mailboxField) .delete,
   .of b!"Rename" (record renameFields) fun x => .rename x.1 x.2,
   .of b!"Subscribe" (record mailboxField) .subscribe,
   .of b!"Unsubscribe" (record mailboxField) .unsubscribe,
   .of b!"List" (record listFields) fun x => .list x.1 x.2,
   .of b!"Lsub" (record listFields) fun x => .lsub x.1 x.2,
   .of b!"Status" (record statusNameFields) fun x => .status x.1 x.2,
   .of b!"Append" (record appendFields) fun x => .append x.1 x.2.1 x.2.2.1 x.2.2.2,
   .unit b!"Check" .check,
   .unit b!"Close" .close,
   .unit b!"Expunge" .expunge,
   .of b!"ExpungeUid" (record expungeUidField) .expungeUid,
   .of b!"Search" (record searchFields) fun x => .search x.1 x.2.1 x.2.2,
   .of b!"Sort" (record sortFields) fun x => .sort x.1 x.2.1 x.2.2.1 x.2.2.2,
   .of b!"Thread" (record threadFields) fun x => .thread x.1 x.2.1 x.2.2.1 x.2.2.2,
   .of b!"Fetch" (record fetchFields) fun x => .fetch x.1 x.2.1 x.2.2.1 x.2.2.2,
   .of b!"Store" (record storeFields) fun x => .store x.1 x.2.1 x.2.2.1 x.2.2.2.1 x.2.2.2.2.1 x.2.2.2.2.2,
   .of b!"Copy" (record copyFields) fun x => .copy x.1 x.2.1 x.2.2,
   .unit b!"Idle" .idle,
   .of b!"Enable" (record enableField) .enable,
   .of b!"Compress" (record compressField) fun _ => .compress,
   .of b!"GetQuota" (record getQuotaField) .getQuota,
   .of b!"GetQuotaRoot" (record mailboxField) .getQuotaRoot,
   .of b!"SetQuota" (record setQuotaFields) fun x => .setQuota x.1 x.2,
   .of b!"Move" (record copyFields) fun x => .move x.1 x.2.1 x.2.2,
   .of b!"Id" (record idField) .id,
   .of b!"SetMetadata" (record setMetadataFields) fun x => .setMetadata x.1 x.2,
   .of b!"GetMetadata" (record getMetadataFields) fun x => .getMetadata x.1 x.2.1 x.2.2,
   .unit b!"Namespace" .namespace_]

/-- `Command` (imap-types/src/command.rs:40-48). -/
def command : S Command := (record (.cons b!"tag" tag (.one b!"body" commandBody))).newtype
  (fun x => ⟨x.1, x.2⟩) (fun c => (c.tag, c.body))

/-! ### Envelopes and body structures (imap-types/src/envelope.rs, imap-types/src/body.rs) -/

/-- `Address` (imap-types/src/envelope.rs:28-52). -/
def address : S Address :=
  (record (.cons b!"name" nstring (.cons b!"adl" nstring (.cons b!"mailbox" nstring (.one b!"host" nstring))))).newtype
    (fun x => ⟨x.1, x.2.1, x.2.2.1, x.2.2.2⟩) (fun a => (a.name, a.adl, a.mailbox, a.host))

/-- `Envelope` (imap-types/src/envelope.rs:11-25). -/
def envelope : S Envelope :=
  (record (.cons b!"date" nstring (.cons b!"subject" nstring (.cons b!"from" (list address) (.cons b!"sender" (list address)
    (.cons b!"reply_to" (list address) (.cons b!"to" (list address) (.cons b!"cc" (list address) (.cons b!"bcc" (list address)
    (.cons b!"in_reply_to" nstring (.one b!"message_id" nstring))))))))))).newtype
    (fun x => ⟨x.1, x.2.1, x.2.2.1, x.2.2.2.1, x.2.2.2.2.1, x.2.2.2.2.2.1, x.2.2.2.2.2.2.1, x.2.2.2.2.2.2.2.1, x.2.2.2.2.2.2.2.2.1,
      x.2.2.2.2.2.2.2.2.2⟩)
    (fun e => (e.date, e.subject, e.from_, e.sender, e.replyTo, e.to_, e.cc, e.bcc, e.inReplyTo, e.messageId))

mutual

/-- `Serialize for BodyExtension` (imap-types/src/body.rs:330-340). -/
def serExtension : BodyExtension → Value
  | .nstring s => tagged (b!"NString", some (nstring.ser s))
  | .number n => tagged (b!"Number", some (u32.ser n))
  | .list l => tagged (b!"List", some (.array (serExtensions l)))

/-- The elements of `Vec1<BodyExtension>`. -/
def serExtensions : List BodyExtension → List Value
  | [] => []
  | e :: l => serExtension e :: serExtensions l

end

/-- The variants of `BodyExtension`, given the deserialization of the extensions in it. -/
def extensionVariants (ext : S BodyExtension) : List (Variant BodyExtension) :=
  [.of b!"NString" nstring .nstring,
   .of b!"Number" u32 .number,
   .of b!"List" (vec 1 ext) .list]

/-- `Deserialize for BodyExtension` (imap-types/src/body.rs:330-340), with a bound on the number of nested calls. -/
def deExtension : Nat → Value → Option BodyExtension
  | 0, _ => none
  | n + 1, v => untag (extensionVariants { ser := serExtension, de := deExtension n }) v

/-- `BodyExtension` (imap-types/src/body.rs:330-340). The calls are not nested deeper than the value. -/
def bodyExtension : S BodyExtension where
  ser := serExtension
  de v := deExtension v.depth v

/-- A list of parameters: `Vec<(IString, IString)>`. -/
def params : S Params := list (pair istring istring)

/-- `Location` (imap-types/src/body.rs:318-327). -/
def location : S Location := (record (.cons b!"location" nstring (.one b!"extensions" (list bodyExtension)))).newtype
  (fun x => ⟨x.1, x.2⟩) (fun x => (x.location, x.extensions))

/-- `Language` (imap-types/src/body.rs:305-315). -/
def language : S Language := (record (.cons b!"language" (list istring) (.one b!"tail" (opt location)))).newtype
  (fun x => ⟨x.1, x.2⟩) (fun x => (x.language, x.tail))

/-- `Disposition` (imap-types/src/body.rs:291-302). -/
def disposition : S Disposition := (record (.cons b!"disposition" (opt (pair istring params)) (.one b!"tail" (opt language)))).newtype
  (fun x => ⟨x.1, x.2⟩) (fun x => (x.disposition, x.tail))

/-- `SinglePartExtensionData` (imap-types/src/body.rs:252-261). -/
def singlePartExt : S SinglePartExt := (record (.cons b!"md5" nstring (.one b!"tail" (opt disposition)))).newtype
  (fun x => ⟨x.1, x.2⟩) (fun x => (x.md5, x.tail))

/-- `MultiPartExtensionData` (imap-types/src/body.rs:277-288). -/
def multiPartExt : S MultiPartExt := (record (.cons b!"parameter_list" params (.one b!"tail" (opt disposition)))).newtype
  (fun x => ⟨x.1, x.2⟩) (fun x => (x.parameterList, x.tail))

/-- `BasicFields` (imap-types/src/body.rs:26-47). -/
def basicFields : S BasicFields :=
  (record (.cons b!"parameter_list" params (.cons b!"id" nstring (.cons b!"description" nstring
    (.cons b!"content_transfer_encoding" istring (.one b!"size" u32)))))).newtype
    (fun x => ⟨x.1, x.2.1, x.2.2.1, x.2.2.2.1, x.2.2.2.2⟩)
    (fun x => (x.parameterList, x.id, x.description, x.contentTransferEncoding, x.size))

/-- The fields of `SpecificFields::Basic` (imap-types/src/body.rs:77-83). -/
abbrev basicSpecificFields : Fields (IString × IString) := .cons b!"type" istring (.one b!"subtype" istring)

/-- The fields of `SpecificFields::Message` (imap-types/src/body.rs:125-132), given the type of the body structure. -/
abbrev messageSpecificFields {β : Type} (body : S β) : Fields (Envelope × β × Nat) :=
  .cons b!"envelope" envelope (.cons b!"body_structure" body (.one b!"number_of_lines" u32))

/-- The fields of `SpecificFields::Text` (imap-types/src/body.rs:160-165). -/
abbrev textSpecificFields : Fields (IString × Nat) := .cons b!"subtype" istring (.one b!"number_of_lines" u32)

/-- `SpecificFields` (imap-types/src/body.rs:50-166), given the type of the body structure. -/
def specificFields {β : Type} (body : S β) : S (SpecificFields β) := enum
  (fun
    | .basic t s => (b!"Basic", some ((record basicSpecificFields).ser (t, s)))
    | .message e b n => (b!"Message", some ((record (messageSpecificFields body)).ser (e, b, n)))
    | .text s n => (b!"Text", some ((record textSpecificFields).ser (s, n))))
  [.of b!"Basic" (record basicSpecificFields) fun x => .basic x.1 x.2,
   .of b!"Message" (record (messageSpecificFields body)) fun x => .message x.1 x.2.1 x.2.2,
   .of b!"Text" (record textSpecificFields) fun x => .text x.1 x.2]

/-- `Body` (imap-types/src/body.rs:15-23), given the type of the body structure. -/
def body {β : Type} (b : S β) : S (BasicFields × SpecificFields β) :=
  record (.cons b!"basic" basicFields (.one b!"specific" (specificFields b)))

/-- The fields of `BodyStructure::Single` (imap-types/src/body.rs:179-192), given the type of the body structure. -/
abbrev singleFields {β : Type} (b : S β) : Fields ((BasicFields × SpecificFields β) × Option SinglePartExt) :=
  .cons b!"body" (body b) (.one b!"extension_data" (opt singlePartExt))

/-- The fields of `BodyStructure::Multi` (imap-types/src/body.rs:241-248), given the type of the body structure. -/
abbrev multiFields {β : Type} (b : S β) : Fields (List β × IString × Option MultiPartExt) :=
  .cons b!"bodies" (vec 1 b) (.cons b!"subtype" istring (.one b!"extension_data" (opt multiPartExt)))

mutual

/-- `Serialize for BodyStructure` (imap-types/src/body.rs:169-249). In the model, the body of `Single` is part of the variant. The body
structures in it are replaced by their values, which are not serialized again. -/
def serBody : BodyStructure → Value
  | .basic f t s x => tagged (b!"Single", some ((record (singleFields ⟨id, some, none⟩)).ser ((f, .basic t s), x)))
  | .message f e b n x => tagged (b!"Single", some ((record (singleFields ⟨id, some, none⟩)).ser ((f, .message e (serBody b) n), x)))
  | .text f s n x => tagged (b!"Single", some ((record (singleFields ⟨id, some, none⟩)).ser ((f, .text s n), x)))
  | .multi l s x => tagged (b!"Multi", some ((record (multiFields ⟨id, some, none⟩)).ser (serBodies l, s, x)))

/-- The elements of `Vec1<BodyStructure>`. -/
def serBodies : List BodyStructure → List Value
  | [] => []
  | b :: l => serBody b :: serBodies l

end

/-- `BodyStructure::Single` (imap-types/src/body.rs:179-192) in the model. -/
def single (x : (BasicFields × SpecificFields BodyStructure) × Option SinglePartExt) : BodyStructure :=
  match x with
  | ((f, .basic t s), x) => .basic f t s x
  | ((f, .message e b n), x) => .message f e b n x
  | ((f, .text s n), x) => .text f s n x

/-- The variants of `BodyStructure`, given the deserialization of the body structures in it. -/
def bodyVariants (b : S BodyStructure) : List (Variant BodyStructure) :=
  [.of b!"Single" (record (singleFields b)) single,
   .of b!"Multi" (record (multiFields b)) fun x => .multi x.1 x.2.1 x.2.2]

/-- `Deserialize for BodyStructure` (imap-types/src/body.rs:169-249), with a bound on the number of nested calls. -/
def deBody : Nat → Value → Option BodyStructure
  | 0, _ => none
  | n + 1, v => untag (bodyVariants { ser := serBody, de := deBody n }) v

/-- `BodyStructure` (imap-types/src/body.rs:169-249). The calls are not nested deeper than the value. -/
def bodyStructure : S BodyStructure where
  ser := serBody
  de v := deBody v.depth v

/-! ### Responses (imap-types/src/response.rs) -/

/-- `SortAlgorithm` (imap-types/src/extensions/sort.rs:13-19) and `SortAlgorithmOther` (imap-types/src/extensions/sort.rs:42-44), without a
check of the name. -/
def sortAlgorithm : S SortAlgorithm := enum
  (fun
    | .display => (b!"Display", none)
    | .other a => (b!"Other", some (atom.ser a)))
  [.unit b!"Display" .display,
   .of b!"Other" atom .other]

/-- `Capability` (imap-types/src/response.rs:1054-1122) and `CapabilityOther` (imap-types/src/response.rs:1287-1289), without a check of
the name. -/
def capability : S Capability := enum
  (fun
    | .imap4Rev1 => (b!"Imap4Rev1", none)
    | .auth m => (b!"Auth", some (authMechanism.ser m))
    | .loginDisabled => (b!"LoginDisabled", none)
    | .startTls => (b!"StartTls", none)
    | .idle => (b!"Idle", none)
    | .mailboxReferrals => (b!"MailboxReferrals", none)
    | .loginReferrals => (b!"LoginReferrals", none)
    | .saslIr => (b!"SaslIr", none)
    | .enable => (b!"Enable", none)
    | .compressDeflate => (b!"Compress", some ((record compressField).ser ()))
    | .quota => (b!"Quota", none)
    | .quotaRes r => (b!"QuotaRes", some (resource.ser r))
    | .quotaSet => (b!"QuotaSet", none)
    | .literalPlus => (b!"LiteralPlus", none)
    | .literalMinus => (b!"LiteralMinus", none)
    | .move_ => (b!"Move", none)
    | .id_ => (b!"Id", none)
    | .unselect => (b!"Unselect", none)
    | .sort a => (b!"Sort", some ((opt sortAlgorithm).ser a))
    | .thread a => (b!"Thread", some (threadingAlgorithm.ser a))
    | .metadata => (b!"Metadata", none)
    | .metadataServer => (b!"MetadataServer", none)
    | .binary => (b!"Binary", none)
    | .uidPlus => (b!"UidPlus", none)
    | .condStore => (b!"CondStore", none)
    | .qResync => (b!"QResync", none)
    | .namespace_ => (b!"Namespace", none)
    | .utf8Accept => (b!"Utf8", some (utf8Kind.ser .accept))
    | .utf8Only => (b!"Utf8", some (utf8Kind.ser .only))
    | .other a => (b!"Other", some (atom.ser a)))
  [.unit b!"Imap4Rev1" .imap4Rev1,
   .of b!"Auth" authMechanism .auth,
   .unit b!"LoginDisabled" .loginDisabled,
   .unit b!"StartTls" .startTls,
   .unit b!"Idle" .idle,
   .unit b!"MailboxReferrals" .mailboxReferrals,
   .unit b!"LoginReferrals" .loginReferrals,
   .unit b!"SaslIr" .saslIr,
   .unit b!"Enable" .enable,
   .of b!"Compress" (record compressField) fun _ => .compressDeflate,
   .unit b!"Quota" .quota,
   .of b!"QuotaRes" resource .quotaRes,
   .unit b!"QuotaSet" .quotaSet,
   .unit b!"LiteralPlus" .literalPlus,
   .unit b!"LiteralMinus" .literalMinus,
   .unit b!"Move" .move_,
   .unit b!"Id" .id_,
   .unit b!"Unselect" .unselect,
   .of b!"Sort" (opt sortAlgorithm) .sort,
   .of b!"Thread" threadingAlgorithm .thread,
   .unit b!"Metadata" .metadata,
   .unit b!"MetadataServer" .metadataServer,
   .unit b!"Binary" .binary,
   .unit b!"UidPlus" .uidPlus,
   .unit b!"CondStore" .condStore,
   .unit b!"QResync" .qResync,
   .unit b!"Namespace" .namespace_,
   .of b!"Utf8" utf8Kind fun
    | .accept => .utf8Accept
    | .only => .utf8Only,
   .of b!"Other" atom .other]

/-- `UidElement` (imap-types/src/extensions/uidplus.rs:16-23). -/
def uidElement : S UidElement := enum
  (fun
    | .single n => (b!"Single", some (nz32.ser n))
    | .range a b => (b!"Range", some ((pair nz32 nz32).ser (a, b))))
  [.of b!"Single" nz32 .single,
   .of b!"Range" (pair nz32 nz32) fun x => .range x.1 x.2]

/-- `UidSet` (imap-types/src/extensions/uidplus.rs:11-14). -/
def uidSet : S (List UidElement) := (vec 1 uidElement).newtype id id

/-- `MetadataCode` (imap-types/src/extensions/metadata.rs:77-86). -/
def metadataCode : S MetadataCode := enum
  (fun
    | .longEntries n => (b!"LongEntries", some (u32.ser n))
    | .maxSize n => (b!"MaxSize", some (u32.ser n))
    | .tooMany => (b!"TooMany", none)
    | .noPrivate => (b!"NoPrivate", none))
  [.of b!"LongEntries" u32 .longEntries,
   .of b!"MaxSize" u32 .maxSize,
   .unit b!"TooMany" .tooMany,
   .unit b!"NoPrivate" .noPrivate]

/-- The field of `Code::BadCharset` (imap-types/src/response.rs:800-802). -/
abbrev badCharsetField : Fields (List Charset) := .one b!"allowed" (list charset)

/-- The fields of `Code::AppendUid` (imap-types/src/response.rs:899-904). -/
abbrev appendUidFields : Fields (NzU32 × NzU32) := .cons b!"uid_validity" nz32 (.one b!"uid" nz32)

/-- The fields of `Code::CopyUid` (imap-types/src/response.rs:907-914). -/
abbrev copyUidFields : Fields (NzU32 × List UidElement × List UidElement) :=
  .cons b!"uid_validity" nz32 (.cons b!"source" uidSet (.one b!"destination" uidSet))

/-- `Code` (imap-types/src/response.rs:781-977) and `CodeOther` (imap-types/src/response.rs:1011-1013), without a check. -/
def code : S Code := enum
  (fun
    | .alert => (b!"Alert", none)
    | .badCharset l => (b!"BadCharset", some ((record badCharsetField).ser l))
    | .capability l => (b!"Capability", some ((vec 1 capability).ser l))
    | .parse => (b!"Parse", none)
    | .permanentFlags l => (b!"PermanentFlags", some ((list flagPerm).ser l))
    | .readOnly => (b!"ReadOnly", none)
    | .readWrite => (b!"ReadWrite", none)
    | .tryCreate => (b!"TryCreate", none)
    | .uidNext n => (b!"UidNext", some (nz32.ser n))
    | .uidValidity n => (b!"UidValidity", some (nz32.ser n))
    | .unseen n => (b!"Unseen", some (nz32.ser n))
    | .referral u => (b!"Referral", some (string.ser u))
    | .compressionActive => (b!"CompressionActive", none)
    | .overQuota => (b!"OverQuota", none)
    | .tooBig => (b!"TooBig", none)
    | .metadata c => (b!"Metadata", some (metadataCode.ser c))
    | .unknownCte => (b!"UnknownCte", none)
    | .appendUid v u => (b!"AppendUid", some ((record appendUidFields).ser (v, u)))
    | .copyUid v s d => (b!"CopyUid", some ((record copyUidFields).ser (v, s, d)))
    | .uidNotSticky => (b!"UidNotSticky", none)
    | .highestModSeq n => (b!"HighestModSeq", some (nz64.ser n))
    | .modified s => (b!"Modified", some (sequenceSet.ser s))
    | .noModSeq => (b!"NoModSeq", none)
    | .closed => (b!"Closed", none)
    | .other d => (b!"Other", some (bytes.ser d)))
  [.unit b!"Alert" .alert,
   .of b!"BadCharset" (record badCharsetField) .badCharset,
   .of b!"Capability" (vec 1 capability) .capability,
   .unit b!"Parse" .parse,
   .of b!"PermanentFlags" (list flagPerm) .permanentFlags,
   .unit b!"ReadOnly" .readOnly,
   .unit b!"ReadWrite" .readWrite,
   .unit b!"TryCreate" .tryCreate,
   .of b!"UidNext" nz32 .uidNext,
   .of b!"UidValidity" nz32 .uidValidity,
   .of b!"Unseen" nz32 .unseen,
   .of b!"Referral" string .referral,
   .unit b!"CompressionActive" .compressionActive,
   .unit b!"OverQuota" .overQuota,
   .unit b!"TooBig" .tooBig,
   .of b!"Metadata" metadataCode .metadata,
   .unit b!"UnknownCte" .unknownCte,
   .of b!"AppendUid" (record appendUidFields) fun x => .appendUid x.1 x.2,
   .of b!"CopyUid" (record copyUidFields) fun x => .copyUid x.1 x.2.1 x.2.2,
   .unit b!"UidNotSticky" .uidNotSticky,
   .of b!"HighestModSeq" nz64 .highestModSeq,
   .of b!"Modified" sequenceSet .modified,
   .unit b!"NoModSeq" .noModSeq,
   .unit b!"Closed" .closed,
   .of b!"Other" bytes .other]

/-- `GreetingKind` (imap-types/src/response.rs:97-114). -/
def greetingKind : S GreetingKind := names
  (fun
    | .ok => b!"Ok"
    | .preAuth => b!"PreAuth"
    | .bye => b!"Bye")
  [(b!"Ok", .ok), (b!"PreAuth", .preAuth), (b!"Bye", .bye)]

/-- `Greeting` (imap-types/src/response.rs:51-57). -/
def greeting : S Greeting := (record (.cons b!"kind" greetingKind (.cons b!"code" (opt code) (.one b!"text" text)))).newtype
  (fun x => ⟨x.1, x.2.1, x.2.2⟩) (fun g => (g.kind, g.code, g.text))

/-- `StatusKind` (imap-types/src/response.rs:166-185). -/
def statusKind : S StatusKind := names
  (fun
    | .ok => b!"Ok"
    | .no => b!"No"
    | .bad => b!"Bad")
  [(b!"Ok", .ok), (b!"No", .no), (b!"Bad", .bad)]

/-- `StatusBody` (imap-types/src/response.rs:152-163). -/
def statusBody : S (StatusKind × Option Code × Bytes) :=
  record (.cons b!"kind" statusKind (.cons b!"code" (opt code) (.one b!"text" text)))

/-- `Tagged` (imap-types/src/response.rs:187-192). -/
def taggedStatus : S (Bytes × StatusKind × Option Code × Bytes) := record (.cons b!"tag" tag (.one b!"body" statusBody))

/-- `Bye` (imap-types/src/response.rs:220-225). -/
def bye : S (Option Code × Bytes) := record (.cons b!"code" (opt code) (.one b!"text" text))

/-- `Status` (imap-types/src/response.rs:139-146). -/
def status : S Status := enum
  (fun
    | .untagged k c t => (b!"Untagged", some (statusBody.ser (k, c, t)))
    | .tagged g k c t => (b!"Tagged", some (taggedStatus.ser (g, k, c, t)))
    | .bye c t => (b!"Bye", some (bye.ser (c, t))))
  [.of b!"Untagged" statusBody fun x => .untagged x.1 x.2.1 x.2.2,
   .of b!"Tagged" taggedStatus fun x => .tagged x.1 x.2.1 x.2.2.1 x.2.2.2,
   .of b!"Bye" bye fun x => .bye x.1 x.2]

/-- `CommandContinuationRequestBasic` (imap-types/src/response.rs:706-735), `try_from = "CommandContinuationRequestBasicShadow"`, which
calls `new`. -/
def continueBasic : S (Option Code × Bytes) :=
  (record (.cons b!"code" (opt code) (.one b!"text" text))).tryFrom fun x => (ContinueReq.ofBasic x.1 x.2).isSome

/-- `CommandContinuationRequest` (imap-types/src/response.rs:676-686). -/
def continueReq : S ContinueReq := enum
  (fun
    | .basic c t => (b!"Basic", some (continueBasic.ser (c, t)))
    | .base64 d => (b!"Base64", some (bytes.ser d)))
  [.of b!"Basic" continueBasic fun x => .basic x.1 x.2,
   .of b!"Base64" bytes .base64]

/-- `StatusDataItem` (imap-types/src/status.rs:42-80). -/
def statusDataItem : S StatusDataItem := enum
  (fun
    | .messages n => (b!"Messages", some (u32.ser n))
    | .recent n => (b!"Recent", some (u32.ser n))
    | .uidNext n => (b!"UidNext", some (nz32.ser n))
    | .uidValidity n => (b!"UidValidity", some (nz32.ser n))
    | .unseen n => (b!"Unseen", some (u32.ser n))
    | .deleted n => (b!"Deleted", some (u32.ser n))
    | .deletedStorage n => (b!"DeletedStorage", some (u64.ser n))
    | .highestModSeq n => (b!"HighestModSeq", some (u64.ser n)))
  [.of b!"Messages" u32 .messages,
   .of b!"Recent" u32 .recent,
   .of b!"UidNext" nz32 .uidNext,
   .of b!"UidValidity" nz32 .uidValidity,
   .of b!"Unseen" u32 .unseen,
   .of b!"Deleted" u32 .deleted,
   .of b!"DeletedStorage" u64 .deletedStorage,
   .of b!"HighestModSeq" u64 .highestModSeq]

/-- The fields of `MessageDataItem::BodyExt` (imap-types/src/fetch.rs:283-299). -/
abbrev bodyExtFields : Fields (Option Section × Option Nat × NString) :=
  .cons b!"section" (opt section_) (.cons b!"origin" (opt u32) (.one b!"data" nstring))

/-- The fields of `MessageDataItem::Binary` (imap-types/src/fetch.rs:375-378). -/
abbrev binaryFields : Fields (List NzU32 × NString8) := .cons b!"section" (list nz32) (.one b!"value" nstring8)

/-- The fields of `MessageDataItem::BinarySize` (imap-types/src/fetch.rs:380-383). -/
abbrev binarySizeFields : Fields (List NzU32 × Nat) := .cons b!"section" (list nz32) (.one b!"size" u32)

/-- `MessageDataItem` (imap-types/src/fetch.rs:250-388). -/
def messageDataItem : S MessageDataItem := enum
  (fun
    | .body b => (b!"Body", some (bodyStructure.ser b))
    | .bodyExt s o d => (b!"BodyExt", some ((record bodyExtFields).ser (s, o, d)))
    | .bodyStructure b => (b!"BodyStructure", some (bodyStructure.ser b))
    | .envelope e => (b!"Envelope", some (envelope.ser e))
    | .flags l => (b!"Flags", some ((list flagFetch).ser l))
    | .internalDate t => (b!"InternalDate", some (dateTime.ser t))
    | .rfc822 s => (b!"Rfc822", some (nstring.ser s))
    | .rfc822Header s => (b!"Rfc822Header", some (nstring.ser s))
    | .rfc822Size n => (b!"Rfc822Size", some (u32.ser n))
    | .rfc822Text s => (b!"Rfc822Text", some (nstring.ser s))
    | .uid n => (b!"Uid", some (nz32.ser n))
    | .binary s v => (b!"Binary", some ((record binaryFields).ser (s, v)))
    | .binarySize s n => (b!"BinarySize", some ((record binarySizeFields).ser (s, n)))
    | .modSeq n => (b!"ModSeq", some (nz64.ser n)))
  [.of b!"Body" bodyStructure .body,
   .of b!"BodyExt" (record bodyExtFields) fun x => .bodyExt x.1 x.2.1 x.2.2,
   .of b!"BodyStructure" bodyStructure .bodyStructure,
   .of b!"Envelope" envelope .envelope,
   .of b!"Flags" (list flagFetch) .flags,
   .of b!"InternalDate" dateTime .internalDate,
   .of b!"Rfc822" nstring .rfc822,
   .of b!"Rfc822Header" nstring .rfc822Header,
   .of b!"Rfc822Size" u32 .rfc822Size,
   .of b!"Rfc822Text" nstring .rfc822Text,
   .of b!"Uid" nz32 .uid,
   .of b!"Binary" (record binaryFields) fun x => .binary x.1 x.2,
   .of b!"BinarySize" (record binarySizeFields) fun x => .binarySize x.1 x.2,
   .of b!"ModSeq" nz64 .modSeq]

/-- The fields of `Thread::Members` (imap-types/src/extensions/thread.rs:20-23), given the type of the threads. -/
abbrev membersFields {β : Type} (t : S β) : Fields (List NzU32 × Option (List β)) :=
  .cons b!"prefix" (vec 1 nz32) (.one b!"answers" (opt (vec 2 t)))

/-- The field of `Thread::Nested` (imap-types/src/extensions/thread.rs:24-26), given the type of the threads. -/
abbrev nestedField {β : Type} (t : S β) : Fields (List β) := .one b!"answers" (vec 2 t)

mutual

/-- `Serialize for Thread` (imap-types/src/extensions/thread.rs:16-27). In the model, `answers: None` is the empty list. The threads in
it are replaced by their values, which are not serialized again. -/
def serThread : Thread → Value
  | .members p l => tagged (b!"Members", some ((record (membersFields ⟨id, some, none⟩)).ser
      (p, if l.isEmpty then none else some (serThreads l))))
  | .nested l => tagged (b!"Nested", some ((record (nestedField ⟨id, some, none⟩)).ser (serThreads l)))

/-- The elements of `Vec2<Thread>`. -/
def serThreads : List Thread → List Value
  | [] => []
  | t :: l => serThread t :: serThreads l

end

/-- The variants of `Thread`, given the deserialization of the threads in it. -/
def threadVariants (t : S Thread) : List (Variant Thread) :=
  [.of b!"Members" (record (membersFields t)) fun x => .members x.1 (x.2.getD []),
   .of b!"Nested" (record (nestedField t)) .nested]

/-- `Deserialize for Thread` (imap-types/src/extensions/thread.rs:16-27), with a bound on the number of nested calls. -/
def deThread : Nat → Value → Option Thread
  | 0, _ => none
  | n + 1, v => untag (threadVariants { ser := serThread, de := deThread n }) v

/-- `Thread` (imap-types/src/extensions/thread.rs:16-27). The calls are not nested deeper than the value. -/
def thread : S Thread where
  ser := serThread
  de v := deThread v.depth v

/-- `NamespaceResponseExtension` (imap-types/src/extensions/namespace.rs:90-96). -/
def namespaceExt : S NamespaceExt := (record (.cons b!"key" istring (.one b!"values" (vec 1 istring)))).newtype
  (fun x => ⟨x.1, x.2⟩) (fun x => (x.key, x.values))

/-- `Namespace` (imap-types/src/extensions/namespace.rs:69-77). -/
def namespace_ : S Namespace :=
  (record (.cons b!"prefix" istring (.cons b!"delimiter" (opt quotedChar) (.one b!"extensions" (list namespaceExt))))).newtype
    (fun x => ⟨x.1, x.2.1, x.2.2⟩) (fun x => (x.prefix_, x.delimiter, x.extensions))

/-- `QuotaGet` (imap-types/src/extensions/quota.rs:223-230). -/
def quotaGet : S QuotaGet := (record (.cons b!"resource" resource (.cons b!"usage" u64 (.one b!"limit" u64)))).newtype
  (fun x => ⟨x.1, x.2.1, x.2.2⟩) (fun q => (q.resource, q.usage, q.limit))

/-- `MetadataResponse` (imap-types/src/extensions/metadata.rs:88-95). -/
def metadataResponse : S MetadataResponse := enum
  (fun
    | .withValues l => (b!"WithValues", some ((vec 1 entryValue).ser l))
    | .withoutValues l => (b!"WithoutValues", some ((vec 1 entry).ser l)))
  [.of b!"WithValues" (vec 1 entryValue) .withValues,
   .of b!"WithoutValues" (vec 1 entry) .withoutValues]

/-- The fields of `Data::List` and `Data::Lsub` (imap-types/src/response.rs:390-397, 405-412). -/
abbrev listDataFields : Fields (List FlagNameAttribute × Option UInt8 × Mailbox) :=
  .cons b!"items" (list flagNameAttribute) (.cons b!"delimiter" (opt quotedChar) (.one b!"mailbox" mailbox))

/-- The fields of `Data::Status` (imap-types/src/response.rs:419-424). -/
abbrev statusFields : Fields (Mailbox × List StatusDataItem) := .cons b!"mailbox" mailbox (.one b!"items" (list statusDataItem))

/-- The fields of `Data::Fetch` (imap-types/src/response.rs:555-560). -/
abbrev fetchDataFields : Fields (NzU32 × List MessageDataItem) := .cons b!"seq" nz32 (.one b!"items" (vec 1 messageDataItem))

/-- The field of `Data::Enabled` (imap-types/src/response.rs:562-564). -/
abbrev enabledField : Fields (List CapabilityEnable) := .one b!"capabilities" (list capabilityEnable)

/-- The fields of `Data::Quota` (imap-types/src/response.rs:566-571). -/
abbrev quotaFields : Fields (AString × List QuotaGet) := .cons b!"root" astring (.one b!"quotas" (vec 1 quotaGet))

/-- The fields of `Data::QuotaRoot` (imap-types/src/response.rs:573-578). -/
abbrev quotaRootFields : Fields (Mailbox × List AString) := .cons b!"mailbox" mailbox (.one b!"roots" (list astring))

/-- The fields of `Data::Metadata` (imap-types/src/response.rs:589-592). -/
abbrev metadataFields : Fields (Mailbox × MetadataResponse) := .cons b!"mailbox" mailbox (.one b!"items" metadataResponse)

/-- The fields of `Data::Vanished` (imap-types/src/response.rs:596-599). -/
abbrev vanishedFields : Fields (Bool × SequenceSet) := .cons b!"earlier" bool (.one b!"known_uids" sequenceSet)

/-- The fields of `Data::Namespace` (imap-types/src/response.rs:602-606). -/
abbrev namespaceFields : Fields (List Namespace × List Namespace × List Namespace) :=
  .cons b!"personal" (list namespace_) (.cons b!"other" (list namespace_) (.one b!"shared" (list namespace_)))

/-- `Data` (imap-types/src/response.rs:316-607). -/
def data : S Data := enum
  (fun
    | .capability l => (b!"Capability", some ((vec 1 capability).ser l))
    | .list l d m => (b!"List", some ((record listDataFields).ser (l, d, m)))
    | .lsub l d m => (b!"Lsub", some ((record listDataFields).ser (l, d, m)))
    | .status m l => (b!"Status", some ((record statusFields).ser (m, l)))
    | .search l m => (b!"Search", some ((pair (list nz32) (opt nz64)).ser (l, m)))
    | .sort l m => (b!"Sort", some ((pair (list nz32) (opt nz64)).ser (l, m)))
    | .thread l => (b!"Thread", some ((list thread).ser l))
    | .flags l => (b!"Flags", some ((list flag).ser l))
    | .exists_ n => (b!"Exists", some (u32.ser n))
    | .recent n => (b!"Recent", some (u32.ser n))
    | .expunge n => (b!"Expunge", some (nz32.ser n))
    | .fetch n l => (b!"Fetch", some ((record fetchDataFields).ser (n, l)))
    | .enabled l => (b!"Enabled", some ((record enabledField).ser l))
    | .quota r l => (b!"Quota", some ((record quotaFields).ser (r, l)))
    | .quotaRoot m l => (b!"QuotaRoot", some ((record quotaRootFields).ser (m, l)))
    | .id_ p => (b!"Id", some ((record idField).ser p))
    | .metadata m r => (b!"Metadata", some ((record metadataFields).ser (m, r)))
    | .vanished e s => (b!"Vanished", some ((record vanishedFields).ser (e, s)))
    | .namespace_ p o s => (b!"Namespace", some ((record namespaceFields).ser (p, o, s))))
  [.of b!"Capability" (vec 1 capability) .capability,
   .of b!"List" (record listDataFields) fun x => .list x.1 x.2.1 x.2.2,
   .of b!"Lsub" (record listDataFields) fun x => .lsub x.1 x.2.1 x.2.2,
   .of b!"Status" (record statusFields) fun x => .status x.1 x.2,
   .of b!"Search" (pair (list nz32) (opt nz64)) fun x => .search x.1 x.2,
   .of b!"Sort" (pair (list nz32) (opt nz64)) fun x => .sort x.1 x.2,
   .of b!"Thread" (list thread) .thread,
   .of b!"Flags" (list flag) .flags,
   .of b!"Exists" u32 .exists_,
   .of b!"Recent" u32 .recent,
   .of b!"Expunge" nz32 .expunge,
   .of b!"Fetch" (record fetchDataFields) fun x => .fetch x.1 x.2,
   .of b!"Enabled" (record enabledField) .enabled,
   .of b!"Quota" (record quotaFields) fun x => .quota x.1 x.2,
   .of b!"QuotaRoot" (record quotaRootFields) fun x => .quotaRoot x.1 x.2,
   .of b!"Id" (record idField) .id_,
   .of b!"Metadata" (record metadataFields) fun x => .metadata x.1 x.2,
   .of b!"Vanished" (record vanishedFields) fun x => .vanished x.1 x.2,
   .of b!"Namespace" (record namespaceFields) fun x => .namespace_ x.1 x.2.1 x.2.2]

/-- `Response` (imap-types/src/response.rs:117-136). -/
def response : S Response := enum
  (fun
    | .continue_ r => (b!"CommandContinuationRequest", some (continueReq.ser r))
    | .data d => (b!"Data", some (data.ser d))
    | .status s => (b!"Status", some (status.ser s)))
  [.of b!"CommandContinuationRequest" continueReq .continue_,
   .of b!"Data" data .data,
   .of b!"Status" status .status]

/-- `IdleDone` (imap-types/src/extensions/idle.rs:23-26): a unit struct. -/
def idleDone : S Unit := unit

end Imap.Serde

namespace Imap

/-- `Serialize` and `Deserialize` of the messages. -/
def Codec.serde : (k : Codec) → Serde.S k.Message
  | .greeting => Serde.greeting
  | .command => Serde.command
  | .authenticateData => Serde.authenticateData
  | .response => Serde.response
  | .idleDone => Serde.idleDone

end Imap
