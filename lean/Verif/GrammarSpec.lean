import Verif.DatesSpec
import Verif.NamesSpec
import Verif.Base64Spec
/-!
Specification for C48: the formal syntax of commands, written after the ABNF of the RFCs. A grammar does not only say which texts are
commands, but also which command a text denotes. It is a relation and says nothing about how to parse: alternatives have no order, nothing
is greedy, and nothing is said about incomplete input.

Each rule is preceded by the rule of the RFC. Where imap-codec implements something else, the rule here follows imap-codec, and the comment
says so, with the word LENIENT (more is accepted than the RFC allows) or STRICT (less is accepted).
-/
namespace Imap.Grammar

open Imap.Spec (AtomChar AStringChar TagChar TextChar ListChar Str1 Numeral)

/-! ### Notation -/

/-- A grammar for values of type `α`: `g w v` means that the text `w` is derived from `g` and denotes `v`. -/
def G (α : Type) : Type := Bytes → α → Prop

/-- Concatenation: `do let a ← g; let b ← h; return f a b` are the texts that consist of a text of `g` and a text of `h`. -/
instance : Monad G where
  pure a := fun w v => w = [] ∧ v = a
  bind g f := fun w v => ∃ w₁ w₂ a, w = w₁ ++ w₂ ∧ g w₁ a ∧ f a w₂ v
  map f g := fun w v => ∃ a, g w a ∧ v = f a

variable {α β : Type}

/-- A string of ABNF: upper and lower case letters are not distinguished (RFC 5234, section 2.3). -/
def lit (s : Bytes) : G Unit := fun w _ => lowerAll w = lowerAll s

/-- A string of ABNF that denotes the value. -/
def is (s : Bytes) (a : α) : G α := fun w v => lowerAll w = lowerAll s ∧ v = a

/-- Alternatives, `g₁ / g₂ / ...`, in no particular order. -/
def choice (gs : List (G α)) : G α := fun w v => ∃ g ∈ gs, g w v

/-- A rule of an extension of IMAP, which is implemented only if the feature is on. -/
def onlyIf (b : Bool) (g : G α) : G α := fun w v => b = true ∧ g w v

/-- `[g]`. -/
def opt (g : G α) : G (Option α) := fun w v => (w = [] ∧ v = none) ∨ ∃ a, g w a ∧ v = some a

/-- `[g]`, where the absence denotes `d`. -/
def optD (d : α) (g : G α) : G α := fun w v => (w = [] ∧ v = d) ∨ g w v

/-- `*g`. -/
inductive Star (g : G α) : G (List α)
  | nil : Star g [] []
  | cons {w w' : Bytes} {a : α} {l : List α} (h : g w a) (t : Star g w' l) : Star g (w ++ w') (a :: l)

/-- `1*g`. -/
def plus (g : G α) : G (List α) := do
  let a ← g
  let l ← Star g
  return a :: l

/-- `g *(sep g)`. -/
def sepBy1 (sep : G Unit) (g : G α) : G (List α) := do
  let a ← g
  let l ← Star (do sep; g)
  return a :: l

/-- `[g *(sep g)]`. -/
def sepBy0 (sep : G Unit) (g : G α) : G (List α) := optD [] (sepBy1 sep g)

/-- Only the values with the property. -/
def such (g : G α) (p : α → Prop) : G α := fun w v => g w v ∧ p v

/-- One or more characters of a class; the text denotes itself. -/
def token (c : UInt8 → Prop) : G Bytes := fun w v => v = w ∧ Str1 c w

/-- Any `n` octets. -/
def octets (n : Nat) : G Bytes := fun w v => v = w ∧ w.length = n

/-- An atom that is a name of the table, in any letter case, denotes what the table says; all other atoms denote `other` of themselves. -/
def named (table : List (Bytes × α)) (other : Bytes → α) : G α := fun w v =>
  Spec.IsAtom w ∧ ((lowerAll w, v) ∈ table ∨ (lowerAll w ∉ table.map Prod.fst ∧ v = other w))

/-- `SP`. -/
def sp : G Unit := lit b!" "

/-- `CRLF`. LENIENT: with the quirk `crlf_relaxed` the CR may be missing. -/
def crlf [q : Quirks] : G Unit := fun w _ => w = b!"\r\n" ∨ (q.crlfRelaxed = true ∧ w = b!"\n")

/-- `"(" g ")"`. -/
def parens (g : G α) : G α := do
  lit b!"("
  let a ← g
  lit b!")"
  return a

/-! ### Strings and numbers (RFC 3501, section 9) -/

/-- `number = 1*DIGIT`, an unsigned 32-bit integer (0 <= n < 4,294,967,296). -/
def number : G Nat := fun w n => Numeral w ∧ n = Spec.value w ∧ n < 2 ^ 32

/-- `number64 = 1*DIGIT`, an unsigned 64-bit integer (RFC 9208). LENIENT: RFC 9208 allows 63 bits only. -/
def number64 : G Nat := fun w n => Numeral w ∧ n = Spec.value w ∧ n < 2 ^ 64

/-- `nz-number = digit-nz *DIGIT`, a non-zero unsigned 32-bit integer. LENIENT: leading zeros. -/
def nzNumber : G Nat := such number (1 ≤ ·)

/-- `mod-sequence-value = 1*DIGIT`, a positive unsigned 64-bit integer (RFC 7162). LENIENT: RFC 7162 allows 63 bits only. -/
def modSequenceValue : G Nat := such number64 (1 ≤ ·)

/-- `mod-sequence-valzer = "0" / mod-sequence-value` (RFC 7162). -/
def modSequenceValzer : G Nat := number64

/-- `atom = 1*ATOM-CHAR`. -/
def atom : G Bytes := token AtomChar

/-- `tag = 1*<any ASTRING-CHAR except "+">`. -/
def tag : G Bytes := token TagChar

/-- The characters between the quotes: `"` and `\` have a backslash before them, all others stand for themselves. -/
inductive QuotedChars (c : UInt8 → Prop) : Bytes → Bytes → Prop
  | nil : QuotedChars c [] []
  | plain {b : UInt8} {w s : Bytes} (hb : c b) (h1 : b ∉ b!"\"\\") (t : QuotedChars c w s) : QuotedChars c (b :: w) (b :: s)
  | escaped {b : UInt8} {w s : Bytes} (hb : b ∈ b!"\"\\") (t : QuotedChars c w s) : QuotedChars c (b!"\\" ++ b :: w) (b :: s)

/-- `quoted = DQUOTE *QUOTED-CHAR DQUOTE`, `QUOTED-CHAR = <any TEXT-CHAR except quoted-specials> / "\" quoted-specials`. -/
def quoted : G Bytes := fun w s => ∃ u, w = b!"\"" ++ u ++ b!"\"" ∧ QuotedChars TextChar u s

/-- A quoted string with UTF-8 (RFC 6855: `QUOTED-CHAR =/ UTF8-2 / UTF8-3 / UTF8-4`) that is not a quoted string of RFC 3501.
LENIENT: NUL, CR and LF may occur. -/
def quotedUtf8 : G Bytes := fun w s =>
  ∃ u, w = b!"\"" ++ u ++ b!"\"" ∧ QuotedChars (fun _ => True) u s ∧ isUtf8 s ∧ ∃ b ∈ s, ¬ TextChar b

/-- `literal = "{" number ["+"] "}" CRLF *CHAR8` (RFC 3501, RFC 7888); CHAR8 is any octet except for NUL. -/
def literal [Quirks] : G Literal := do
  lit b!"{"
  let n ← number
  let m ← optD .sync (is b!"+" .nonSync)
  lit b!"}"
  crlf
  let d ← such (octets n) (0 ∉ ·)
  return ⟨d, m⟩

/-- `literal8 = "~{" number ["+"] "}" CRLF *OCTET` (RFC 3516, RFC 4466). -/
def literal8 [Quirks] : G Literal8 := do
  lit b!"~{"
  let n ← number
  let m ← optD .sync (is b!"+" .nonSync)
  lit b!"}"
  crlf
  let d ← octets n
  return ⟨d, m⟩

/-- `string = quoted / literal`. -/
def string [q : Quirks] : G IString :=
  choice [.quoted <$> quoted, onlyIf q.extUtf8 (.quotedUtf8 <$> quotedUtf8), .literal <$> literal]

/-- `astring = 1*ASTRING-CHAR / string`. -/
def astring [Quirks] : G AString := choice [.atom <$> token AStringChar, .string <$> string]

/-- `nil = "NIL"`, `nstring = string / nil`. -/
def nstring [Quirks] : G NString := choice [some <$> string, is b!"NIL" none]

/-- `base64` (RFC 4648, section 4). LENIENT: the empty text is allowed too. -/
def base64 : G Bytes := fun w d => w = Spec.base64 d

/-- `charset = atom / quoted` (RFC 5256). -/
def charset : G Charset := choice [.atom <$> atom, .quoted <$> quoted]

/-! ### Parts of messages (RFC 3501, section 9) -/

/-- `seq-number = nz-number / "*"`. -/
def seqNumber : G SeqOrUid := choice [.value <$> nzNumber, is b!"*" .asterisk]

/-- `seq-range = seq-number ":" seq-number`. -/
def seqRange : G Sequence := do
  let a ← seqNumber
  lit b!":"
  let b ← seqNumber
  return .range a b

/-- `sequence-set = (seq-number / seq-range) *("," sequence-set)`. -/
def sequenceSet : G SequenceSet := sepBy1 (lit b!",") (choice [.single <$> seqNumber, seqRange])

/-- `mailbox = "INBOX" / astring`; INBOX is case-insensitive, and an astring that consists of these characters is considered to be INBOX. -/
def mailbox [Quirks] : G Mailbox := (fun s => if lowerAll s.content = b!"inbox" then .inbox else .other s) <$> astring

/-- `list-mailbox = 1*list-char / string`. -/
def listMailbox [Quirks] : G ListMailbox := choice [.token <$> token ListChar, .string <$> string]

/-- `flag = "\Answered" / "\Flagged" / "\Deleted" / "\Seen" / "\Draft" / flag-keyword / flag-extension`,
`flag-extension = "\" atom`, `flag-keyword = atom`. -/
def flag : G Flag := choice [do lit b!"\\"; named Spec.flagNames .extension, .keyword <$> atom]

/-- `flag-list = "(" [flag *(SP flag)] ")"`. -/
def flagList : G (List Flag) := parens (sepBy0 sp flag)

/-- `date = date-text / DQUOTE date-text DQUOTE`, and the date exists. -/
def date : G NaiveDate := fun w d => Spec.Date w d ∧ Spec.NaiveDate.Inv d

/-- `date-time`, and the date and time exist. -/
def dateTime : G DateTime := fun w t => Spec.DateTimeText w t ∧ Spec.DateTime.Inv t

/-- `status-att = "MESSAGES" / "RECENT" / "UIDNEXT" / "UIDVALIDITY" / "UNSEEN"`, and `"DELETED" / "DELETED-STORAGE"` (RFC 9208) and
`"HIGHESTMODSEQ"` (RFC 7162). -/
def statusAtt [q : Quirks] : G StatusDataItemName :=
  choice [is b!"MESSAGES" .messages, is b!"RECENT" .recent, is b!"UIDNEXT" .uidNext, is b!"UIDVALIDITY" .uidValidity,
    is b!"UNSEEN" .unseen, is b!"DELETED-STORAGE" .deletedStorage, is b!"DELETED" .deleted,
    onlyIf q.extCondstoreQresync (is b!"HIGHESTMODSEQ" .highestModSeq)]

/-- `auth-type = atom`. -/
def authType : G AuthMechanism := named Spec.mechanismNames .other

/-! ### Search keys (RFC 3501, RFC 7162) -/

/-- Flags, without the backslashes (RFC 7162, section 7). -/
def attributeFlagNames : List (Bytes × AttributeFlag) :=
  [(b!"answered", .answered), (b!"flagged", .flagged), (b!"deleted", .deleted), (b!"seen", .seen), (b!"draft", .draft)]

/-- `attr-flag = "\\Answered" / "\\Flagged" / "\\Deleted" / "\\Seen" / "\\Draft" / attr-flag-keyword / attr-flag-extension`,
`attr-flag-extension = "\\" atom`, `attr-flag-keyword = atom`. -/
def attrFlag : G AttributeFlag :=
  choice [do lit b!"\\\\"; named attributeFlagNames .extension, .keyword <$> atom]

/-- `search-modsequence = "MODSEQ" [search-modseq-ext] SP mod-sequence-valzer`, `search-modseq-ext = SP entry-name SP entry-type-req`,
`entry-name = DQUOTE "/flags/" attr-flag DQUOTE`, `entry-type-req = "priv" / "shared" / "all"`. -/
def searchModsequence : G SearchKey := do
  lit b!"MODSEQ"
  let e ← opt (do
    lit b!" \"/flags/"
    let f ← attrFlag
    lit b!"\" "
    let t ← choice [is b!"priv" EntryTypeReq.private_, is b!"shared" .shared, is b!"all" .all]
    return (f, t))
  sp
  let n ← modSequenceValzer
  return .modSequence e n

/-- `search-key`, see the comments below. STRICT: keys may be nested to a limited depth only. -/
def searchKey [q : Quirks] : Nat → G SearchKey
  | 0 => choice []
  | n + 1 => choice [
    -- "ALL" / "ANSWERED" / "BCC" SP astring / "BEFORE" SP date / "BODY" SP astring / "CC" SP astring / "DELETED" / "FLAGGED" /
    is b!"ALL" .all,
    is b!"ANSWERED" .answered,
    .bcc <$> do lit b!"BCC "; astring,
    .before <$> do lit b!"BEFORE "; date,
    .body <$> do lit b!"BODY "; astring,
    .cc <$> do lit b!"CC "; astring,
    is b!"DELETED" .deleted,
    is b!"FLAGGED" .flagged,
    -- "FROM" SP astring / "KEYWORD" SP flag-keyword / "NEW" / "OLD" / "ON" SP date / "RECENT" / "SEEN" / "SINCE" SP date /
    .from_ <$> do lit b!"FROM "; astring,
    .keyword <$> do lit b!"KEYWORD "; atom,
    is b!"NEW" .new,
    is b!"OLD" .old,
    .on <$> do lit b!"ON "; date,
    is b!"RECENT" .recent,
    is b!"SEEN" .seen,
    .since <$> do lit b!"SINCE "; date,
    -- "SUBJECT" SP astring / "TEXT" SP astring / "TO" SP astring / "UNANSWERED" / "UNDELETED" / "UNFLAGGED" /
    .subject <$> do lit b!"SUBJECT "; astring,
    .text <$> do lit b!"TEXT "; astring,
    .to <$> do lit b!"TO "; astring,
    is b!"UNANSWERED" .unanswered,
    is b!"UNDELETED" .undeleted,
    is b!"UNFLAGGED" .unflagged,
    -- "UNKEYWORD" SP flag-keyword / "UNSEEN" / "DRAFT" / "HEADER" SP header-fld-name SP astring / "LARGER" SP number /
    .unkeyword <$> do lit b!"UNKEYWORD "; atom,
    is b!"UNSEEN" .unseen,
    is b!"DRAFT" .draft,
    do lit b!"HEADER "; let k ← astring; sp; let v ← astring; return .header k v,
    .larger <$> do lit b!"LARGER "; number,
    -- "NOT" SP search-key / "OR" SP search-key SP search-key / "SENTBEFORE" SP date / "SENTON" SP date / "SENTSINCE" SP date /
    .not <$> do lit b!"NOT "; searchKey n,
    do lit b!"OR "; let a ← searchKey n; sp; let b ← searchKey n; return .or a b,
    .sentBefore <$> do lit b!"SENTBEFORE "; date,
    .sentOn <$> do lit b!"SENTON "; date,
    .sentSince <$> do lit b!"SENTSINCE "; date,
    -- "SMALLER" SP number / "UID" SP sequence-set / "UNDRAFT" / search-modsequence / sequence-set /
    .smaller <$> do lit b!"SMALLER "; number,
    .uid <$> do lit b!"UID "; sequenceSet,
    is b!"UNDRAFT" .undraft,
    onlyIf q.extCondstoreQresync searchModsequence,
    .sequenceSet <$> sequenceSet,
    -- "(" search-key *(SP search-key) ")"
    .and <$> parens (sepBy1 sp (searchKey n))]

/-- `1*(SP search-key)`, without the first space; at most 9 keys are nested. -/
def searchKeys [Quirks] : G (List SearchKey) := sepBy1 sp (searchKey 9)

/-! ### Items of FETCH (RFC 3501, RFC 3516, RFC 7162) -/

/-- `header-list = "(" header-fld-name *(SP header-fld-name) ")"`, `header-fld-name = astring`. -/
def headerList [Quirks] : G (List AString) := parens (sepBy1 sp astring)

/-- `section-part = nz-number *("." nz-number)`. -/
def sectionPart : G (List NzU32) := sepBy1 (lit b!".") nzNumber

/-- `section-msgtext = "HEADER" / "HEADER.FIELDS" [".NOT"] SP header-list / "TEXT"`, of the given part. -/
def sectionMsgtext [Quirks] (p : Option (List NzU32)) : G Section :=
  choice [.headerFieldsNot p <$> do lit b!"HEADER.FIELDS.NOT "; headerList,
    .headerFields p <$> do lit b!"HEADER.FIELDS "; headerList,
    is b!"HEADER" (.header p),
    is b!"TEXT" (.text p)]

/-- `section-spec = section-msgtext / (section-part ["." section-text])`, `section-text = section-msgtext / "MIME"`. -/
def sectionSpec [Quirks] : G Section :=
  choice [sectionMsgtext none,
    .part <$> sectionPart,
    do let p ← sectionPart; lit b!"."; sectionMsgtext (some p),
    do let p ← sectionPart; lit b!"."; is b!"MIME" (.mime p)]

/-- `section = "[" [section-spec] "]"`. -/
def «section» [Quirks] : G (Option Section) := do
  lit b!"["
  let s ← opt sectionSpec
  lit b!"]"
  return s

/-- `section-binary = "[" [section-part] "]"`. -/
def sectionBinary : G (List NzU32) := do
  lit b!"["
  let s ← optD [] sectionPart
  lit b!"]"
  return s

/-- `partial = "<" number "." nz-number ">"`. -/
def partial_ : G (Nat × NzU32) := do
  lit b!"<"
  let a ← number
  lit b!"."
  let b ← nzNumber
  lit b!">"
  return (a, b)

/-- `fetch-att = "ENVELOPE" / "FLAGS" / "INTERNALDATE" / "RFC822" [".HEADER" / ".SIZE" / ".TEXT"] / "BODY" ["STRUCTURE"] / "UID" /
"BODY" section [partial] / "BODY.PEEK" section [partial] / "BINARY" section-binary [partial] / "BINARY.PEEK" section-binary [partial] /
"BINARY.SIZE" section-binary / "MODSEQ"`. -/
def fetchAtt [q : Quirks] : G MessageDataItemName :=
  choice [is b!"ENVELOPE" .envelope, is b!"FLAGS" .flags, is b!"INTERNALDATE" .internalDate, is b!"BODYSTRUCTURE" .bodyStructure,
    do lit b!"BODY.PEEK"; let s ← «section»; let p ← opt partial_; return .bodyExt s p true,
    do lit b!"BODY"; let s ← «section»; let p ← opt partial_; return .bodyExt s p false,
    do lit b!"BINARY.PEEK"; let s ← sectionBinary; let p ← opt partial_; return .binary s p true,
    do lit b!"BINARY"; let s ← sectionBinary; let p ← opt partial_; return .binary s p false,
    do lit b!"BINARY.SIZE"; let s ← sectionBinary; return .binarySize s,
    is b!"BODY" .body, is b!"UID" .uid,
    is b!"RFC822.HEADER" .rfc822Header, is b!"RFC822.SIZE" .rfc822Size, is b!"RFC822.TEXT" .rfc822Text, is b!"RFC822" .rfc822,
    onlyIf q.extCondstoreQresync (is b!"MODSEQ" .modSeq)]

/-- `"ALL" / "FULL" / "FAST" / fetch-att / "(" fetch-att *(SP fetch-att) ")"`. LENIENT: the list may be empty. -/
def fetchItems [Quirks] : G MacroOrNames :=
  choice [is b!"ALL" (.macro_ .all), is b!"FAST" (.macro_ .fast), is b!"FULL" (.macro_ .full),
    (fun x => .names [x]) <$> fetchAtt,
    .names <$> parens (sepBy0 sp fetchAtt)]

/-! ### Commands -/

/-- `["UID" SP]`. -/
def uidPrefix : G Bool := optD false (is b!"UID " true)

/-- `append = "APPEND" SP mailbox [SP flag-list] [SP date-time] SP (literal / literal8)`. -/
def append [Quirks] : G CommandBody := do
  lit b!"APPEND "
  let m ← mailbox
  let fs ← optD [] (do sp; flagList)
  let d ← opt (do sp; dateTime)
  sp
  let msg ← choice [.literal <$> literal, .literal8 <$> literal8]
  return .append m fs d msg

/-- `select-params = SP "(" select-param *(SP select-param) ")"` (RFC 4466), `select-param = "CONDSTORE" / "QRESYNC" SP "(" uidvalidity SP
mod-sequence-value [SP known-uids] [SP seq-match-data] ")"`, `uidvalidity = nz-number`, `known-uids = sequence-set`,
`seq-match-data = "(" sequence-set SP sequence-set ")"` (RFC 7162). LENIENT: `*` in the sequence sets. -/
def selectParams [q : Quirks] : G (List SelectParameter) := onlyIf q.extCondstoreQresync do
  sp
  parens (sepBy1 sp (choice [is b!"CONDSTORE" .condStore, do
    lit b!"QRESYNC ("
    let u ← nzNumber
    sp
    let m ← modSequenceValue
    let k ← opt (do sp; sequenceSet)
    let s ← opt (do
      lit b!" ("
      let a ← sequenceSet
      sp
      let b ← sequenceSet
      lit b!")"
      return (a, b))
    lit b!")"
    return .qresync u m k s]))

/-- `select = "SELECT" SP mailbox [select-params]`. -/
def select [Quirks] : G CommandBody := do
  lit b!"SELECT "
  let m ← mailbox
  let ps ← optD [] selectParams
  return .select m ps

/-- `examine = "EXAMINE" SP mailbox [select-params]`. -/
def examine [Quirks] : G CommandBody := do
  lit b!"EXAMINE "
  let m ← mailbox
  let ps ← optD [] selectParams
  return .examine m ps

/-- `list = "LIST" SP mailbox SP list-mailbox`. -/
def list [Quirks] : G CommandBody := do
  lit b!"LIST "
  let r ← mailbox
  sp
  let w ← listMailbox
  return .list r w

/-- `lsub = "LSUB" SP mailbox SP list-mailbox`. -/
def lsub [Quirks] : G CommandBody := do
  lit b!"LSUB "
  let r ← mailbox
  sp
  let w ← listMailbox
  return .lsub r w

/-- `rename = "RENAME" SP mailbox SP mailbox`. -/
def rename [Quirks] : G CommandBody := do
  lit b!"RENAME "
  let a ← mailbox
  sp
  let b ← mailbox
  return .rename a b

/-- `status = "STATUS" SP mailbox SP "(" status-att *(SP status-att) ")"`. LENIENT: the list may be empty. -/
def status [Quirks] : G CommandBody := do
  lit b!"STATUS "
  let m ← mailbox
  sp
  let l ← parens (sepBy0 sp statusAtt)
  return .status m l

/-- `enable = "ENABLE" 1*(SP capability)` (RFC 5161). -/
def enable [Quirks] : G CommandBody := .enable <$> do lit b!"ENABLE"; plus (do sp; named Spec.enableNames .other)

/-- `setquota = "SETQUOTA" SP quota-root-name SP setquota-list`, `setquota-list = "(" [setquota-resource *(SP setquota-resource)] ")"`,
`setquota-resource = resource-name SP resource-limit` (RFC 9208). -/
def setquota [Quirks] : G CommandBody := do
  lit b!"SETQUOTA "
  let r ← astring
  sp
  let qs ← parens (sepBy0 sp (do let n ← named Spec.resourceNames .other; sp; let l ← number64; return ⟨n, l⟩))
  return .setQuota r qs

/-- `value = nstring / literal8` (RFC 5464). -/
def imapValue [Quirks] : G NString8 := choice [.nstring <$> nstring, .literal8 <$> literal8]

/-- `setmetadata = "SETMETADATA" SP mailbox SP entry-values`, `entry-values = "(" entry-value *(SP entry-value) ")"`,
`entry-value = entry SP value`, `entry = astring` (RFC 5464). LENIENT: the entry is any string. -/
def setmetadata [Quirks] : G CommandBody := do
  lit b!"SETMETADATA "
  let m ← mailbox
  sp
  let es ← parens (sepBy1 sp (do let e ← astring; sp; let v ← imapValue; return ⟨e, v⟩))
  return .setMetadata m es

/-- `getmetadata-options = "(" getmetadata-option *(SP getmetadata-option) ")"`, where the options are
`"MAXSIZE" SP number / "DEPTH" SP ("0" / "1" / "infinity")` (RFC 5464). -/
def getmetadataOptions : G (List GetMetadataOption) := parens (sepBy1 sp (choice [
  .maxSize <$> do lit b!"MAXSIZE "; number,
  do lit b!"DEPTH "; choice [is b!"0" .depthNull, is b!"1" .depthOne, is b!"infinity" .depthInfinity]]))

/-- `getmetadata = "GETMETADATA" [SP getmetadata-options] SP mailbox SP entries`, `entries = entry / "(" entry *(SP entry) ")"`
(RFC 5464). -/
def getmetadata [Quirks] : G CommandBody := do
  lit b!"GETMETADATA"
  let os ← optD [] (do sp; getmetadataOptions)
  sp
  let m ← mailbox
  sp
  let es ← choice [(fun e => [e]) <$> astring, parens (sepBy1 sp astring)]
  return .getMetadata os m es

/-- `id_params_list = "(" [string SP nstring *(SP string SP nstring)] ")" / nil` (RFC 2971). LENIENT: with the quirk `trailing_space_id` a
space may precede the closing parenthesis. -/
def idParams [q : Quirks] : G (Option IdParams) :=
  choice [some <$> do
      lit b!"("
      let l ← sepBy0 sp (do let k ← string; sp; let v ← nstring; return (k, v))
      if q.trailingSpaceId then optD () sp else pure ()
      lit b!")"
      return l,
    is b!"NIL" none]

/-- `login = "LOGIN" SP userid SP password`, `userid = astring`, `password = astring`. -/
def login [Quirks] : G CommandBody := do
  lit b!"LOGIN "
  let u ← astring
  sp
  let p ← astring
  return .login u p

/-- `authenticate = "AUTHENTICATE" SP auth-type [SP (base64 / "=")]` (RFC 4959); what follows is not part of the command. -/
def authenticate : G CommandBody := do
  lit b!"AUTHENTICATE "
  let m ← authType
  let d ← opt (do sp; choice [base64, is b!"=" []])
  return .authenticate m d

/-- `copy = "COPY" SP sequence-set SP mailbox`, also after `"UID" SP`. -/
def copy [Quirks] : G CommandBody := do
  let u ← uidPrefix
  lit b!"COPY "
  let s ← sequenceSet
  sp
  let m ← mailbox
  return .copy s m u

/-- `move = "MOVE" SP sequence-set SP mailbox` (RFC 6851), also after `"UID" SP`. -/
def move [Quirks] : G CommandBody := do
  let u ← uidPrefix
  lit b!"MOVE "
  let s ← sequenceSet
  sp
  let m ← mailbox
  return .move s m u

/-- `fetch = "FETCH" SP sequence-set SP ("ALL" / ...) [fetch-modifiers]`, also after `"UID" SP`;
`fetch-modifiers = SP "(" fetch-modifier *(SP fetch-modifier) ")"` (RFC 4466),
`fetch-modifier = "CHANGEDSINCE" SP mod-sequence-value / "VANISHED"` (RFC 7162). LENIENT: VANISHED also without UID. -/
def fetch [q : Quirks] : G CommandBody := do
  let u ← uidPrefix
  lit b!"FETCH "
  let s ← sequenceSet
  sp
  let i ← fetchItems
  let ms ← optD [] (onlyIf q.extCondstoreQresync do
    sp
    parens (sepBy1 sp (choice [.changedSince <$> do lit b!"CHANGEDSINCE "; modSequenceValue, is b!"VANISHED" .vanished])))
  return .fetch s i u ms

/-- `store = "STORE" SP sequence-set [store-modifiers] SP store-att-flags`, also after `"UID" SP`;
`store-modifiers = SP "(" store-modifier *(SP store-modifier) ")"` (RFC 4466),
`store-modifier = "UNCHANGEDSINCE" SP mod-sequence-valzer` (RFC 7162),
`store-att-flags = (["+" / "-"] "FLAGS" [".SILENT"]) SP (flag-list / (flag *(SP flag)))`. -/
def store [q : Quirks] : G CommandBody := do
  let u ← uidPrefix
  lit b!"STORE "
  let s ← sequenceSet
  let ms ← optD [] (onlyIf q.extCondstoreQresync do sp; parens (sepBy1 sp (do lit b!"UNCHANGEDSINCE "; modSequenceValzer)))
  sp
  let k ← optD StoreType.replace (choice [is b!"+" .add, is b!"-" .remove])
  lit b!"FLAGS"
  let r ← optD StoreResponse.answer (is b!".SILENT" .silent)
  sp
  let fs ← choice [flagList, sepBy1 sp flag]
  return .store s k r fs u ms

/-- `search = "SEARCH" [SP "CHARSET" SP charset] 1*(SP search-key)`, also after `"UID" SP`. STRICT: RFC 3501 has `astring` for the charset. -/
def search [Quirks] : G CommandBody := do
  let u ← uidPrefix
  lit b!"SEARCH"
  let c ← opt (do lit b!" CHARSET "; charset)
  sp
  let l ← searchKeys
  return .search c l u

/-- `sort = ["UID" SP] "SORT" SP sort-criteria SP search-criteria`, `sort-criteria = "(" sort-criterion *(SP sort-criterion) ")"`,
`sort-criterion = ["REVERSE" SP] sort-key`, `sort-key = "ARRIVAL" / "CC" / "DATE" / "FROM" / "SIZE" / "SUBJECT" / "TO"`,
`search-criteria = charset 1*(SP search-key)` (RFC 5256); `sort-key =/ "DISPLAYFROM" / "DISPLAYTO"` (RFC 5957). -/
def sort [Quirks] : G CommandBody := do
  let u ← uidPrefix
  lit b!"SORT "
  let s ← parens (sepBy1 sp (do
    let r ← optD false (is b!"REVERSE " true)
    let k ← choice [is b!"ARRIVAL" .arrival, is b!"CC" .cc, is b!"DATE" .date, is b!"FROM" .from_, is b!"SIZE" .size,
      is b!"SUBJECT" .subject, is b!"TO" .to, is b!"DISPLAYFROM" .displayFrom, is b!"DISPLAYTO" .displayTo]
    return ⟨r, k⟩))
  sp
  let c ← charset
  sp
  let l ← searchKeys
  return .sort s c l u

/-- `thread = ["UID" SP] "THREAD" SP thread-alg SP search-criteria`, `thread-alg = "ORDEREDSUBJECT" / "REFERENCES" / atom` (RFC 5256). -/
def thread [Quirks] : G CommandBody := do
  let u ← uidPrefix
  lit b!"THREAD "
  let a ← named Spec.threadNames .other
  sp
  let c ← charset
  sp
  let l ← searchKeys
  return .thread a c l u

/-- The bodies of commands. -/
def commandBody [q : Quirks] : G CommandBody := choice [
  -- command-any = "CAPABILITY" / "LOGOUT" / "NOOP" / id
  is b!"CAPABILITY" .capability,
  is b!"LOGOUT" .logout,
  is b!"NOOP" .noop,
  onlyIf q.extId (.id <$> do lit b!"ID "; idParams),
  -- command-auth = append / create / delete / examine / list / lsub / rename / select / status / subscribe / unsubscribe / ...
  append,
  .create <$> do lit b!"CREATE "; mailbox,
  .delete <$> do lit b!"DELETE "; mailbox,
  examine,
  list,
  lsub,
  rename,
  select,
  status,
  .subscribe <$> do lit b!"SUBSCRIBE "; mailbox,
  .unsubscribe <$> do lit b!"UNSUBSCRIBE "; mailbox,
  -- RFC 2177, RFC 5161, RFC 4978, RFC 9208, RFC 5464, RFC 2342
  is b!"IDLE" .idle,
  enable,
  is b!"COMPRESS DEFLATE" .compress,
  .getQuota <$> do lit b!"GETQUOTA "; astring,
  .getQuotaRoot <$> do lit b!"GETQUOTAROOT "; mailbox,
  setquota,
  onlyIf q.extMetadata setmetadata,
  onlyIf q.extMetadata getmetadata,
  onlyIf q.extNamespace (is b!"NAMESPACE" .namespace_),
  -- command-nonauth = login / authenticate / "STARTTLS"
  login,
  authenticate,
  onlyIf q.starttls (is b!"STARTTLS" .startTls),
  -- command-select = "CHECK" / "CLOSE" / "EXPUNGE" / copy / fetch / store / uid / search
  is b!"CHECK" .check,
  is b!"CLOSE" .close,
  is b!"EXPUNGE" .expunge,
  copy,
  fetch,
  store,
  search,
  -- RFC 4315, RFC 5256, RFC 3691, RFC 6851
  .expungeUid <$> do lit b!"UID EXPUNGE "; sequenceSet,
  sort,
  thread,
  is b!"UNSELECT" .unselect,
  move]

/-- `command = tag SP (command-any / command-auth / command-nonauth / command-select) CRLF`. -/
def command [Quirks] : G Command := do
  let t ← tag
  sp
  let b ← commandBody
  crlf
  return ⟨t, b⟩

/-- The answer of a client to a continuation request during AUTHENTICATE: `base64 CRLF`, or `"*" CRLF` to cancel. -/
def authenticateData [Quirks] : G AuthenticateData :=
  choice [.continue_ <$> do { let d ← base64; crlf; return d }, do let a ← is b!"*" AuthenticateData.cancel; crlf; return a]

/-- `"DONE" CRLF` (RFC 2177). -/
def idleDone [Quirks] : G Unit := do
  lit b!"DONE"
  crlf

end Imap.Grammar
