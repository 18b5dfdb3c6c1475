import Verif.TimedNom
/-
The parsers of the model with a counter, for property C65: the parsers for commands. Each definition is the one of the same name in Verif/Core.lean, Verif/Parts.lean, Verif/FetchName.lean,
Verif/Search.lean and Verif/Command.lean, with the combinators of
Verif/TimedNom.lean. Verif/TimedErase.lean proves that they give the same results.
-/
namespace Imap.Timed

/-- `number` (imap-codec/src/core.rs:38-47). -/
def number : T Nat := mapRes (takeWhile1 isDigit) fun ds => if decVal ds < 4294967296 then some (decVal ds) else none

/-- `number64` (imap-codec/src/core.rs:49-63). -/
def number64 : T Nat :=
  mapRes (takeWhile1 isDigit) fun ds => if decVal ds < 18446744073709551616 then some (decVal ds) else none

/-- `nz_number` (imap-codec/src/core.rs:65-70). -/
def nzNumber : T Nat := mapRes number fun n => if n = 0 then none else some n

/-- `quoted` (imap-codec/src/core.rs:86-109). -/
def quoted : T Bytes := do
  dquote
  let s ← escaped isAnyTextCharExceptQuotedSpecials
  dquote
  return unescapeQuoted s

/-- `quoted_utf8` (imap-codec/src/extensions/utf8.rs:26-54). -/
def quotedUtf8 : T Bytes := do
  dquote
  let s ← mapRes (escaped fun b => !isQuotedSpecials b) fun s => if isUtf8 s then some s else none
  dquote
  return unescapeQuoted s

/-- `quoted_char` (imap-codec/src/core.rs:111-132). -/
def quotedChar : T UInt8 :=
  alt [satisfy isAnyTextCharExceptQuotedSpecials, do tag b!"\\"; satisfy isQuotedSpecials]

/-- The literal prefix, common to `literal` and `literal8` (imap-codec/src/core.rs:155-167). -/
def literalHdr [q : Quirks] (start : Bytes) : T (Nat × Mode) := do
  tag start
  let n ← number
  let plus ← opt (char 43)
  tag b!"}"
  crlf
  return (n, if plus.isSome then .nonSync else .sync)

/-- `literal` (imap-codec/src/core.rs:138-196). -/
def literal [q : Quirks] : T Literal := do
  let (n, m) ← literalHdr b!"{"
  let d ← literalData n m
  if d.all isChar8 then return ⟨d, m⟩ else failWith .literalContainsNull

/-- `literal8` (imap-codec/src/extensions/binary.rs:25-70). -/
def literal8 [q : Quirks] : T Literal8 := do
  let (n, m) ← literalHdr b!"~{"
  let d ← literalData n m
  return ⟨d, m⟩

/-- `string` (imap-codec/src/core.rs:74-82). -/
def string [q : Quirks] : T IString :=
  alt [.quoted <$> quoted, gate Quirks.extUtf8 (.quotedUtf8 <$> quotedUtf8), .literal <$> literal]

/-- `astring` (imap-codec/src/core.rs:200-215). -/
def astring [q : Quirks] : T AString := alt [.atom <$> takeWhile1 isAStringChar, .string <$> string]

/-- `atom` (imap-codec/src/core.rs:217-232). -/
def atom : T Bytes := takeWhile1 isAtomChar

/-- `nil` (imap-codec/src/core.rs:244-248). -/
def nil : T Unit := tagNC b!"NIL"

/-- `nstring` (imap-codec/src/core.rs:236-242). -/
def nstring [q : Quirks] : T NString := alt [some <$> string, value none nil]

/-- `text` (imap-codec/src/core.rs:252-260). -/
def text : T Bytes := takeWhile1 isTextChar

/-- `base64` (imap-codec/src/core.rs:264-274). -/
def base64 : T Bytes :=
  mapRes (recognize (do
    let _ ← takeWhile isBase64Char
    opt (alt [tag b!"==", tag b!"="]))) b64Decode

/-- `charset` (imap-codec/src/core.rs:285-290). -/
def charset : T Charset := alt [.atom <$> atom, .quoted <$> quoted]

/-- `tag_imap` (imap-codec/src/core.rs:294-302). -/
def tagImap : T Bytes := takeWhile1 isTagChar

/-- `seq_number` (imap-codec/src/sequence.rs:79-84). -/
def seqNumber : T SeqOrUid := alt [.value <$> nzNumber, value .asterisk (tag b!"*")]

/-- `seq_range` (imap-codec/src/sequence.rs:58-64). -/
def seqRange : T (SeqOrUid × SeqOrUid) := do
  let a ← seqNumber
  tag b!":"
  let b ← seqNumber
  return (a, b)

/-- `sequence_set` (imap-codec/src/sequence.rs:34-47). -/
def sequenceSet : T SequenceSet :=
  sepList1 (tag b!",") (alt [(fun r => .range r.1 r.2) <$> seqRange, .single <$> seqNumber])

/-- `mailbox` (imap-codec/src/mailbox.rs:62-64). -/
def mailbox [q : Quirks] : T Mailbox := Mailbox.ofAString <$> astring

/-- `list_mailbox` (imap-codec/src/mailbox.rs:37-51). -/
def listMailbox [q : Quirks] : T ListMailbox := alt [.token <$> takeWhile1 isListChar, .string <$> string]

/-- `flag` (imap-codec/src/flag.rs:25-30). -/
def flag : T Flag := alt [Flag.system <$> (do char 92; atom), .keyword <$> atom]

/-- `flag_list` (imap-codec/src/flag.rs:54-56). -/
def flagList : T (List Flag) := do
  tag b!"("
  let l ← sepList0 sp flag
  tag b!")"
  return l

/-- `flag_fetch` (imap-codec/src/flag.rs:59-67). The flag is parsed first in any case. -/
def flagFetch : T FlagFetch := ⟨fun i =>
  match (recognize (do char 92; atom)).run i with
  | (.ok r p, n) =>
    if eqIC p b!"\\recent" then (.ok r .recent, n)
    else (let w := (FlagFetch.flag <$> flag : T FlagFetch).run i; (w.1, n + w.2))
  | (_, n) => (let w := (FlagFetch.flag <$> flag : T FlagFetch).run i; (w.1, n + w.2))⟩

/-- `flag_perm` (imap-codec/src/flag.rs:70-75). -/
def flagPerm : T FlagPerm := alt [value .asterisk (tag b!"\\*"), .flag <$> flag]

/-- `mbx_list_flags` (imap-codec/src/flag.rs:84-102). -/
def mbxListFlags : T (List FlagNameAttribute) :=
  sepList1 sp (FlagNameAttribute.ofAtom <$> (do char 92; atom))

/-- `digit_1_2` (imap-codec/src/datetime.rs:182-192); two digits always fit in a `u8`. -/
def digit12 : T Nat := decVal <$> take1or2 isDigit

/-- `digit_2` (imap-codec/src/datetime.rs:194-204); two digits always fit in a `u8`. -/
def digit2 : T Nat := decVal <$> takeExactly isDigit 2

/-- `digit_4` (imap-codec/src/datetime.rs:206-216); four digits always fit in a `u16`. -/
def digit4 : T Nat := decVal <$> takeExactly isDigit 4

/-- `date_month` (imap-codec/src/datetime.rs:54-69). -/
def dateMonth : T Nat :=
  alt [value 1 (tagNC b!"Jan"), value 2 (tagNC b!"Feb"), value 3 (tagNC b!"Mar"), value 4 (tagNC b!"Apr"),
    value 5 (tagNC b!"May"), value 6 (tagNC b!"Jun"), value 7 (tagNC b!"Jul"), value 8 (tagNC b!"Aug"),
    value 9 (tagNC b!"Sep"), value 10 (tagNC b!"Oct"), value 11 (tagNC b!"Nov"), value 12 (tagNC b!"Dec")]

/-- `date_text` (imap-codec/src/datetime.rs:29-38). -/
def dateText : T (Option NaiveDate) := do
  let d ← digit12
  tag b!"-"
  let m ← dateMonth
  tag b!"-"
  let y ← digit4
  return fromYmdOpt y m d

/-- `date` (imap-codec/src/datetime.rs:22-24). -/
def date : T (Option NaiveDate) := alt [dateText, do dquote; let d ← dateText; dquote; return d]

/-- `time` (imap-codec/src/datetime.rs:83-92) with `chrono::NaiveTime::from_hms_opt`. -/
def time : T (Option (Nat × Nat × Nat)) := do
  let h ← digit2
  tag b!":"
  let m ← digit2
  tag b!":"
  let s ← digit2
  return if h < 24 ∧ m < 60 ∧ s < 60 then some (h, m, s) else none

/-- `date_day_fixed` (imap-codec/src/datetime.rs:147-155). -/
def dateDayFixed : T Nat := alt [digitVal <$> (do sp; satisfy isDigit), digit2]

/-- `zone` (imap-codec/src/datetime.rs:166-180), with `chrono::FixedOffset::{east_opt, west_opt}`. -/
def zone : T (Option Int) := do
  let east ← alt [value true (char 43), value false (char 45)]
  let hh ← digit2
  let mm ← digit2
  let o := 3600 * hh + 60 * mm
  return if o < 86400 then some (if east then (o : Int) else -(o : Int)) else none

/-- The end of `date_time` (imap-codec/src/datetime.rs:114-139). -/
def mkDateTime (d : Option NaiveDate) (t : Option (Nat × Nat × Nat)) (z : Option Int) : T DateTime :=
  match d, t, z with
  | some d, some t, some z => return ⟨d, t.1, t.2.1, t.2.2, z⟩
  | _, _, _ => failWith .badDateTime

/-- `date_time` (imap-codec/src/datetime.rs:101-140). `FixedOffset::from_local_datetime` always gives a single result
for years in 0..=9999. -/
def dateTime : T DateTime := do
  dquote
  let d ← dateDayFixed
  tag b!"-"
  let m ← dateMonth
  tag b!"-"
  let y ← digit4
  sp
  let t ← time
  sp
  let z ← zone
  dquote
  mkDateTime (fromYmdOpt y m d) t z

/-- `auth_type` (imap-codec/src/auth.rs:23-27). -/
def authType : T AuthMechanism := AuthMechanism.ofAtom <$> atom

/-- `authenticate_data` (imap-codec/src/auth.rs:39-44). -/
def authenticateData [q : Quirks] : T AuthenticateData :=
  alt [.continue_ <$> (do let d ← base64; crlf; return d), value .cancel (do tag b!"*"; crlf)]

/-- `idle_done` (imap-codec/src/extensions/idle.rs:53-55). -/
def idleDone [q : Quirks] : T Unit := value () (do tagNC b!"DONE"; crlf)

/-- `status_att` (imap-codec/src/status.rs:23-41). -/
def statusAtt [q : Quirks] : T StatusDataItemName :=
  alt [value .messages (tagNC b!"MESSAGES"), value .recent (tagNC b!"RECENT"), value .uidNext (tagNC b!"UIDNEXT"),
    value .uidValidity (tagNC b!"UIDVALIDITY"), value .unseen (tagNC b!"UNSEEN"),
    value .deletedStorage (tagNC b!"DELETED-STORAGE"), value .deleted (tagNC b!"DELETED"),
    gate Quirks.extCondstoreQresync (value .highestModSeq (tagNC b!"HIGHESTMODSEQ"))]

/-- `header_list` (imap-codec/src/fetch.rs:339-344). -/
def headerList [q : Quirks] : T (List AString) := do
  tag b!"("
  let l ← sepList1 sp astring
  tag b!")"
  return l

/-- `section_msgtext` (imap-codec/src/fetch.rs:305-318). -/
def sectionMsgtext [q : Quirks] : T PartSpecifier :=
  alt [.headerFieldsNot <$> (do tagNC b!"HEADER.FIELDS.NOT"; sp; headerList),
    .headerFields <$> (do tagNC b!"HEADER.FIELDS"; sp; headerList),
    value .header (tagNC b!"HEADER"),
    value .text (tagNC b!"TEXT")]

/-- `section_part` (imap-codec/src/fetch.rs:324-326). -/
def sectionPart : T (List NzU32) := sepList1 (tag b!".") nzNumber

/-- `section_text` (imap-codec/src/fetch.rs:331-336). -/
def sectionText [q : Quirks] : T PartSpecifier := alt [sectionMsgtext, value .mime (tagNC b!"MIME")]

/-- `section_spec` (imap-codec/src/fetch.rs:268-300). The panic `unreachable!()` is modelled as an error of `mapRes`, and is never
reached (theorem `sectionMsgtext_ofMsgtext`). -/
def sectionSpec [q : Quirks] : T Section :=
  alt [mapRes sectionMsgtext Section.ofMsgtext, do
    let p ← sectionPart
    let t ← opt (do tag b!"."; sectionText)
    return Section.ofPart p t]

/-- `section` (imap-codec/src/fetch.rs:263-265). -/
def «section» [q : Quirks] : T (Option Section) := do
  tag b!"["
  let s ← opt sectionSpec
  tag b!"]"
  return s

/-- `section_binary` (imap-codec/src/extensions/binary.rs:97-107). -/
def sectionBinary : T (List NzU32) := do
  tag b!"["
  let p ← opt sectionPart
  tag b!"]"
  return p.getD []

/-- `partial` (imap-codec/src/extensions/binary.rs:112-118), also inlined in `fetch_att`. -/
def partial_ : T (Nat × NzU32) := do
  tag b!"<"
  let a ← number
  tag b!"."
  let b ← nzNumber
  tag b!">"
  return (a, b)

/-- `fetch_att` (imap-codec/src/fetch.rs:43-119). -/
def fetchAtt [q : Quirks] : T MessageDataItemName :=
  alt [value .envelope (tagNC b!"ENVELOPE"),
    value .flags (tagNC b!"FLAGS"),
    value .internalDate (tagNC b!"INTERNALDATE"),
    value .bodyStructure (tagNC b!"BODYSTRUCTURE"),
    do tagNC b!"BODY.PEEK"; let s ← «section»; let p ← opt partial_; return .bodyExt s p true,
    do tagNC b!"BODY"; let s ← «section»; let p ← opt partial_; return .bodyExt s p false,
    do tagNC b!"BINARY.PEEK"; let s ← sectionBinary; let p ← opt partial_; return .binary s p true,
    do tagNC b!"BINARY"; let s ← sectionBinary; let p ← opt partial_; return .binary s p false,
    do tagNC b!"BINARY.SIZE"; let s ← sectionBinary; return .binarySize s,
    value .body (tagNC b!"BODY"),
    value .uid (tagNC b!"UID"),
    value .rfc822Header (tagNC b!"RFC822.HEADER"),
    value .rfc822Size (tagNC b!"RFC822.SIZE"),
    value .rfc822Text (tagNC b!"RFC822.TEXT"),
    value .rfc822 (tagNC b!"RFC822"),
    gate Quirks.extCondstoreQresync (value .modSeq (tagNC b!"MODSEQ"))]

/-- The argument of FETCH (imap-codec/src/command.rs:591-611). -/
def macroOrNames [q : Quirks] : T MacroOrNames :=
  alt [value (.macro_ .all) (tagNC b!"ALL"), value (.macro_ .fast) (tagNC b!"FAST"), value (.macro_ .full) (tagNC b!"FULL"),
    (fun x => .names [x]) <$> fetchAtt,
    .names <$> (do tag b!"("; let l ← sepList0 sp fetchAtt; tag b!")"; return l)]

/-- `attr_flag` (imap-codec/src/extensions/condstore_qresync.rs:98-103). -/
def attrFlag : T AttributeFlag :=
  alt [AttributeFlag.system <$> (do tag b!"\\\\"; atom), .keyword <$> atom]

/-- `entry_type_req` (imap-codec/src/extensions/condstore_qresync.rs:133-139). -/
def entryTypeReq : T EntryTypeReq :=
  alt [value .private_ (tagNC b!"priv"), value .shared (tagNC b!"shared"), value .all (tagNC b!"all")]

/-- `entry_name`, `entry_flag_name` (imap-codec/src/extensions/condstore_qresync.rs:67-86). -/
def entryName : T AttributeFlag := do
  tagNC b!"\"/flags/"
  let f ← attrFlag
  char 34
  return f

/-- `search_modseq_ext` (imap-codec/src/extensions/condstore_qresync.rs:62-64). -/
def searchModseqExt : T (AttributeFlag × EntryTypeReq) := do
  sp
  let f ← entryName
  sp
  let t ← entryTypeReq
  return (f, t)

/-- `mod_sequence_value` (imap-codec/src/extensions/condstore_qresync.rs:31-33). -/
def modSequenceValue : T Nat := mapRes number64 fun n => if n = 0 then none else some n

/-- `mod_sequence_valzer` (imap-codec/src/extensions/condstore_qresync.rs:22-24). -/
def modSequenceValzer : T Nat := number64

/-- `search_modsequence` (imap-codec/src/extensions/condstore_qresync.rs:50-57). -/
def searchModsequence : T (Option (AttributeFlag × EntryTypeReq) × Nat) := do
  tagNC b!"MODSEQ"
  let e ← opt searchModseqExt
  sp
  let n ← modSequenceValzer
  return (e, n)

/-- `map_opt(date, |date| date)`. -/
def dateSome : T NaiveDate := mapRes date id

/-- `search_key_limited` (imap-codec/src/search.rs:103-224). The argument is `remaining_recursion`. The code nests two `alt`s,
which is the same as one. -/
def searchKey [q : Quirks] : Nat → T SearchKey
  | 0 => failWith .recursionLimit
  | n + 1 =>
    alt [value .all (tagNC b!"ALL"),
      value .answered (tagNC b!"ANSWERED"),
      .bcc <$> (do tagNC b!"BCC"; sp; astring),
      .before <$> (do tagNC b!"BEFORE"; sp; dateSome),
      .body <$> (do tagNC b!"BODY"; sp; astring),
      .cc <$> (do tagNC b!"CC"; sp; astring),
      value .deleted (tagNC b!"DELETED"),
      value .flagged (tagNC b!"FLAGGED"),
      .from_ <$> (do tagNC b!"FROM"; sp; astring),
      .keyword <$> (do tagNC b!"KEYWORD"; sp; atom),
      value .new (tagNC b!"NEW"),
      value .old (tagNC b!"OLD"),
      .on <$> (do tagNC b!"ON"; sp; dateSome),
      value .recent (tagNC b!"RECENT"),
      value .seen (tagNC b!"SEEN"),
      .since <$> (do tagNC b!"SINCE"; sp; dateSome),
      .subject <$> (do tagNC b!"SUBJECT"; sp; astring),
      .text <$> (do tagNC b!"TEXT"; sp; astring),
      .to <$> (do tagNC b!"TO"; sp; astring),
      value .unanswered (tagNC b!"UNANSWERED"),
      value .undeleted (tagNC b!"UNDELETED"),
      value .unflagged (tagNC b!"UNFLAGGED"),
      .unkeyword <$> (do tagNC b!"UNKEYWORD"; sp; atom),
      value .unseen (tagNC b!"UNSEEN"),
      value .draft (tagNC b!"DRAFT"),
      do tagNC b!"HEADER"; sp; let k ← astring; sp; let v ← astring; return .header k v,
      .larger <$> (do tagNC b!"LARGER"; sp; number),
      .not <$> (do tagNC b!"NOT"; sp; searchKey n),
      do tagNC b!"OR"; sp; let a ← searchKey n; sp; let b ← searchKey n; return .or a b,
      .sentBefore <$> (do tagNC b!"SENTBEFORE"; sp; dateSome),
      .sentOn <$> (do tagNC b!"SENTON"; sp; dateSome),
      .sentSince <$> (do tagNC b!"SENTSINCE"; sp; dateSome),
      .smaller <$> (do tagNC b!"SMALLER"; sp; number),
      .uid <$> (do tagNC b!"UID"; sp; sequenceSet),
      value .undraft (tagNC b!"UNDRAFT"),
      gate Quirks.extCondstoreQresync ((fun x => .modSequence x.1 x.2) <$> searchModsequence),
      .sequenceSet <$> sequenceSet,
      .and <$> (do tag b!"("; let ks ← sepList1 sp (searchKey n); tag b!")"; return ks)]

/-- `search_criteria` (imap-codec/src/search.rs:231-241). -/
def searchCriteria [q : Quirks] : T (Charset × List SearchKey) := do
  let c ← charset
  sp
  let ks ← sepList1 sp (searchKey 9)
  return (c, ks)

/-- The second half of `select_param` (imap-codec/src/command.rs:382-408). -/
def qresync [q : Quirks] : T SelectParameter := do
  tagNC b!"QRESYNC ("
  let u ← nzNumber
  sp
  let m ← modSequenceValue
  let k ← opt (do sp; sequenceSet)
  let s ← opt (do
    sp
    char 40
    let a ← sequenceSet
    sp
    let b ← sequenceSet
    char 41
    return (a, b))
  char 41
  return .qresync u m k s

/-- `select_param` (imap-codec/src/command.rs:378-410). -/
def selectParam [q : Quirks] : T SelectParameter :=
  gate Quirks.extCondstoreQresync (alt [value .condStore (tagNC b!"CONDSTORE"), qresync])

/-- `select_params` (imap-codec/src/command.rs:329-332). -/
def selectParams [q : Quirks] : T (List SelectParameter) := gate Quirks.extCondstoreQresync do
  tag b!" ("
  let l ← sepList1 sp selectParam
  tag b!")"
  return l

/-- `fetch_modifier` (imap-codec/src/command.rs:673-681). -/
def fetchModifier [q : Quirks] : T FetchModifier :=
  gate Quirks.extCondstoreQresync
    (alt [.changedSince <$> (do tagNC b!"CHANGEDSINCE "; modSequenceValue), value .vanished (tagNC b!"VANISHED")])

/-- `fetch_modifiers` (imap-codec/src/command.rs:643-645). -/
def fetchModifiers [q : Quirks] : T (List FetchModifier) := gate Quirks.extCondstoreQresync do
  tag b!" ("
  let l ← sepList1 sp fetchModifier
  char 41
  return l

/-- `store_modifier` (imap-codec/src/command.rs:745-750). -/
def storeModifier [q : Quirks] : T StoreModifier := gate Quirks.extCondstoreQresync do
  tagNC b!"UNCHANGEDSINCE "
  modSequenceValzer

/-- `store_modifiers` (imap-codec/src/command.rs:724-726). -/
def storeModifiers [q : Quirks] : T (List StoreModifier) := gate Quirks.extCondstoreQresync do
  tag b!" ("
  let l ← sepList1 sp storeModifier
  char 41
  return l

/-- `store_att_flags` (imap-codec/src/command.rs:753-783). -/
def storeAttFlags : T (StoreType × StoreResponse × List Flag) := do
  let t ← opt (alt [value StoreType.add (tag b!"+"), value StoreType.remove (tag b!"-")])
  tagNC b!"FLAGS"
  let s ← opt (tagNC b!".SILENT")
  sp
  let l ← alt [flagList, sepList1 sp flag]
  return (t.getD .replace, if s.isSome then .silent else .answer, l)

/-- `capability_enable` (imap-codec/src/extensions/enable.rs:53-55). -/
def capabilityEnable [q : Quirks] : T CapabilityEnable := CapabilityEnable.ofAtom <$> atom

/-- `resource_name` (imap-codec/src/extensions/quota.rs:96-98). -/
def resourceName : T Resource := Resource.ofAtom <$> atom

/-- `setquota_resource` (imap-codec/src/extensions/quota.rs:159-165). -/
def setquotaResource : T QuotaSet := do
  let r ← resourceName
  sp
  let l ← number64
  return ⟨r, l⟩

/-- `sort_key` (imap-codec/src/extensions/sort.rs:76-88). -/
def sortKey : T SortKey :=
  alt [value .arrival (tagNC b!"ARRIVAL"), value .cc (tagNC b!"CC"), value .date (tagNC b!"DATE"), value .from_ (tagNC b!"FROM"),
    value .size (tagNC b!"SIZE"), value .subject (tagNC b!"SUBJECT"), value .to (tagNC b!"TO"),
    value .displayFrom (tagNC b!"DISPLAYFROM"), value .displayTo (tagNC b!"DISPLAYTO")]

/-- `sort_criterion` (imap-codec/src/extensions/sort.rs:62-71). -/
def sortCriterion : T SortCriterion := do
  let r ← opt (tagNC b!"REVERSE ")
  let k ← sortKey
  return ⟨r.isSome, k⟩

/-- `sort_criteria` (imap-codec/src/extensions/sort.rs:51-57). -/
def sortCriteria : T (List SortCriterion) := do
  tag b!"("
  let l ← sepList1 sp sortCriterion
  tag b!")"
  return l

/-- `thread_alg` (imap-codec/src/extensions/thread.rs:77-79). -/
def threadAlg : T ThreadingAlgorithm := ThreadingAlgorithm.ofAtom <$> atom

/-- The pairs of `id_params_list`. -/
def idParam [q : Quirks] : T (IString × NString) := do
  let k ← string
  sp
  let v ← nstring
  return (k, v)

/-- `id_params_list` (imap-codec/src/extensions/id.rs:52-74). -/
def idParamsList [q : Quirks] : T (Option IdParams) :=
  alt [some <$> (do
      tag b!"("
      let l ← sepList0 sp idParam
      if q.trailingSpaceId then (do let _ ← opt sp; tag b!")"; return l) else (do tag b!")"; return l)),
    value none nil]

/-- `id` (imap-codec/src/extensions/id.rs:31-33). -/
def idCommand [q : Quirks] : T (Option IdParams) := do
  tagNC b!"ID "
  idParamsList

/-- `entry` (imap-codec/src/extensions/metadata.rs:82-93). `Entry::try_from` never fails. -/
def entry [q : Quirks] : T Entry := astring

/-- `imap_value` (imap-codec/src/extensions/metadata.rs:99-104). -/
def imapValue [q : Quirks] : T NString8 := alt [.nstring <$> nstring, .literal8 <$> literal8]

/-- `entry_value` (imap-codec/src/extensions/metadata.rs:69-73). -/
def entryValue [q : Quirks] : T EntryValue := do
  let e ← entry
  sp
  let v ← imapValue
  return ⟨e, v⟩

/-- `entry_values` (imap-codec/src/extensions/metadata.rs:58-63). -/
def entryValues [q : Quirks] : T (List EntryValue) := do
  tag b!"("
  let l ← sepList1 sp entryValue
  tag b!")"
  return l

/-- `entries` (imap-codec/src/extensions/metadata.rs:175-183). -/
def entries [q : Quirks] : T (List Entry) :=
  alt [(fun e => [e]) <$> entry, do tag b!"("; let l ← sepList1 sp entry; tag b!")"; return l]

/-- `getmetadata_option` (imap-codec/src/extensions/metadata.rs:151-170). -/
def getmetadataOption : T GetMetadataOption :=
  alt [.maxSize <$> (do tagNC b!"MAXSIZE "; number),
    do
      tagNC b!"DEPTH "
      alt [value .depthNull (tag b!"0"), value .depthOne (tag b!"1"), value .depthInfinity (tagNC b!"infinity")]]

/-- `getmetadata_options` (imap-codec/src/extensions/metadata.rs:134-139). -/
def getmetadataOptions : T (List GetMetadataOption) := do
  tag b!"("
  let l ← sepList1 sp getmetadataOption
  tag b!")"
  return l

/-- `append` (imap-codec/src/command.rs:179-203). -/
def append [q : Quirks] : T CommandBody := do
  tagNC b!"APPEND "
  let m ← mailbox
  let fs ← opt (do sp; flagList)
  let d ← opt (do sp; dateTime)
  sp
  let msg ← alt [LiteralOrLiteral8.literal <$> literal, .literal8 <$> literal8]
  return .append m (fs.getD []) d msg

/-- `create` (imap-codec/src/command.rs:208-214). -/
def create [q : Quirks] : T CommandBody := .create <$> (do tagNC b!"CREATE "; mailbox)

/-- `delete` (imap-codec/src/command.rs:219-225). -/
def delete [q : Quirks] : T CommandBody := .delete <$> (do tagNC b!"DELETE "; mailbox)

/-- `examine` (imap-codec/src/command.rs:233-250). -/
def examine [q : Quirks] : T CommandBody := do
  tagNC b!"EXAMINE "
  let m ← mailbox
  let ps ← opt selectParams
  return .examine m (ps.getD [])

/-- `list` (imap-codec/src/command.rs:253-265). -/
def list [q : Quirks] : T CommandBody := do
  tagNC b!"LIST "
  let r ← mailbox
  sp
  let w ← listMailbox
  return .list r w

/-- `lsub` (imap-codec/src/command.rs:268-280). -/
def lsub [q : Quirks] : T CommandBody := do
  tagNC b!"LSUB "
  let r ← mailbox
  sp
  let w ← listMailbox
  return .lsub r w

/-- `rename` (imap-codec/src/command.rs:285-297). -/
def rename [q : Quirks] : T CommandBody := do
  tagNC b!"RENAME "
  let a ← mailbox
  sp
  let b ← mailbox
  return .rename a b

/-- `select` (imap-codec/src/command.rs:305-322). -/
def select [q : Quirks] : T CommandBody := do
  tagNC b!"SELECT "
  let m ← mailbox
  let ps ← opt selectParams
  return .select m (ps.getD [])

/-- `status` (imap-codec/src/command.rs:413-429). -/
def status [q : Quirks] : T CommandBody := do
  tagNC b!"STATUS "
  let m ← mailbox
  tag b!" ("
  let l ← sepList0 sp statusAtt
  tag b!")"
  return .status m l

/-- `subscribe` (imap-codec/src/command.rs:432-438). -/
def subscribe [q : Quirks] : T CommandBody := .subscribe <$> (do tagNC b!"SUBSCRIBE "; mailbox)

/-- `unsubscribe` (imap-codec/src/command.rs:441-447). -/
def unsubscribe [q : Quirks] : T CommandBody := .unsubscribe <$> (do tagNC b!"UNSUBSCRIBE "; mailbox)

/-- `enable` (imap-codec/src/extensions/enable.rs:37-51). -/
def enable [q : Quirks] : T CommandBody := do
  tagNC b!"ENABLE"
  let cs ← many1 (do sp; capabilityEnable)
  return .enable cs

/-- `compress` (imap-codec/src/extensions/compress.rs:24-33). -/
def compress : T CommandBody := do
  tagNC b!"COMPRESS "
  value .compress (tagNC b!"DEFLATE")

/-- `getquota` (imap-codec/src/extensions/quota.rs:40-46). -/
def getquota [q : Quirks] : T CommandBody := .getQuota <$> (do tagNC b!"GETQUOTA "; astring)

/-- `getquotaroot` (imap-codec/src/extensions/quota.rs:51-57). -/
def getquotaroot [q : Quirks] : T CommandBody := .getQuotaRoot <$> (do tagNC b!"GETQUOTAROOT "; mailbox)

/-- `setquota` (imap-codec/src/extensions/quota.rs:144-154). -/
def setquota [q : Quirks] : T CommandBody := do
  tagNC b!"SETQUOTA "
  let r ← astring
  tag b!" ("
  let qs ← sepList0 sp setquotaResource
  tag b!")"
  return .setQuota r qs

/-- `setmetadata` (imap-codec/src/extensions/metadata.rs:37-53). -/
def setmetadata [q : Quirks] : T CommandBody := do
  tagNC b!"SETMETADATA"
  sp
  let m ← mailbox
  sp
  let es ← entryValues
  return .setMetadata m es

/-- `getmetadata` (imap-codec/src/extensions/metadata.rs:111-129). -/
def getmetadata [q : Quirks] : T CommandBody := do
  tagNC b!"GETMETADATA"
  let os ← opt (do sp; getmetadataOptions)
  sp
  let m ← mailbox
  sp
  let es ← entries
  return .getMetadata (os.getD []) m es

/-- `command_any` (imap-codec/src/command.rs:114-123). -/
def commandAny [q : Quirks] : T CommandBody :=
  alt [value .capability (tagNC b!"CAPABILITY"), value .logout (tagNC b!"LOGOUT"), value .noop (tagNC b!"NOOP"),
    gate Quirks.extId (.id <$> idCommand)]

/-- `command_auth` (imap-codec/src/command.rs:150-176), with `idle` (imap-codec/src/extensions/idle.rs:35-37) and `namespace_command`
(imap-codec/src/extensions/namespace.rs:30-32). -/
def commandAuth [q : Quirks] : T CommandBody :=
  alt [append, create, delete, examine, list, lsub, rename, select, status, subscribe, unsubscribe,
    value .idle (tagNC b!"IDLE"), enable, compress, getquota, getquotaroot, setquota, gate Quirks.extMetadata setmetadata,
    gate Quirks.extMetadata getmetadata, gate Quirks.extNamespace (value .namespace_ (tagNC b!"NAMESPACE"))]

/-- `login` (imap-codec/src/command.rs:473-486). -/
def login [q : Quirks] : T CommandBody := do
  tagNC b!"LOGIN"
  sp
  let u ← astring
  sp
  let p ← astring
  return .login u p

/-- `authenticate` (imap-codec/src/command.rs:512-532). -/
def authenticate : T CommandBody := do
  tagNC b!"AUTHENTICATE "
  let m ← authType
  let d ← opt (do sp; alt [base64, value [] (tag b!"=")])
  return .authenticate m d

/-- `command_nonauth` (imap-codec/src/command.rs:454-470). -/
def commandNonauth [q : Quirks] : T CommandBody := alt [login, authenticate, gate Quirks.starttls (value .startTls (tagNC b!"STARTTLS"))]

/-- `uid_expunge` (imap-codec/src/extensions/uidplus.rs:28-33). -/
def uidExpunge : T CommandBody := .expungeUid <$> (do tagNC b!"UID EXPUNGE "; sequenceSet)

/-- `copy` (imap-codec/src/command.rs:565-578). -/
def copy [q : Quirks] : T CommandBody := do
  tagNC b!"COPY"
  sp
  let s ← sequenceSet
  sp
  let m ← mailbox
  return .copy s m false

/-- `move` (imap-codec/src/extensions/move.rs:12-25). -/
def move [q : Quirks] : T CommandBody := do
  tagNC b!"MOVE"
  sp
  let s ← sequenceSet
  sp
  let m ← mailbox
  return .move s m false

/-- `fetch` (imap-codec/src/command.rs:587-635). -/
def fetch [q : Quirks] : T CommandBody := do
  tagNC b!"FETCH"
  sp
  let s ← sequenceSet
  sp
  let i ← macroOrNames
  let ms ← opt fetchModifiers
  return .fetch s i false (ms.getD [])

/-- `store` (imap-codec/src/command.rs:689-716). -/
def store [q : Quirks] : T CommandBody := do
  tagNC b!"STORE"
  sp
  let s ← sequenceSet
  let ms ← opt storeModifiers
  sp
  let x ← storeAttFlags
  return .store s x.1 x.2.1 x.2.2 false (ms.getD [])

/-- `search` (imap-codec/src/search.rs:30-50). -/
def search [q : Quirks] : T CommandBody := do
  tagNC b!"SEARCH"
  let c ← opt (do sp; tagNC b!"CHARSET"; sp; charset)
  sp
  let l ← sepList1 sp (searchKey 9)
  return .search c l false

/-- `sort` (imap-codec/src/extensions/sort.rs:26-46). -/
def sort [q : Quirks] : T CommandBody := do
  let u ← opt (tagNC b!"UID ")
  tagNC b!"SORT "
  let s ← sortCriteria
  sp
  let x ← searchCriteria
  return .sort s x.1 x.2 u.isSome

/-- `thread` (imap-codec/src/extensions/thread.rs:50-70). -/
def thread [q : Quirks] : T CommandBody := do
  let u ← opt (tagNC b!"UID ")
  tagNC b!"THREAD "
  let a ← threadAlg
  sp
  let x ← searchCriteria
  return .thread a x.1 x.2 u.isSome

/-- `uid` (imap-codec/src/command.rs:786-805). The panic is modelled as an error of `mapRes` and is never reached (theorem
`uidBody_setUid`). -/
def uidBody [q : Quirks] : T CommandBody := alt [copy, fetch, search, store, move]

/-- `uid` (imap-codec/src/command.rs:786-805). -/
def uid [q : Quirks] : T CommandBody := do
  tagNC b!"UID"
  sp
  mapRes uidBody CommandBody.setUid

/-- `command_select` (imap-codec/src/command.rs:546-562). -/
def commandSelect [q : Quirks] : T CommandBody :=
  alt [value .check (tagNC b!"CHECK"), value .close (tagNC b!"CLOSE"), value .expunge (tagNC b!"EXPUNGE"), uidExpunge, copy, fetch, store,
    uid, search, sort, thread, value .unselect (tagNC b!"UNSELECT"), move]

/-- `parser_body` (imap-codec/src/command.rs:75-78). -/
def commandBody [q : Quirks] : T CommandBody := do
  let b ← alt [commandAny, commandAuth, commandNonauth, commandSelect]
  crlf
  return b

/-- `command` (imap-codec/src/command.rs:73-103). -/
def command [q : Quirks] : T Command := do
  let t ← tagImap
  sp
  ⟨fun i => let w := (do let b ← commandBody; return ⟨t, b⟩ : T Command).run i; (fillTag t w.1, w.2)⟩

end Imap.Timed
