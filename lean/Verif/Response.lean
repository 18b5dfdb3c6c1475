import Verif.Body
import Verif.Command

/-!
# Responses and greetings

The types of `imap-types/src/response.rs` and of the extensions it uses, their encoders (`imap-codec/src/codec/encode.rs`), and the
parsers of `imap-codec/src/response.rs`, `fetch.rs`, `mailbox.rs`, `status.rs` and `imap-codec/src/extensions/`.

As for commands, `X.valid` collects the invariants that the Rust type of `X` guarantees. Additional restrictions, which the round trip
needs although the type does not guarantee them, are marked EXCLUSION.
-/

namespace Imap

/-! ### Combinators used only by responses -/

/-- `str::split_once` with a string pattern, and the search of nom's `take_until`: split at the first occurrence of `pat`. -/
def splitOnce (pat : Bytes) : Bytes → Option (Bytes × Bytes)
  | [] => if pat = [] then some ([], []) else none
  | b :: s =>
    if pat.isPrefixOf (b :: s) then some ([], (b :: s).drop pat.length)
    else (splitOnce pat s).map fun x => (b :: x.1, x.2)

/-- nom's streaming `take_until(pat)`: everything before the first occurrence of `pat`, which stays in the input; `Incomplete` while
there is no occurrence. -/
def takeUntil (pat : Bytes) : P Bytes := fun i =>
  match splitOnce pat i with
  | some (l, r) => .ok (pat ++ r) l
  | none => .incomplete

/-- Whether a parser rejected its input with a recoverable error. -/
def Res.isError {α : Type} : Res α → Bool
  | .error => true
  | _ => false

/-! ### Capabilities -/

/-- `SortAlgorithm` (imap-types/src/extensions/sort.rs:16-19). -/
inductive SortAlgorithm where
  | display
  | other (a : Bytes)
  deriving DecidableEq, Repr

/-- `From<Atom> for SortAlgorithm` (imap-types/src/extensions/sort.rs:21-28). -/
def SortAlgorithm.ofAtom (a : Bytes) : SortAlgorithm := if lowerAll a = b!"display" then .display else .other a

/-- `Display for SortAlgorithm` (imap-types/src/extensions/sort.rs:30-37). -/
def SortAlgorithm.name : SortAlgorithm → Bytes
  | .display => b!"DISPLAY"
  | .other a => a

/-- The type invariants of `SortAlgorithm`: `SortAlgorithmOther` can only be created by the conversion from atoms. -/
def SortAlgorithm.valid : SortAlgorithm → Bool
  | .display => true
  | .other a => isAtom a && decide (SortAlgorithm.ofAtom a = .other a)

/-- `Capability` (imap-types/src/response.rs:1058-1122). `CompressionAlgorithm` has the single value `Deflate`. -/
inductive Capability where
  | imap4Rev1
  | auth (m : AuthMechanism)
  | loginDisabled | startTls | mailboxReferrals | loginReferrals | saslIr | idle | enable | compressDeflate
  | quota
  | quotaRes (r : Resource)
  | quotaSet | literalPlus | literalMinus | move_ | id_ | unselect
  | sort (a : Option SortAlgorithm)
  | thread (a : ThreadingAlgorithm)
  | metadata | metadataServer | binary | uidPlus | condStore | qResync | namespace_
  | utf8Accept | utf8Only
  | other (a : Bytes)
  deriving DecidableEq, Repr

/-- `Display for Capability` (imap-types/src/response.rs:1124-1169). -/
def Capability.name : Capability → Bytes
  | .imap4Rev1 => b!"IMAP4REV1"
  | .auth m => b!"AUTH=" ++ m.name
  | .loginDisabled => b!"LOGINDISABLED"
  | .startTls => b!"STARTTLS"
  | .mailboxReferrals => b!"MAILBOX-REFERRALS"
  | .loginReferrals => b!"LOGIN-REFERRALS"
  | .saslIr => b!"SASL-IR"
  | .idle => b!"IDLE"
  | .enable => b!"ENABLE"
  | .compressDeflate => b!"COMPRESS=DEFLATE"
  | .quota => b!"QUOTA"
  | .quotaRes r => b!"QUOTA=RES-" ++ r.name
  | .quotaSet => b!"QUOTASET"
  | .literalPlus => b!"LITERAL+"
  | .literalMinus => b!"LITERAL-"
  | .move_ => b!"MOVE"
  | .id_ => b!"ID"
  | .unselect => b!"UNSELECT"
  | .sort none => b!"SORT"
  | .sort (some a) => b!"SORT=" ++ a.name
  | .thread a => b!"THREAD=" ++ a.name
  | .metadata => b!"METADATA"
  | .metadataServer => b!"METADATA-SERVER"
  | .binary => b!"BINARY"
  | .uidPlus => b!"UIDPLUS"
  | .condStore => b!"CONDSTORE"
  | .qResync => b!"QRESYNC"
  | .namespace_ => b!"NAMESPACE"
  | .utf8Accept => b!"UTF8=ACCEPT"
  | .utf8Only => b!"UTF8=ONLY"
  | .other a => a

/-- The names matched first by `From<Atom> for Capability` (imap-types/src/response.rs:1203-1238). -/
def Capability.fixed : List (Bytes × Capability) :=
  [(b!"imap4rev1", .imap4Rev1), (b!"logindisabled", .loginDisabled), (b!"starttls", .startTls), (b!"idle", .idle),
    (b!"mailbox-referrals", .mailboxReferrals), (b!"login-referrals", .loginReferrals), (b!"sasl-ir", .saslIr),
    (b!"enable", .enable), (b!"quota", .quota), (b!"quotaset", .quotaSet), (b!"literal+", .literalPlus),
    (b!"literal-", .literalMinus), (b!"move", .move_), (b!"id", .id_), (b!"sort", .sort none), (b!"metadata", .metadata),
    (b!"metadata-server", .metadataServer), (b!"binary", .binary), (b!"unselect", .unselect), (b!"condstore", .condStore),
    (b!"qresync", .qResync), (b!"uidplus", .uidPlus), (b!"utf8=accept", .utf8Accept), (b!"utf8=only", .utf8Only)]

/-- The capability is a part of the type in this build (imap-types/src/response.rs:1062-1119). -/
def Capability.present [q : Quirks] : Capability → Bool
  | .startTls => q.starttls
  | .mailboxReferrals => q.extMailboxReferrals
  | .loginReferrals => q.extLoginReferrals
  | .id_ => q.extId
  | .metadata | .metadataServer => q.extMetadata
  | .condStore | .qResync => q.extCondstoreQresync
  | .namespace_ => q.extNamespace
  | .utf8Accept | .utf8Only => q.extUtf8
  | _ => true

/-- The part of `From<Atom> for Capability` after splitting the atom at the first `=` (imap-types/src/response.rs:1240-1275).
`none`: no case applies. -/
def Capability.ofPair (left right : Bytes) : Option Capability :=
  let l := lowerAll left
  if l = b!"auth" then if isAtom right then some (.auth (.ofAtom right)) else none
  else if l = b!"compress" then
    if isAtom right && lowerAll right == b!"deflate" then some .compressDeflate else none
  else if l = b!"quota" then
    match splitOnce b!"res-" (lowerAll right) with
    | some (_, r) => if isAtom r then some (.quotaRes (.ofAtom r)) else none
    | none => none
  else if l = b!"sort" then if isAtom right then some (.sort (some (.ofAtom right))) else none
  else if l = b!"thread" then if isAtom right then some (.thread (.ofAtom right)) else none
  else none

/-- `From<Atom> for Capability` (imap-types/src/response.rs:1176-1282). -/
def Capability.ofAtom [Quirks] (a : Bytes) : Capability :=
  match (Capability.fixed.lookup (lowerAll a)).filter Capability.present with
  | some c => c
  | none =>
    match splitOnce b!"=" a with
    | some (l, r) => (Capability.ofPair l r).getD (.other a)
    | none => .other a

/-- The type invariants of `Capability`: the `Other` values can only be created by the conversions from atoms.
EXCLUSION: `AUTH=` with the mechanisms that the conversion does not know; `NAMESPACE`, which the conversion does not know;
`QUOTA=RES-` with another resource that is not lowercase, as the conversion changes it to lowercase. -/
def Capability.valid [Quirks] : Capability → Bool
  | .auth m => m.valid
  | .quotaRes (.other a) => Resource.valid (.other a) && decide (lowerAll a = a)
  | .sort (some a) => a.valid
  | .thread a => a.valid
  | .namespace_ => false
  | .other a => isAtom a && decide (Capability.ofAtom a = .other a)
  | c => c.present

/-- `Capability::encode_ctx` (imap-codec/src/codec/encode.rs:1236-1240). -/
def Capability.enc (c : Capability) : List W := [.wr c.name]

/-- `capability` (imap-codec/src/response.rs:240-242). -/
def capability [Quirks] : P Capability := Capability.ofAtom <$> atom

/-- `capability_data` (imap-codec/src/response.rs:224-235). -/
def capabilityData [q : Quirks] : P (List Capability) := do
  tagNC b!"CAPABILITY "
  let l ← sepList1 sp capability
  if q.trailingSpaceCapability then (do let _ ← opt sp; return l) else return l

/-! ### UID sets -/

/-- `UidElement` (imap-types/src/extensions/uidplus.rs:20-23). -/
inductive UidElement where
  | single (n : NzU32)
  | range (a b : NzU32)
  deriving DecidableEq, Repr

/-- The type invariants of `UidElement`. -/
def UidElement.valid : UidElement → Bool
  | .single n => isNonZeroU32 n
  | .range a b => isNonZeroU32 a && isNonZeroU32 b

/-- `UidElement::encode_ctx` (imap-codec/src/extensions/uidplus.rs:104-115). -/
def UidElement.enc : UidElement → List W
  | .single n => [.wr (showNat n)]
  | .range a b => [.wr (showNat a), .wr b!":", .wr (showNat b)]

/-- The type invariants of `UidSet` (imap-types/src/extensions/uidplus.rs:14). -/
def isUidSet (s : List UidElement) : Bool := !s.isEmpty && s.all UidElement.valid

/-- `UidSet::encode_ctx` (imap-codec/src/extensions/uidplus.rs:98-102). -/
def encUidSet (s : List UidElement) : List W := join b!"," (s.map UidElement.enc)

/-- `uid_range` (imap-codec/src/extensions/uidplus.rs:94-96). -/
def uidRange : P UidElement := do
  let a ← nzNumber
  tag b!":"
  let b ← nzNumber
  return .range a b

/-- `uid_set` (imap-codec/src/extensions/uidplus.rs:75-87). -/
def uidSet : P (List UidElement) := sepList1 (tag b!",") (alt [uidRange, .single <$> nzNumber])

/-! ### Codes -/

/-- `MetadataCode` (imap-types/src/extensions/metadata.rs:81-86). -/
inductive MetadataCode where
  | longEntries (n : Nat) | maxSize (n : Nat) | tooMany | noPrivate
  deriving DecidableEq, Repr

/-- The type invariants of `MetadataCode`. -/
def MetadataCode.valid : MetadataCode → Bool
  | .longEntries n => n < 4294967296
  | .maxSize n => n < 4294967296
  | _ => true

/-- `MetadataCode::encode_ctx` (imap-codec/src/extensions/metadata.rs:254-269). -/
def MetadataCode.enc : MetadataCode → List W
  | .longEntries n => [.wr b!"LONGENTRIES ", .wr (showNat n)]
  | .maxSize n => [.wr b!"MAXSIZE ", .wr (showNat n)]
  | .tooMany => [.wr b!"TOOMANY"]
  | .noPrivate => [.wr b!"NOPRIVATE"]

/-- `metadata_code` (imap-codec/src/extensions/metadata.rs:239-252). -/
def metadataCode : P MetadataCode :=
  alt [.longEntries <$> (do tagNC b!"LONGENTRIES "; number), .maxSize <$> (do tagNC b!"MAXSIZE "; number),
    value .tooMany (tagNC b!"TOOMANY"), value .noPrivate (tagNC b!"NOPRIVATE")]

/-- `Code` (imap-types/src/response.rs:785-977). `CodeOther` wraps any bytes. -/
inductive Code where
  | alert
  | badCharset (allowed : List Charset)
  | capability (l : List Capability)
  | parse
  | permanentFlags (l : List FlagPerm)
  | readOnly | readWrite | tryCreate
  | uidNext (n : NzU32) | uidValidity (n : NzU32) | unseen (n : NzU32)
  | referral (url : Bytes)
  | compressionActive | overQuota | tooBig
  | metadata (c : MetadataCode)
  | unknownCte
  | appendUid (uidValidity uid : NzU32)
  | copyUid (uidValidity : NzU32) (source destination : List UidElement)
  | uidNotSticky
  | highestModSeq (n : Nat)
  | modified (s : SequenceSet)
  | noModSeq | closed
  | other (bs : Bytes)
  deriving DecidableEq, Repr

/-- The list of BADCHARSET (imap-codec/src/codec/encode.rs:1330-1339). -/
def encBadCharset : List Charset → List W
  | [] => [.wr b!"BADCHARSET"]
  | l => .wr b!"BADCHARSET (" :: join b!" " (l.map Charset.enc) ++ [.wr b!")"]

/-- `Code::encode_ctx` (imap-codec/src/codec/encode.rs:1327-1417) and `CodeOther::encode_ctx` (1419-1423). -/
def Code.enc [Quirks] : Code → List W
  | .alert => [.wr b!"ALERT"]
  | .badCharset l => encBadCharset l
  | .capability l => .wr b!"CAPABILITY " :: join b!" " (l.map Capability.enc)
  | .parse => [.wr b!"PARSE"]
  | .permanentFlags l => .wr b!"PERMANENTFLAGS (" :: join b!" " (l.map FlagPerm.enc) ++ [.wr b!")"]
  | .readOnly => [.wr b!"READ-ONLY"]
  | .readWrite => [.wr b!"READ-WRITE"]
  | .tryCreate => [.wr b!"TRYCREATE"]
  | .uidNext n => [.wr b!"UIDNEXT ", .wr (showNat n)]
  | .uidValidity n => [.wr b!"UIDVALIDITY ", .wr (showNat n)]
  | .unseen n => [.wr b!"UNSEEN ", .wr (showNat n)]
  | .referral url => [.wr b!"REFERRAL ", .wr url]
  | .compressionActive => [.wr b!"COMPRESSIONACTIVE"]
  | .overQuota => [.wr b!"OVERQUOTA"]
  | .tooBig => [.wr b!"TOOBIG"]
  | .metadata c => .wr b!"METADATA " :: c.enc
  | .unknownCte => [.wr b!"UNKNOWN-CTE"]
  | .appendUid v u => [.wr b!"APPENDUID ", .wr (showNat v), .wr b!" ", .wr (showNat u)]
  | .copyUid v s d =>
    .wr b!"COPYUID " :: .wr (showNat v) :: .wr b!" " :: encUidSet s ++ .wr b!" " :: encUidSet d
  | .uidNotSticky => [.wr b!"UIDNOTSTICKY"]
  | .highestModSeq n => [.wr b!"HIGHESTMODSEQ ", .wr (showNat n)]
  | .modified s => .wr b!"MODIFIED " :: encSet s
  | .noModSeq => [.wr b!"NOMODSEQ"]
  | .closed => [.wr b!"CLOSED"]
  | .other bs => [.wr bs]

/-- The code as it is decoded after encoding: the quirk `always_normalize_sequence_sets` changes sequence sets. -/
def Code.norm [Quirks] : Code → Code
  | .modified s => .modified (normSet s)
  | c => c

/-- The charsets of BADCHARSET (imap-codec/src/response.rs:158-162). -/
def charsetList : P (List Charset) := do
  tag b!" ("
  let l ← sepList1 sp charset
  tag b!")"
  return l

/-- The flags of PERMANENTFLAGS (imap-codec/src/response.rs:173-179). -/
def flagPermList : P (List FlagPerm) := do
  tag b!"("
  let l ← opt (sepList1 sp flagPerm)
  tag b!")"
  return l.getD []

/-- `resp_code_apnd` (imap-codec/src/extensions/uidplus.rs:42-47). -/
def respCodeApnd : P Code := do
  tagNC b!"APPENDUID "
  let v ← nzNumber
  sp
  let u ← nzNumber
  return .appendUid v u

/-- `resp_code_copy` (imap-codec/src/extensions/uidplus.rs:52-64). -/
def respCodeCopy : P Code := do
  tagNC b!"COPYUID "
  let v ← nzNumber
  sp
  let s ← uidSet
  sp
  let d ← uidSet
  return .copyUid v s d

/-- `resp_text_code` (imap-codec/src/response.rs:152-218). -/
def respTextCode [Quirks] : P Code :=
  alt [value .alert (tagNC b!"ALERT"),
    do tagNC b!"BADCHARSET"; let l ← opt charsetList; return .badCharset (l.getD []),
    .capability <$> capabilityData,
    value .parse (tagNC b!"PARSE"),
    .permanentFlags <$> (do tagNC b!"PERMANENTFLAGS "; flagPermList),
    value .readOnly (tagNC b!"READ-ONLY"),
    value .readWrite (tagNC b!"READ-WRITE"),
    value .tryCreate (tagNC b!"TRYCREATE"),
    .uidNext <$> (do tagNC b!"UIDNEXT "; nzNumber),
    .uidValidity <$> (do tagNC b!"UIDVALIDITY "; nzNumber),
    .unseen <$> (do tagNC b!"UNSEEN "; nzNumber),
    value .compressionActive (tagNC b!"COMPRESSIONACTIVE"),
    value .overQuota (tagNC b!"OVERQUOTA"),
    value .tooBig (tagNC b!"TOOBIG"),
    gate Quirks.extMetadata (.metadata <$> (do tagNC b!"METADATA "; metadataCode)),
    value .unknownCte (tagNC b!"UNKNOWN-CTE"),
    respCodeApnd,
    respCodeCopy,
    value .uidNotSticky (tagNC b!"UIDNOTSTICKY"),
    gate Quirks.extCondstoreQresync
      (alt [.highestModSeq <$> (do tagNC b!"HIGHESTMODSEQ "; modSequenceValue),
        value .noModSeq (tagNC b!"NOMODSEQ"),
        .modified <$> (do tagNC b!"MODIFIED "; sequenceSet),
        value .closed (tagNC b!"CLOSED")])]

/-! ### Code and text -/

/-- A byte that may occur in an unknown code (imap-codec/src/response.rs:96). -/
def isCodeOtherChar (b : UInt8) : Bool := b != 93 && b != 13 && b != 10

/-- `terminated(resp_text_code, tag("]"))` (imap-codec/src/response.rs:93). -/
def codeKnown [Quirks] : P Code := do
  let c ← respTextCode
  tag b!"]"
  return c

/-- The alternative for unknown codes (imap-codec/src/response.rs:94-100). -/
def codeOther : P Code := do
  let bs ← takeWhile isCodeOtherChar
  tag b!"]"
  return .other bs

/-- The text after a code (imap-codec/src/response.rs:105-115). -/
def textAfterCode [q : Quirks] : P Bytes :=
  if q.missingText then alt [do sp; text, value b!"..." (peek crlf)] else do sp; text

/-- The case of `resp_text` for an input starting with `[` (imap-codec/src/response.rs:87-116). -/
def respTextCoded [Quirks] : P (Option Code × Bytes) := do
  tag b!"["
  let c ← alt [codeKnown, codeOther]
  let t ← textAfterCode
  return (some c, t)

/-- The case of `resp_text` for an input not starting with `[` (imap-codec/src/response.rs:118). -/
def respTextPlain : P (Option Code × Bytes) := do
  let t ← text
  return (none, t)

/-- `resp_text` (imap-codec/src/response.rs:82-120). -/
def respText [Quirks] : P (Option Code × Bytes) := do
  let start ← peek (opt (tag b!"["))
  if start.isSome then respTextCoded else respTextPlain

/-- The code and text as written by the encoders of `Greeting`, `Status` and `CommandContinuationRequest`
(imap-codec/src/codec/encode.rs:1262-1269, 1293-1300, 2035-2046). -/
def encRespText [Quirks] : Option Code → Bytes → List W
  | none, t => [.wr t]
  | some c, t => .wr b!"[" :: c.enc ++ [.wr b!"] ", .wr t]

/-- The type invariants of `Code`.
EXCLUSION: `Referral`, for which there is no parser; `Other` whose bytes contain `]`, CR or LF, or, together with the text that
follows, parse as another code. -/
def Code.valid [q : Quirks] (text : Bytes) : Code → Bool
  | .badCharset l => l.all Charset.valid
  | .capability l => !l.isEmpty && l.all Capability.valid
  | .permanentFlags l => l.all FlagPerm.valid
  | .uidNext n => isNonZeroU32 n
  | .uidValidity n => isNonZeroU32 n
  | .unseen n => isNonZeroU32 n
  | .referral _ => false
  | .metadata c => q.extMetadata && c.valid
  | .appendUid v u => isNonZeroU32 v && isNonZeroU32 u
  | .copyUid v s d => isNonZeroU32 v && isUidSet s && isUidSet d
  | .highestModSeq n => q.extCondstoreQresync && isNonZeroU64 n
  | .modified s => q.extCondstoreQresync && SequenceSet.wf s
  | .noModSeq | .closed => q.extCondstoreQresync
  | .other bs => bs.all isCodeOtherChar && (codeKnown (bs ++ b!"] " ++ text ++ b!"\r\n")).isError
  | _ => true

/-- The type invariants of the pair of `Option<Code>` and `Text`.
EXCLUSION: without a code, a text that starts with `[`. -/
def validRespText [Quirks] : Option Code → Bytes → Bool
  | none, t => isText t && t.head? != some 91
  | some c, t => isText t && c.valid t

/-! ### Greetings -/

/-- `GreetingKind` (imap-types/src/response.rs:101-114). -/
inductive GreetingKind where
  | ok | preAuth | bye
  deriving DecidableEq, Repr

/-- `Greeting` (imap-types/src/response.rs:53-57). -/
structure Greeting where
  kind : GreetingKind
  code : Option Code
  text : Bytes
  deriving DecidableEq, Repr

/-- The type invariants of `Greeting`, with the exclusions of `validRespText`. -/
def Greeting.valid [Quirks] (g : Greeting) : Bool := validRespText g.code g.text

/-- The greeting as it is decoded after encoding. -/
def Greeting.norm [Quirks] (g : Greeting) : Greeting := { g with code := g.code.map Code.norm }

/-- `GreetingKind::encode_ctx` (imap-codec/src/codec/encode.rs:1273-1281). -/
def GreetingKind.name : GreetingKind → Bytes
  | .ok => b!"OK"
  | .preAuth => b!"PREAUTH"
  | .bye => b!"BYE"

/-- `Greeting::encode_ctx` (imap-codec/src/codec/encode.rs:1256-1271). -/
def Greeting.enc [Quirks] (g : Greeting) : List W :=
  .wr b!"* " :: .wr g.kind.name :: .wr b!" " :: encRespText g.code g.text ++ [.wr b!"\r\n"]

/-- The keywords of `resp_cond_auth` (imap-codec/src/response.rs:69-72). -/
def condAuthKind : P GreetingKind := alt [value .ok (tagNC b!"OK "), value .preAuth (tagNC b!"PREAUTH ")]

/-- `resp_cond_auth` (imap-codec/src/response.rs:65-79). -/
def respCondAuth [Quirks] : P (GreetingKind × Option Code × Bytes) := do
  let k ← condAuthKind
  let t ← respText
  return (k, t)

/-- `resp_cond_bye` (imap-codec/src/response.rs:245-247). -/
def respCondBye [Quirks] : P (Option Code × Bytes) := do
  tagNC b!"BYE "
  respText

/-- `greeting` (imap-codec/src/response.rs:46-59). -/
def greeting [Quirks] : P Greeting := do
  tag b!"* "
  let x ← alt [respCondAuth, (fun t => (GreetingKind.bye, t)) <$> respCondBye]
  crlf
  return ⟨x.1, x.2.1, x.2.2⟩

/-! ### Status responses -/

/-- `StatusKind` (imap-types/src/response.rs:169-185). -/
inductive StatusKind where
  | ok | no | bad
  deriving DecidableEq, Repr

/-- `Status` with `StatusBody`, `Tagged` and `Bye` (imap-types/src/response.rs:142-163, 189-192, 222-225). -/
inductive Status where
  | untagged (kind : StatusKind) (code : Option Code) (text : Bytes)
  | tagged (tag : Bytes) (kind : StatusKind) (code : Option Code) (text : Bytes)
  | bye (code : Option Code) (text : Bytes)
  deriving DecidableEq, Repr

/-- The type invariants of `Status`, with the exclusions of `validRespText`. -/
def Status.valid [Quirks] : Status → Bool
  | .untagged _ c t => validRespText c t
  | .tagged tag _ c t => isTagStr tag && validRespText c t
  | .bye c t => validRespText c t

/-- The status as it is decoded after encoding. -/
def Status.norm [Quirks] : Status → Status
  | .untagged k c t => .untagged k (c.map Code.norm) t
  | .tagged tag k c t => .tagged tag k (c.map Code.norm) t
  | .bye c t => .bye (c.map Code.norm) t

/-- The keywords of `Status::encode_ctx` (imap-codec/src/codec/encode.rs:1304-1324). -/
def StatusKind.name : StatusKind → Bytes
  | .ok => b!"OK"
  | .no => b!"NO"
  | .bad => b!"BAD"

/-- `Status::encode_ctx` (imap-codec/src/codec/encode.rs:1283-1325). -/
def Status.enc [Quirks] : Status → List W
  | .untagged k c t => .wr b!"*" :: .wr b!" " :: .wr k.name :: .wr b!" " :: encRespText c t ++ [.wr b!"\r\n"]
  | .tagged tag k c t => .wr tag :: .wr b!" " :: .wr k.name :: .wr b!" " :: encRespText c t ++ [.wr b!"\r\n"]
  | .bye c t => .wr b!"*" :: .wr b!" " :: .wr b!"BYE" :: .wr b!" " :: encRespText c t ++ [.wr b!"\r\n"]

/-- The keywords of `resp_cond_state` (imap-codec/src/response.rs:364-368). -/
def condStateKind : P StatusKind :=
  alt [value .ok (tagNC b!"OK "), value .no (tagNC b!"NO "), value .bad (tagNC b!"BAD ")]

/-- `resp_cond_state` (imap-codec/src/response.rs:362-375). -/
def respCondState [Quirks] : P (StatusKind × Option Code × Bytes) := do
  let k ← condStateKind
  let t ← respText
  return (k, t)

/-- `response_tagged` (imap-codec/src/response.rs:383-395). -/
def responseTagged [Quirks] : P Status := do
  let tag ← tagImap
  sp
  let x ← respCondState
  crlf
  return .tagged tag x.1 x.2.1 x.2.2

/-- `response_fatal` (imap-codec/src/response.rs:400-406). -/
def responseFatal [Quirks] : P Status := do
  tag b!"* "
  let x ← respCondBye
  crlf
  return .bye x.1 x.2

/-- `response_done` (imap-codec/src/response.rs:378-380). -/
def responseDone [Quirks] : P Status := alt [responseTagged, responseFatal]

/-! ### Command continuation requests -/

/-- `CommandContinuationRequest` (imap-types/src/response.rs:683-686, 712-715). -/
inductive ContinueReq where
  | basic (code : Option Code) (text : Bytes)
  | base64 (data : Bytes)
  deriving DecidableEq, Repr

/-- `CommandContinuationRequestBasic::new` (imap-types/src/response.rs:745-763) on a `Text`; `none` is the error `Ambiguity`. -/
def ContinueReq.ofBasic (code : Option Code) (text : Bytes) : Option ContinueReq :=
  if code.isNone && text.head? == some 91 then none
  else if code.isNone && (b64Decode text).isSome then none
  else some (.basic code text)

/-- The type invariants of `CommandContinuationRequest`: `Basic` values are created by `CommandContinuationRequestBasic::new`. The code
is restricted as in `validRespText`. -/
def ContinueReq.valid [Quirks] : ContinueReq → Bool
  | .basic c t => validRespText c t && (ContinueReq.ofBasic c t).isSome
  | .base64 _ => true

/-- The request as it is decoded after encoding. -/
def ContinueReq.norm [Quirks] : ContinueReq → ContinueReq
  | .basic c t => .basic (c.map Code.norm) t
  | .base64 d => .base64 d

/-- `CommandContinuationRequest::encode_ctx` (imap-codec/src/codec/encode.rs:2030-2054). -/
def ContinueReq.enc [Quirks] : ContinueReq → List W
  | .basic c t => .wr b!"+ " :: encRespText c t ++ [.wr b!"\r\n"]
  | .base64 d => [.wr b!"+ ", .wr (b64Encode d), .wr b!"\r\n"]

/-- `empty_continue_req` (imap-codec/src/response.rs:269-276). The `unwrap` succeeds: `...` is a text, does not start with `[` and is
not base64. -/
def emptyContinueReq [Quirks] : P ContinueReq := do
  tag b!"+"
  crlf
  return .basic none b!"..."

/-- Removing one CR at the end (imap-codec/src/response.rs:301-305). -/
def stripCr (s : Bytes) : Bytes := if s.getLast? = some 13 then s.dropLast else s

/-- The base64 alternative of `continue_req` (imap-codec/src/response.rs:293-309). -/
def continueBase64 [q : Quirks] : P Bytes :=
  if q.crlfRelaxed then mapRes (takeUntil b!"\n") fun s => b64Decode (stripCr s)
  else mapRes (takeUntil b!"\r\n") b64Decode

/-- The local type `Either` of `continue_req` (imap-codec/src/response.rs:285-288). -/
inductive ContinueEither where
  | base64 (data : Bytes)
  | basic (x : Option Code × Bytes)

/-- The final match of `continue_req` (imap-codec/src/response.rs:316-319); `none` is the panic of `unwrap`. -/
def ContinueEither.toReq : ContinueEither → Option ContinueReq
  | .base64 d => some (.base64 d)
  | .basic x => ContinueReq.ofBasic x.1 x.2

/-- The parser inside of `continue_req` (imap-codec/src/response.rs:290-314). -/
def continueInner [Quirks] : P ContinueEither := do
  tag b!"+ "
  let x ← alt [.base64 <$> continueBase64, .basic <$> respText]
  crlf
  return x

/-- `continue_req` (imap-codec/src/response.rs:279-322). The panic of `unwrap` is modelled as an error of `mapRes` and never reached
(theorem `continueInner_toReq`). -/
def continueReq [Quirks] : P ContinueReq := mapRes continueInner ContinueEither.toReq

/-! ### Status items -/

/-- `StatusDataItem` (imap-types/src/status.rs:47-80). -/
inductive StatusDataItem where
  | messages (n : Nat) | recent (n : Nat) | uidNext (n : NzU32) | uidValidity (n : NzU32) | unseen (n : Nat) | deleted (n : Nat)
  | deletedStorage (n : Nat) | highestModSeq (n : Nat)
  deriving DecidableEq, Repr

/-- The type invariants of `StatusDataItem`. -/
def StatusDataItem.valid [q : Quirks] : StatusDataItem → Bool
  | .messages n => n < 4294967296
  | .recent n => n < 4294967296
  | .uidNext n => isNonZeroU32 n
  | .uidValidity n => isNonZeroU32 n
  | .unseen n => n < 4294967296
  | .deleted n => n < 4294967296
  | .deletedStorage n => n < 18446744073709551616
  | .highestModSeq n => q.extCondstoreQresync && n < 18446744073709551616

/-- `StatusDataItem::encode_ctx` (imap-codec/src/codec/encode.rs:1672-1710). -/
def StatusDataItem.enc : StatusDataItem → List W
  | .messages n => [.wr b!"MESSAGES ", .wr (showNat n)]
  | .recent n => [.wr b!"RECENT ", .wr (showNat n)]
  | .uidNext n => [.wr b!"UIDNEXT ", .wr (showNat n)]
  | .uidValidity n => [.wr b!"UIDVALIDITY ", .wr (showNat n)]
  | .unseen n => [.wr b!"UNSEEN ", .wr (showNat n)]
  | .deleted n => [.wr b!"DELETED ", .wr (showNat n)]
  | .deletedStorage n => [.wr b!"DELETED-STORAGE ", .wr (showNat n)]
  | .highestModSeq n => [.wr b!"HIGHESTMODSEQ ", .wr (showNat n)]

/-- `status_att_val` (imap-codec/src/status.rs:53-98). -/
def statusAttVal [Quirks] : P StatusDataItem :=
  alt [.messages <$> (do tagNC b!"MESSAGES "; number), .recent <$> (do tagNC b!"RECENT "; number),
    .uidNext <$> (do tagNC b!"UIDNEXT "; nzNumber), .uidValidity <$> (do tagNC b!"UIDVALIDITY "; nzNumber),
    .unseen <$> (do tagNC b!"UNSEEN "; number), .deletedStorage <$> (do tagNC b!"DELETED-STORAGE "; number64),
    .deleted <$> (do tagNC b!"DELETED "; number),
    gate Quirks.extCondstoreQresync (.highestModSeq <$> (do tagNC b!"HIGHESTMODSEQ "; modSequenceValzer))]

/-! ### Message data items -/

/-- `MessageDataItem` (imap-types/src/fetch.rs:255-388). -/
inductive MessageDataItem where
  | body (b : BodyStructure)
  | bodyExt (section_ : Option Section) (origin : Option Nat) (data : NString)
  | bodyStructure (b : BodyStructure)
  | envelope (e : Envelope)
  | flags (l : List FlagFetch)
  | internalDate (t : DateTime)
  | rfc822 (s : NString) | rfc822Header (s : NString) | rfc822Size (n : Nat) | rfc822Text (s : NString)
  | uid (n : NzU32)
  | binary (section_ : List NzU32) (value : NString8)
  | binarySize (section_ : List NzU32) (size : Nat)
  | modSeq (n : Nat)

/-- The type invariants of `Option<u32>`. -/
def isOptU32 : Option Nat → Bool
  | none => true
  | some n => n < 4294967296

/-- The type invariants of `MessageDataItem`.
EXCLUSION: bodies nested more deeply than the parser accepts. -/
def MessageDataItem.valid [q : Quirks] : MessageDataItem → Bool
  | .body b => b.valid && b.need ≤ 8
  | .bodyExt s o d => isSectionOpt s && isOptU32 o && NString.valid d
  | .bodyStructure b => b.valid && b.need ≤ 8
  | .envelope e => e.valid
  | .flags l => l.all FlagFetch.valid
  | .internalDate t => t.valid
  | .rfc822 s => NString.valid s
  | .rfc822Header s => NString.valid s
  | .rfc822Size n => n < 4294967296
  | .rfc822Text s => NString.valid s
  | .uid n => isNonZeroU32 n
  | .binary s v => s.all isNonZeroU32 && v.valid
  | .binarySize s n => s.all isNonZeroU32 && n < 4294967296
  | .modSeq n => q.extCondstoreQresync && isNonZeroU64 n

/-- EXCLUSION, needed only for the round trip: the item is not MODSEQ, which the encoder writes in a form that the parser rejects. -/
def MessageDataItem.noModSeq : MessageDataItem → Bool
  | .modSeq _ => false
  | _ => true

/-- The origin octet (imap-codec/src/codec/encode.rs:1724-1726). -/
def encOrigin : Option Nat → List W
  | none => []
  | some n => [.wr b!"<", .wr (showNat n), .wr b!">"]

/-- `MessageDataItem::encode_ctx` (imap-codec/src/codec/encode.rs:1712-1783). The value of MODSEQ is written without the parentheses
that the parser requires. -/
def MessageDataItem.enc : MessageDataItem → List W
  | .bodyExt s o d => .wr b!"BODY[" :: encSectionOpt s ++ .wr b!"]" :: encOrigin o ++ .wr b!" " :: encNString d
  | .body b => .wr b!"BODY " :: b.enc
  | .bodyStructure b => .wr b!"BODYSTRUCTURE " :: b.enc
  | .envelope e => .wr b!"ENVELOPE " :: e.enc
  | .flags l => .wr b!"FLAGS (" :: join b!" " (l.map FlagFetch.enc) ++ [.wr b!")"]
  | .internalDate t => .wr b!"INTERNALDATE " :: t.enc
  | .rfc822 s => .wr b!"RFC822 " :: encNString s
  | .rfc822Header s => .wr b!"RFC822.HEADER " :: encNString s
  | .rfc822Size n => [.wr b!"RFC822.SIZE ", .wr (showNat n)]
  | .rfc822Text s => .wr b!"RFC822.TEXT " :: encNString s
  | .uid n => [.wr b!"UID ", .wr (showNat n)]
  | .binary s v => .wr b!"BINARY[" :: encPart s ++ .wr b!"] " :: v.enc
  | .binarySize s n => .wr b!"BINARY.SIZE[" :: encPart s ++ [.wr b!"] ", .wr (showNat n)]
  | .modSeq n => [.wr b!"MODSEQ ", .wr (showNat n)]

/-- The flags of `msg_att_dynamic` (imap-codec/src/fetch.rs:148-154). -/
def flagFetchList : P (List FlagFetch) := do
  tag b!"("
  let l ← opt (sepList1 sp flagFetch)
  tag b!")"
  return l.getD []

/-- `msg_att_dynamic` (imap-codec/src/fetch.rs:142-170). -/
def msgAttDynamic [Quirks] : P MessageDataItem :=
  alt [.flags <$> (do tagNC b!"FLAGS "; flagFetchList),
    gate Quirks.extCondstoreQresync (.modSeq <$> (do tagNC b!"MODSEQ "; tag b!"("; let n ← modSequenceValue; tag b!")"; return n))]

/-- The BODY item with a section (imap-codec/src/fetch.rs:214-227). -/
def msgBodyExt [Quirks] : P MessageDataItem := do
  tagNC b!"BODY"
  let s ← «section»
  let o ← opt (do tag b!"<"; let n ← number; tag b!">"; return n)
  sp
  let d ← nstring
  return .bodyExt s o d

/-- `msg_att_static` (imap-codec/src/fetch.rs:185-251). -/
def msgAttStatic [Quirks] : P MessageDataItem :=
  alt [.envelope <$> (do tagNC b!"ENVELOPE "; envelope),
    .internalDate <$> (do tagNC b!"INTERNALDATE "; dateTime),
    .rfc822Header <$> (do tagNC b!"RFC822.HEADER "; nstring),
    .rfc822Text <$> (do tagNC b!"RFC822.TEXT "; nstring),
    .rfc822Size <$> (do tagNC b!"RFC822.SIZE "; number),
    .rfc822 <$> (do tagNC b!"RFC822 "; nstring),
    .bodyStructure <$> (do tagNC b!"BODYSTRUCTURE "; body 8),
    .body <$> (do tagNC b!"BODY "; body 8),
    msgBodyExt,
    .uid <$> (do tagNC b!"UID "; nzNumber),
    do tagNC b!"BINARY"; let s ← sectionBinary; sp; let v ← imapValue; return .binary s v,
    do tagNC b!"BINARY.SIZE"; let s ← sectionBinary; sp; let n ← number; return .binarySize s n]

/-- `msg_att` (imap-codec/src/fetch.rs:126-135). -/
def msgAtt [Quirks] : P (List MessageDataItem) := do
  tag b!"("
  let l ← sepList1 sp (alt [msgAttDynamic, msgAttStatic])
  tag b!")"
  return l

/-! ### Threads -/

/-- `Thread` (imap-types/src/extensions/thread.rs:19-27). `answers` is `Option<Vec2<Thread>>`: the empty list models `None`. -/
inductive Thread where
  | members (prefix_ : List NzU32) (answers : List Thread)
  | nested (answers : List Thread)

/-- The type invariants of `Thread`: prefixes are `Vec1`, answers are `Vec2`. -/
def Thread.valid : Thread → Bool
  | .members p l => !p.isEmpty && p.all isNonZeroU32 && l.length != 1 && go l
  | .nested l => 2 ≤ l.length && go l
where
  go : List Thread → Bool
    | [] => true
    | t :: l => t.valid && go l

/-- The nesting depth of a thread. -/
def Thread.depth : Thread → Nat
  | .members _ l => 1 + go l
  | .nested l => 1 + go l
where
  go : List Thread → Nat
    | [] => 0
    | t :: l => max t.depth (go l)

/-- `write_prefix` (imap-types/src/extensions/thread.rs:81-90) and the space before answers. -/
def encPrefix (p : List NzU32) (l : List Thread) : List W :=
  join b!" " (p.map encNat) ++ if l.isEmpty then [] else [.wr b!" "]

/-- `Display for Thread` (imap-types/src/extensions/thread.rs:29-79), used by `encode_ctx`. The explicit stack of the code is the
recursion here. -/
def Thread.enc : Thread → List W
  | .members p l => .wr b!"(" :: encPrefix p l ++ go l ++ [.wr b!")"]
  | .nested l => .wr b!"(" :: go l ++ [.wr b!")"]
where
  go : List Thread → List W
    | [] => []
    | t :: l => t.enc ++ go l

/-- `thread_list_limited` (imap-codec/src/extensions/thread.rs:117-154). -/
def threadList : Nat → P Thread
  | 0 => fun _ => .failure .recursionLimit
  | n + 1 => do
    tag b!"("
    let t ← alt [do
        let p ← sepList1 sp nzNumber
        let l ← opt (do sp; many2 (threadList n))
        return .members p (l.getD []),
      .nested <$> many2 (threadList n)]
    tag b!")"
    return t

/-- `thread_data` (imap-codec/src/extensions/thread.rs:84-93). -/
def threadData : P (List Thread) := do
  tagNC b!"THREAD"
  let l ← opt (do sp; many1 (threadList 8))
  return l.getD []

/-! ### Namespaces -/

/-- `NamespaceResponseExtension` (imap-types/src/extensions/namespace.rs:93-96). -/
structure NamespaceExt where
  key : IString
  values : List IString
  deriving DecidableEq, Repr

/-- `Namespace` (imap-types/src/extensions/namespace.rs:72-77). A `QuotedChar` (imap-types/src/core.rs:1360) is one byte. -/
structure Namespace where
  prefix_ : IString
  delimiter : Option UInt8
  extensions : List NamespaceExt
  deriving DecidableEq, Repr

/-- The type invariants of `Option<QuotedChar>`. -/
def isDelimiter : Option UInt8 → Bool
  | none => true
  | some c => isQuotedChar c

/-- The type invariants of `NamespaceResponseExtension`. -/
def NamespaceExt.valid [Quirks] (e : NamespaceExt) : Bool := e.key.valid && !e.values.isEmpty && e.values.all IString.valid

/-- The type invariants of `Namespace`. -/
def Namespace.valid [Quirks] (n : Namespace) : Bool := n.prefix_.valid && isDelimiter n.delimiter && n.extensions.all NamespaceExt.valid

/-- `QuotedChar::encode_ctx` (imap-codec/src/codec/encode.rs:1662-1670). -/
def encQuotedChar (c : UInt8) : Bytes := if c = 92 then b!"\\\\" else if c = 34 then b!"\\\"" else [c]

/-- An optional delimiter (imap-codec/src/codec/encode.rs:1446-1452, 1465-1471; imap-codec/src/extensions/namespace.rs:133-142). -/
def encDelimiter : Option UInt8 → List W
  | some c => [.wr b!"\"", .wr (encQuotedChar c), .wr b!"\""]
  | none => [.wr b!"NIL"]

/-- `NamespaceResponseExtension::encode_ctx` (imap-codec/src/extensions/namespace.rs:146-161). -/
def NamespaceExt.enc (e : NamespaceExt) : List W :=
  .wr b!" " :: e.key.enc ++ .wr b!" (" :: join b!" " (e.values.map IString.enc) ++ [.wr b!")"]

/-- `Namespace::encode_ctx` (imap-codec/src/extensions/namespace.rs:121-144). -/
def Namespace.enc (n : Namespace) : List W :=
  .wr b!"(" :: n.prefix_.enc ++ .wr b!" " :: encDelimiter n.delimiter ++ (n.extensions.map NamespaceExt.enc).flatten ++ [.wr b!")"]

/-- `encode_namespaces` (imap-codec/src/extensions/namespace.rs:163-173). -/
def encNamespaces : List Namespace → List W
  | [] => [.wr b!"NIL"]
  | l => .wr b!"(" :: (l.map Namespace.enc).flatten ++ [.wr b!")"]

/-- An optional delimiter (imap-codec/src/extensions/namespace.rs:87-90; imap-codec/src/mailbox.rs:197-200). -/
def delimiter : P (Option UInt8) := alt [some <$> (do dquote; let c ← quotedChar; dquote; return c), value none nil]

/-- `namespace_response_extension` (imap-codec/src/extensions/namespace.rs:104-119). -/
def namespaceExt [Quirks] : P NamespaceExt := do
  sp
  let k ← string
  sp
  char 40
  let l ← sepList1 sp string
  char 41
  return ⟨k, l⟩

/-- `namespace_descr` (imap-codec/src/extensions/namespace.rs:78-99). -/
def namespaceDescr [Quirks] : P Namespace := do
  char 40
  let p ← string
  sp
  let d ← delimiter
  let l ← many0 namespaceExt
  char 41
  return ⟨p, d, l⟩

/-- `namespace` (imap-codec/src/extensions/namespace.rs:65-70). -/
def namespaces [Quirks] : P (List Namespace) :=
  alt [value [] nil, do char 40; let l ← many1 namespaceDescr; char 41; return l]

/-! ### Quotas -/

/-- `QuotaGet` (imap-types/src/extensions/quota.rs:226-230). -/
structure QuotaGet where
  resource : Resource
  usage : Nat
  limit : Nat
  deriving DecidableEq, Repr

/-- The type invariants of `QuotaGet`. -/
def QuotaGet.valid (q : QuotaGet) : Bool :=
  q.resource.valid && q.usage < 18446744073709551616 && q.limit < 18446744073709551616

/-- `QuotaGet::encode_ctx` (imap-codec/src/extensions/quota.rs:204-209). -/
def QuotaGet.enc (q : QuotaGet) : List W :=
  [.wr q.resource.name, .wr b!" ", .wr (showNat q.usage), .wr b!" ", .wr (showNat q.limit)]

/-- The spaces in `quota_resource` (imap-codec/src/extensions/quota.rs:69-73). -/
def quotaSp [q : Quirks] : P Unit := if q.excessiveSpaceQuotaResource then value () (many1 sp) else sp

/-- `quota_resource` (imap-codec/src/extensions/quota.rs:68-86). -/
def quotaResource [Quirks] : P QuotaGet := do
  let r ← resourceName
  quotaSp
  let u ← number64
  quotaSp
  let l ← number64
  return ⟨r, u, l⟩

/-! ### Metadata -/

/-- `MetadataResponse` (imap-types/src/extensions/metadata.rs:92-95). -/
inductive MetadataResponse where
  | withValues (l : List EntryValue)
  | withoutValues (l : List Entry)
  deriving DecidableEq, Repr

/-- The type invariants of `MetadataResponse`. -/
def MetadataResponse.valid [Quirks] : MetadataResponse → Bool
  | .withValues l => !l.isEmpty && l.all EntryValue.valid
  | .withoutValues l => !l.isEmpty && l.all AString.valid

/-- `MetadataResponse::encode_ctx` (imap-codec/src/extensions/metadata.rs:220-231). -/
def MetadataResponse.enc : MetadataResponse → List W
  | .withValues l => .wr b!"(" :: join b!" " (l.map EntryValue.enc) ++ [.wr b!")"]
  | .withoutValues l => join b!" " (l.map AString.enc)

/-- The items of `metadata_resp` (imap-codec/src/extensions/metadata.rs:201-204), with `entry_list` (216-218). -/
def metadataItems [Quirks] : P MetadataResponse :=
  alt [.withValues <$> entryValues, .withoutValues <$> sepList1 sp entry]

/-! ### Data responses -/

/-- `Data` (imap-types/src/response.rs:320-607). -/
inductive Data where
  | capability (l : List Capability)
  | list (items : List FlagNameAttribute) (delimiter : Option UInt8) (mailbox : Mailbox)
  | lsub (items : List FlagNameAttribute) (delimiter : Option UInt8) (mailbox : Mailbox)
  | status (mailbox : Mailbox) (items : List StatusDataItem)
  | search (l : List NzU32) (modSeq : Option Nat)
  | sort (l : List NzU32) (modSeq : Option Nat)
  | thread (l : List Thread)
  | flags (l : List Flag)
  | exists_ (n : Nat)
  | recent (n : Nat)
  | expunge (n : NzU32)
  | fetch (seq : NzU32) (items : List MessageDataItem)
  | enabled (l : List CapabilityEnable)
  | quota (root : AString) (quotas : List QuotaGet)
  | quotaRoot (mailbox : Mailbox) (roots : List AString)
  | id_ (parameters : Option IdParams)
  | metadata (mailbox : Mailbox) (items : MetadataResponse)
  | vanished (earlier : Bool) (uids : SequenceSet)
  | namespace_ (personal other shared : List Namespace)

/-- The type invariants of `Option<NonZeroU64>`, a part of the SEARCH and SORT responses that exists only with a feature. -/
def isModSeqOpt [q : Quirks] : Option Nat → Bool
  | none => true
  | some n => q.extCondstoreQresync && isNonZeroU64 n

/-- The type invariants of `Data`.
EXCLUSION: threads nested more deeply than the parser accepts. -/
def Data.valid [q : Quirks] : Data → Bool
  | .capability l => !l.isEmpty && l.all Capability.valid
  | .list l d m => l.all FlagNameAttribute.valid && isDelimiter d && m.valid
  | .lsub l d m => l.all FlagNameAttribute.valid && isDelimiter d && m.valid
  | .status m l => m.valid && l.all StatusDataItem.valid
  | .search l m => l.all isNonZeroU32 && isModSeqOpt m
  | .sort l m => l.all isNonZeroU32 && isModSeqOpt m
  | .thread l => l.all fun t => t.valid && t.depth ≤ 8
  | .flags l => l.all Flag.valid
  | .exists_ n => n < 4294967296
  | .recent n => n < 4294967296
  | .expunge n => isNonZeroU32 n
  | .fetch n l => isNonZeroU32 n && !l.isEmpty && l.all MessageDataItem.valid
  | .enabled l => l.all CapabilityEnable.valid
  | .quota r l => r.valid && !l.isEmpty && l.all QuotaGet.valid
  | .quotaRoot m l => m.valid && l.all AString.valid
  | .id_ p => q.extId && isIdParamsOpt p
  | .metadata m r => q.extMetadata && m.valid && r.valid
  | .vanished _ s => q.extCondstoreQresync && SequenceSet.wf s
  | .namespace_ p o s => q.extNamespace && p.all Namespace.valid && o.all Namespace.valid && s.all Namespace.valid

/-- EXCLUSION, needed only for the round trip: no item of a FETCH response is MODSEQ. -/
def Data.noModSeq : Data → Bool
  | .fetch _ l => l.all MessageDataItem.noModSeq
  | _ => true

/-- The data as it is decoded after encoding: the quirk `always_normalize_sequence_sets` changes sequence sets and
`id_empty_to_nil` the empty list of parameters. -/
def Data.norm [q : Quirks] : Data → Data
  | .vanished e s => .vanished e (normSet s)
  | .id_ (some []) => .id_ (if q.idEmptyToNil then none else some [])
  | d => d

/-- The numbers of SEARCH and SORT with the keyword (imap-codec/src/codec/encode.rs:1494-1500, 1519-1525). -/
def encNumbers (kw : Bytes) : List NzU32 → List W
  | [] => [.wr (b!"* " ++ kw)]
  | l => .wr (b!"* " ++ kw ++ b!" ") :: join b!" " (l.map encNat)

/-- The modification sequence of SEARCH and SORT (imap-codec/src/codec/encode.rs:1502-1506, 1527-1531). -/
def encModSeqOpt : Option Nat → List W
  | none => []
  | some n => [.wr b!" (MODSEQ ", .wr (showNat n), .wr b!")"]

/-- The threads of THREAD (imap-codec/src/codec/encode.rs:1533-1542). -/
def encThreads : List Thread → List W
  | [] => [.wr b!"* THREAD"]
  | l => .wr b!"* THREAD " :: (l.map Thread.enc).flatten

/-- A list in which each element follows a space (imap-codec/src/codec/encode.rs:1559-1562, 1574-1577). -/
def encSpaced {α : Type} (f : α → List W) (l : List α) : List W := (l.map fun x => .wr b!" " :: f x).flatten

/-- `Data::encode_ctx` without the final CRLF (imap-codec/src/codec/encode.rs:1431-1651). -/
def Data.encLine [Quirks] : Data → List W
  | .capability l => .wr b!"* CAPABILITY " :: join b!" " (l.map Capability.enc)
  | .list l d m =>
    .wr b!"* LIST (" :: join b!" " (l.map FlagNameAttribute.enc) ++ .wr b!") " :: encDelimiter d ++ .wr b!" " :: m.enc
  | .lsub l d m =>
    .wr b!"* LSUB (" :: join b!" " (l.map FlagNameAttribute.enc) ++ .wr b!") " :: encDelimiter d ++ .wr b!" " :: m.enc
  | .status m l => .wr b!"* STATUS " :: m.enc ++ .wr b!" (" :: join b!" " (l.map StatusDataItem.enc) ++ [.wr b!")"]
  | .search l m => encNumbers b!"SEARCH" l ++ encModSeqOpt m
  | .sort l m => encNumbers b!"SORT" l ++ encModSeqOpt m
  | .thread l => encThreads l
  | .flags l => .wr b!"* FLAGS (" :: join b!" " (l.map Flag.enc) ++ [.wr b!")"]
  | .exists_ n => [.wr b!"* ", .wr (showNat n), .wr b!" EXISTS"]
  | .recent n => [.wr b!"* ", .wr (showNat n), .wr b!" RECENT"]
  | .expunge n => [.wr b!"* ", .wr (showNat n), .wr b!" EXPUNGE"]
  | .fetch n l => .wr b!"* " :: .wr (showNat n) :: .wr b!" FETCH (" :: join b!" " (l.map MessageDataItem.enc) ++ [.wr b!")"]
  | .enabled l => .wr b!"* ENABLED" :: encSpaced CapabilityEnable.enc l
  | .quota r l => .wr b!"* QUOTA " :: r.enc ++ .wr b!" (" :: join b!" " (l.map QuotaGet.enc) ++ [.wr b!")"]
  | .quotaRoot m l => .wr b!"* QUOTAROOT " :: m.enc ++ encSpaced AString.enc l
  | .id_ p => .wr b!"* ID " :: encIdParams p
  | .metadata m r => .wr b!"* METADATA " :: m.enc ++ .wr b!" " :: r.enc
  | .vanished e s => .wr b!"* VANISHED" :: .wr (if e then b!" (EARLIER)" else []) :: .wr b!" " :: encSet s
  | .namespace_ p o s =>
    .wr b!"* NAMESPACE " :: encNamespaces p ++ .wr b!" " :: encNamespaces o ++ .wr b!" " :: encNamespaces s

/-- `Data::encode_ctx` (imap-codec/src/codec/encode.rs:1431-1654). -/
def Data.enc [Quirks] (d : Data) : List W := d.encLine ++ [.wr b!"\r\n"]

/-- `mailbox_list` (imap-codec/src/mailbox.rs:186-203), with the default of its callers (93, 101). -/
def mailboxList [Quirks] : P (List FlagNameAttribute × Option UInt8 × Mailbox) := do
  tag b!"("
  let l ← opt mbxListFlags
  tag b!")"
  sp
  let d ← delimiter
  sp
  let m ← mailbox
  return (l.getD [], d, m)

/-- `search_sort_mod_seq` (imap-codec/src/extensions/condstore_qresync.rs:38-44). -/
def searchSortModSeq : P Nat := do
  char 40
  tagNC b!"MODSEQ "
  let n ← modSequenceValue
  char 41
  return n

/-- The numbers and the modification sequence of SEARCH and SORT (imap-codec/src/mailbox.rs:128-136, 153-157). -/
def searchNumbers [Quirks] : P (List NzU32 × Option Nat) := do
  let l ← many0 (do sp; nzNumber)
  let m ← opt (gate Quirks.extCondstoreQresync (do char 32; searchSortModSeq))
  return (l, m)

/-- The optional space of the quirks `trailing_space_search` and `trailing_space_status`. -/
def optSpIf (b : Bool) : P Unit := if b then value () (opt sp) else pure ()

/-- The SEARCH response (imap-codec/src/mailbox.rs:121-144). -/
def searchData [q : Quirks] : P Data := do
  tagNC b!"SEARCH"
  let x ← searchNumbers
  optSpIf q.trailingSpaceSearch
  return .search x.1 x.2

/-- The SORT response (imap-codec/src/mailbox.rs:151-158). -/
def sortData [Quirks] : P Data := do
  tagNC b!"SORT"
  let x ← searchNumbers
  return .sort x.1 x.2

/-- `status_att_list` (imap-codec/src/status.rs:46-48), between parentheses and optional (imap-codec/src/mailbox.rs:164). -/
def statusItems [Quirks] : P (List StatusDataItem) := do
  tag b!" ("
  let l ← opt (sepList1 sp statusAttVal)
  tag b!")"
  return l.getD []

/-- The STATUS response (imap-codec/src/mailbox.rs:160-174). -/
def statusData [q : Quirks] : P Data := do
  tagNC b!"STATUS "
  let m ← mailbox
  let l ← statusItems
  optSpIf q.trailingSpaceStatus
  return .status m l

/-- `metadata_resp` (imap-codec/src/extensions/metadata.rs:195-211). -/
def metadataResp [Quirks] : P Data := do
  tagNC b!"METADATA"
  sp
  let m ← mailbox
  sp
  let r ← metadataItems
  return .metadata m r

/-- `namespace_response` (imap-codec/src/extensions/namespace.rs:40-60). -/
def namespaceResponse [Quirks] : P Data := do
  tagNC b!"NAMESPACE "
  let p ← namespaces
  sp
  let o ← namespaces
  sp
  let s ← namespaces
  return .namespace_ p o s

/-- `quotaroot_response` (imap-codec/src/extensions/quota.rs:129-139). -/
def quotarootResponse [Quirks] : P Data := do
  tagNC b!"QUOTAROOT "
  let m ← mailbox
  let l ← many0 (do sp; astring)
  return .quotaRoot m l

/-- `quota_response` (imap-codec/src/extensions/quota.rs:107-124). -/
def quotaResponse [Quirks] : P Data := do
  tagNC b!"QUOTA "
  let r ← astring
  tag b!" ("
  let l ← sepList1 sp quotaResource
  tag b!")"
  return .quota r l

/-- `mailbox_data` (imap-codec/src/mailbox.rs:87-180). -/
def mailboxData [Quirks] : P Data :=
  alt [.flags <$> (do tagNC b!"FLAGS "; flagList),
    (fun x => .list x.1 x.2.1 x.2.2) <$> (do tagNC b!"LIST "; mailboxList),
    (fun x => .lsub x.1 x.2.1 x.2.2) <$> (do tagNC b!"LSUB "; mailboxList),
    searchData,
    sortData,
    .thread <$> threadData,
    statusData,
    gate Quirks.extMetadata metadataResp,
    gate Quirks.extNamespace namespaceResponse,
    .exists_ <$> (do let n ← number; tagNC b!" EXISTS"; return n),
    .recent <$> (do let n ← number; tagNC b!" RECENT"; return n),
    quotarootResponse,
    quotaResponse]

/-- The part of `message_data` after the message number (imap-codec/src/response.rs:428-439). -/
def messageDataTail [Quirks] (n : NzU32) : P Data :=
  alt [value (.expunge n) (tagNC b!"EXPUNGE"), .fetch n <$> (do tagNC b!"FETCH "; msgAtt)]

/-- The VANISHED response (imap-codec/src/response.rs:440-451). -/
def vanishedData : P Data := do
  tagNC b!"VANISHED"
  let e ← opt (tagNC b!" (EARLIER)")
  sp
  let s ← sequenceSet
  return .vanished e.isSome s

/-- `message_data` (imap-codec/src/response.rs:419-453). -/
def messageData [Quirks] : P Data := alt [do let n ← nzNumber; sp; messageDataTail n,
  gate Quirks.extCondstoreQresync vanishedData]

/-- `enable_data` (imap-codec/src/extensions/enable.rs:58-67). -/
def enableData [Quirks] : P Data := do
  tagNC b!"ENABLED"
  let l ← many0 (do sp; capabilityEnable)
  return .enabled l

/-- `id_response` (imap-codec/src/extensions/id.rs:42-44). -/
def idResponse [Quirks] : P (Option IdParams) := do
  tagNC b!"ID "
  idParamsList

/-! ### Responses -/

/-- `Response` (imap-types/src/response.rs:121-136). -/
inductive Response where
  | continue_ (r : ContinueReq)
  | data (d : Data)
  | status (s : Status)

/-- The type invariants of `Response`, with the exclusions of its parts. -/
def Response.valid [Quirks] : Response → Bool
  | .continue_ r => r.valid
  | .data d => d.valid
  | .status s => s.valid

/-- EXCLUSION, needed only for the round trip: no item of a FETCH response is MODSEQ. -/
def Response.noModSeq : Response → Bool
  | .data d => d.noModSeq
  | _ => true

/-- The response as it is decoded after encoding. -/
def Response.norm [Quirks] : Response → Response
  | .continue_ r => .continue_ r.norm
  | .data d => .data d.norm
  | .status s => .status s.norm

/-- `Response::encode_ctx` (imap-codec/src/codec/encode.rs:1244-1254). -/
def Response.enc [Quirks] : Response → List W
  | .status s => s.enc
  | .data d => d.enc
  | .continue_ r => r.enc

/-- The alternatives of `response_data` (imap-codec/src/response.rs:337-354). -/
def responseDataInner [Quirks] : P Response :=
  alt [(fun x => .status (.untagged x.1 x.2.1 x.2.2)) <$> respCondState,
    (fun x => .status (.bye x.1 x.2)) <$> respCondBye,
    .data <$> mailboxData,
    .data <$> messageData,
    (fun l => .data (.capability l)) <$> capabilityData,
    .data <$> enableData,
    gate Quirks.extId ((fun p => .data (.id_ p)) <$> idResponse)]

/-- `response_data` (imap-codec/src/response.rs:334-357). -/
def responseData [Quirks] : P Response := do
  tag b!"* "
  let r ← responseDataInner
  crlf
  return r

/-- `response` (imap-codec/src/response.rs:252-265). -/
def response [q : Quirks] : P Response :=
  alt ((if q.emptyContinueReq then [.continue_ <$> emptyContinueReq] else []) ++
    [.continue_ <$> continueReq, responseData, .status <$> responseDone])

end Imap
