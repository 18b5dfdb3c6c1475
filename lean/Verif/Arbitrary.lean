import Verif.Codec
import Verif.Types
import Verif.Printing
set_option maxRecDepth 10000
/-! # The generators of random messages (feature `arbitrary` of imap-types)

The implementations of `Arbitrary` (imap-types/src/arbitrary.rs, imap-types/src/extensions/{sort,thread}.rs, and the derived ones) turn
random bytes into values. They are used by the structured fuzz targets (imap-codec/fuzz/fuzz_targets/*_to_bytes_and_back.rs) and can be
used by the tests of other projects.

A generator is modelled by the set of its possible results, see `Gen`.

SIMPLIFICATIONS:
* The crate `arbitrary` is not part of the repository. Its generators of numbers, strings and lists are modelled by the set of all values of
  the type; strings are not longer than the random bytes, of which they are parts.
* The errors of generators (`NotEnoughData`, `IncorrectFormat`) are not distinguished.
* The generators of `chrono` for dates and times are modelled in the same way. A comment in the code (arbitrary.rs:496-497) says that
  `chrono::NaiveDate::arbitrary` may panic; this is not modelled.
* `Box`, `Cow` and `Secret` are generated like their contents. -/
namespace Imap.Arb

/-- The circumstances of a run: the number of random bytes, and whether the feature `arbitrary_simplified` is enabled. -/
class Entropy where
  size : Nat
  simplified : Bool

/-- A generator, as the set of its possible results: a value, an error, or a panic. -/
def Gen (α : Type) : Type := Made Unit α → Prop

/-- The operator `?` between generators. -/
def Gen.bind {α β : Type} (g : Gen α) (f : α → Gen β) : Gen β := fun r =>
  (∃ a, g (.ok a) ∧ f a r) ∨ (g (.err ()) ∧ r = .err ()) ∨ (g .panicked ∧ r = .panicked)

instance : Monad Gen where
  pure a := fun r => r = .ok a
  bind := Gen.bind

/-- An error. -/
def fail {α : Type} : Gen α := fun r => r = .err ()

/-- A panic, for example `unreachable!()`. -/
def panic {α : Type} : Gen α := fun r => r = .panicked

/-- `map_err(|_| IncorrectFormat)` on the result of a conversion. -/
def of {ε α : Type} (m : Made ε α) : Gen α := fun r => r = m.mapErr fun _ => ()

/-- `unwrap()` on the result of a conversion. The functions `unvalidated` are modelled like this, too: in debug builds they panic if the
value is not valid. -/
def unwrap {ε α : Type} : Made ε α → Gen α
  | .ok a => pure a
  | _ => panic

/-- Any value with the property, or an error. -/
def any {α : Type} (p : α → Prop) : Gen α := fun r => r = .err () ∨ ∃ a, r = .ok a ∧ p a

/-- `u.int_in_range(lo..=hi)`. -/
def intIn (lo hi : Nat) : Gen Nat := any fun n => lo ≤ n ∧ n ≤ hi

/-- `u32`. -/
def u32 : Gen Nat := any fun n => n < 2 ^ 32
/-- `u64`. -/
def u64 : Gen Nat := any fun n => n < 2 ^ 64
/-- `NonZeroU32`. -/
def nz32 : Gen Nat := any fun n => 1 ≤ n ∧ n < 2 ^ 32
/-- `NonZeroU64`. -/
def nz64 : Gen Nat := any fun n => 1 ≤ n ∧ n < 2 ^ 64
/-- `bool`. -/
def bool : Gen Bool := any fun _ => True
/-- `char`. -/
def char : Gen Char := any fun _ => True

/-- `&[u8]` and `Cow<[u8]>`: a part of the random bytes. -/
def bytes [e : Entropy] : Gen Bytes := any fun s => s.length ≤ e.size

/-- `&str` and `Cow<str>`: a part of the random bytes that is UTF-8. -/
def str [e : Entropy] : Gen Bytes := any fun s => s.length ≤ e.size ∧ isUtf8 s = true

/-- `Option`. -/
def opt {α : Type} (g : Gen α) : Gen (Option α) := do
  if ← bool then return some (← g) else return none

/-- A list of `n` values, one after the other. -/
def times {α : Type} (g : Gen α) : Nat → Gen (List α)
  | 0 => return []
  | n + 1 => do
    let a ← g
    let l ← times g n
    return a :: l

/-- `Vec`, and the loops after `u.arbitrary_len` (for example imap-types/src/arbitrary.rs:245-254). -/
def vec {α : Type} (g : Gen α) : Gen (List α) := do times g (← any fun _ => True)

/-- A derived implementation for an enum: one of the variants. -/
def oneOf {α : Type} (l : List (Gen α)) : Gen α := fun r => ∃ g ∈ l, g r

/-- A variant that exists only with a feature. -/
def onlyIf {α : Type} (b : Bool) (g : Gen α) : Gen α := fun r => b = true ∧ g r

/-- A field that exists only with a feature: `absent` is what the model has for the field in a build without it. -/
def field {α : Type} (b : Bool) (absent : α) (g : Gen α) : Gen α := if b then g else pure absent

/-- `Vec1` (imap-types/src/arbitrary.rs:80). -/
def vec1 {α : Type} (g : Gen α) : Gen (List α) := do of (VecN.tryFrom 1 (← vec g))

/-! ### Strings and names -/

variable [Entropy]

/-- `Atom` (imap-types/src/arbitrary.rs:63). -/
def atom : Gen Bytes := do of (Atom.tryFrom (← str))

/-- `AtomExt` (imap-types/src/arbitrary.rs:64). -/
def atomExt : Gen Bytes := do of (AtomExt.tryFrom (← str))

/-- `Quoted` (imap-types/src/arbitrary.rs:65). -/
def quoted : Gen Bytes := do of (Quoted.tryFrom (← str))

/-- `Tag` (imap-types/src/arbitrary.rs:66). -/
def tag : Gen Bytes := do of (Tag.tryFrom (← str))

/-- `Text` (imap-types/src/arbitrary.rs:67). -/
def text : Gen Bytes := do of (Text.tryFrom (← str))

/-- `ListCharString` (imap-types/src/arbitrary.rs:68). -/
def listCharString : Gen Bytes := do of (ListCharString.tryFrom (← str))

/-- `QuotedChar` (imap-types/src/arbitrary.rs:69). -/
def quotedChar : Gen UInt8 := do of (QuotedChar.tryFrom (← char))

/-- `LiteralMode` (imap-types/src/core.rs:725-735). -/
def mode : Gen Mode := oneOf [pure .sync, pure .nonSync]

/-- `Literal` (imap-types/src/arbitrary.rs:200-210). -/
def literal : Gen Literal := do
  let passed ← of (Literal.tryFrom (← bytes))
  return { passed with mode := ← mode }

/-- `Literal8` (imap-types/src/extensions/binary.rs:27-39). -/
def literal8 : Gen Literal8 := return ⟨← bytes, ← mode⟩

/-- `IString` (imap-types/src/arbitrary.rs:169-198). -/
def istring [q : Quirks] : Gen IString :=
  if q.extUtf8 then do
    match ← intIn 0 2 with
    | 0 => return .quoted (← quoted)
    | 1 =>
      let arb ← str
      match Quoted.validate arb with
      | .ok _ => return .quoted arb
      | .err _ => return .quotedUtf8 arb
      | .panicked => panic
    | 2 => return .literal (← literal)
    | _ => panic
  else do
    match ← intIn 0 1 with
    | 0 => return .quoted (← quoted)
    | 1 => return .literal (← literal)
    | _ => panic

variable [q : Quirks]

/-- `NString` (imap-types/src/core.rs:877-884). -/
def nstring : Gen NString := opt istring

/-- `AString` (imap-types/src/core.rs:942-948). -/
def astring : Gen AString := oneOf [return .atom (← atomExt), return .string (← istring)]

omit q in
/-- `Charset` (imap-types/src/core.rs:1432-1437). -/
def charset : Gen Charset := oneOf [return .atom (← atom), return .quoted (← quoted)]

omit q in
/-- `LiteralOrLiteral8` (imap-types/src/extensions/binary.rs:17-23). -/
def literalOrLiteral8 : Gen LiteralOrLiteral8 := oneOf [return .literal (← literal), return .literal8 (← literal8)]

/-- `NString8` (imap-types/src/core.rs:1512-1517). -/
def nstring8 : Gen NString8 := oneOf [return .nstring (← nstring), return .literal8 (← literal8)]

omit q in
/-- `Mailbox` (imap-types/src/arbitrary.rs:70). -/
def mailbox : Gen Mailbox := do of (Mailbox.tryFrom (← str))

/-- `ListMailbox` (imap-types/src/mailbox.rs:90-95). -/
def listMailbox : Gen ListMailbox := oneOf [return .token (← listCharString), return .string (← istring)]

/-- `Capability` (imap-types/src/arbitrary.rs:71). -/
def capability : Gen Capability := return .ofAtom (← atom)

omit q in
/-- `Flag` (imap-types/src/arbitrary.rs:72). -/
def flag : Gen Flag := do of (Flag.tryFrom (← str))

omit q in
/-- `FlagFetch` (imap-types/src/flag.rs:96-108). -/
def flagFetch : Gen FlagFetch := oneOf [return .flag (← flag), pure .recent]

omit q in
/-- `FlagPerm` (imap-types/src/flag.rs:118-126). -/
def flagPerm : Gen FlagPerm := oneOf [return .flag (← flag), pure .asterisk]

omit q in
/-- `AttributeFlag` (imap-types/src/arbitrary.rs:74). -/
def attributeFlag : Gen AttributeFlag := do of (AttributeFlag.tryFrom (← str))

omit q in
/-- `FlagNameAttribute` (imap-types/src/arbitrary.rs:75). -/
def flagNameAttribute : Gen FlagNameAttribute := return .ofAtom (← atom)

/-- `CapabilityEnable` (imap-types/src/arbitrary.rs:77). -/
def capabilityEnable : Gen CapabilityEnable := do of (CapabilityEnable.tryFrom (← str))

omit q in
/-- `Resource` (imap-types/src/arbitrary.rs:78). -/
def resource : Gen Resource := do of (Resource.tryFrom (← str))

omit q in
/-- `AuthMechanism` (imap-types/src/arbitrary.rs:79). -/
def mechanism : Gen AuthMechanism := do of (AuthMechanism.tryFrom (← str))

omit q in
/-- `ThreadingAlgorithm` (imap-types/src/extensions/thread.rs:168-169). -/
def threadingAlgorithm : Gen ThreadingAlgorithm := return .ofAtom (← atom)

/-! ### Numbers, sequence sets and dates -/

omit [Entropy] q

/-- `SeqOrUid` (imap-types/src/sequence.rs:319-324). -/
def seqOrUid : Gen SeqOrUid := oneOf [return .value (← nz32), pure .asterisk]

/-- `Sequence` (imap-types/src/sequence.rs:207-212). -/
def sequence : Gen Sequence := oneOf [return .single (← seqOrUid), return .range (← seqOrUid) (← seqOrUid)]

/-- `SequenceSet` (imap-types/src/sequence.rs:33-36). -/
def sequenceSet : Gen SequenceSet := vec1 sequence

/-- `chrono::NaiveDate`: a date of the Gregorian calendar. A date before the year 0 is `none`. -/
def chronoDate : Gen (Option NaiveDate) := any fun d => ∀ x ∈ d, ∃ y m d, fromYmdOpt y m d = some x

/-- `NaiveDate` (imap-types/src/arbitrary.rs:522-527) with `NaiveDate::validate` (imap-types/src/datetime.rs:99-106). -/
def naiveDate : Gen NaiveDate := do
  match ← chronoDate with
  | some d => if d.year ≤ 9999 then return d else fail
  | none => fail

/-- `DateTime` (imap-types/src/arbitrary.rs:494-520) with `DateTime::validate` (imap-types/src/datetime.rs:18-38).
`chrono::NaiveTime` is the number of seconds since midnight and the number of nanoseconds, which are more than a second in a leap
second. `FixedOffset::east_opt` returns `None` if the offset is a day or longer. `from_local_datetime` always succeeds, because dates with
years from 0 to 9999 are far from the limits of `chrono`. -/
def dateTime : Gen DateTime := do
  let year ← intIn 0 9999
  let month ← intIn 1 12
  let day ← intIn 1 31
  match fromYmdOpt year month day with
  | none => fail
  | some date =>
    let secs ← any (· < 86400)
    let nanos ← any (· < 2000000000)
    let hours ← intIn 0 (23 * 3600)
    let minutes ← intIn 0 59
    let offset := hours + minutes * 60
    if 86400 ≤ offset then panic
    else if nanos ≠ 0 then fail
    else if offset % 60 ≠ 0 then fail
    else return ⟨date, secs / 3600, secs / 60 % 60, secs % 60, offset⟩

/-! ### Fetch -/

variable [Entropy] [q : Quirks]

omit [Entropy] q in
/-- `Part` (imap-types/src/fetch.rs:459-462). -/
def part : Gen (List NzU32) := vec1 nz32

/-- `Section` (imap-types/src/fetch.rs:434-456). -/
def section_ : Gen Section := oneOf [return .part (← part), return .header (← opt part),
  return .headerFields (← opt part) (← vec1 astring), return .headerFieldsNot (← opt part) (← vec1 astring),
  return .text (← opt part), return .mime (← part)]

omit [Entropy] q in
/-- The field `partial` (imap-types/src/fetch.rs:124, 205). -/
def partial_ : Gen (Option (Nat × NzU32)) := opt (return (← u32, ← nz32))

/-- `MessageDataItemName` (imap-types/src/fetch.rs:87-246). -/
def messageDataItemName : Gen MessageDataItemName := oneOf [pure .body, return .bodyExt (← opt section_) (← partial_) (← bool),
  pure .bodyStructure, pure .envelope, pure .flags, pure .internalDate, pure .rfc822, pure .rfc822Header, pure .rfc822Size,
  pure .rfc822Text, pure .uid, return .binary (← vec nz32) (← partial_) (← bool), return .binarySize (← vec nz32),
  onlyIf q.extCondstoreQresync (pure .modSeq)]

omit [Entropy] q in
/-- `Macro` (imap-types/src/fetch.rs:27-36). -/
def macro_ : Gen Macro := oneOf [pure .fast, pure .all, pure .full]

/-- `MacroOrMessageDataItemNames` (imap-types/src/fetch.rs:65-70). -/
def macroOrNames : Gen MacroOrNames := oneOf [return .macro_ (← macro_), return .names (← vec messageDataItemName)]

/-! ### Search keys -/

/-- `arbitrary_search_key_leaf` (imap-types/src/arbitrary.rs:310-348). -/
def searchKeyLeaf : Gen SearchKey := do
  match ← intIn 0 33 with
  | 0 => return .sequenceSet (← sequenceSet)
  | 1 => return .all
  | 2 => return .answered
  | 3 => return .bcc (← astring)
  | 4 => return .before (← naiveDate)
  | 5 => return .body (← astring)
  | 6 => return .cc (← astring)
  | 7 => return .deleted
  | 8 => return .draft
  | 9 => return .flagged
  | 10 => return .from_ (← astring)
  | 11 => return .header (← astring) (← astring)
  | 12 => return .keyword (← atom)
  | 13 => return .larger (← u32)
  | 14 => return .new
  | 15 => return .old
  | 16 => return .on (← naiveDate)
  | 17 => return .recent
  | 18 => return .seen
  | 19 => return .sentBefore (← naiveDate)
  | 20 => return .sentOn (← naiveDate)
  | 21 => return .sentSince (← naiveDate)
  | 22 => return .since (← naiveDate)
  | 23 => return .smaller (← u32)
  | 24 => return .subject (← astring)
  | 25 => return .text (← astring)
  | 26 => return .to (← astring)
  | 27 => return .uid (← sequenceSet)
  | 28 => return .unanswered
  | 29 => return .undeleted
  | 30 => return .undraft
  | 31 => return .unflagged
  | 32 => return .unkeyword (← atom)
  | 33 => return .unseen
  | _ => panic

omit [Entropy] q in
/-- `EntryTypeReq` (imap-types/src/extensions/condstore_qresync.rs:71-77). -/
def entryTypeReq : Gen EntryTypeReq := oneOf [pure .private_, pure .shared, pure .all]

/-- `if !keys.is_empty() { Vec1::try_from(keys).unwrap() } else { Vec1::from(leaf(u)?) }` (imap-types/src/arbitrary.rs:256-260,
401-405, 471-475). -/
def nonEmptyOr {α : Type} (keys : List α) (leaf : Gen α) : Gen (List α) :=
  if keys.isEmpty then return [← leaf] else unwrap (VecN.tryFrom 1 keys)

/-- `arbitrary_search_key_limited` (imap-types/src/arbitrary.rs:228-308). -/
def searchKeyLimited : (depth : Nat) → Gen SearchKey
  | 0 => searchKeyLeaf
  | depth + 1 => do
    match ← intIn 0 (if q.extCondstoreQresync then 37 else 36) with
    | 0 => return .and (← nonEmptyOr (← vec (searchKeyLimited depth)) searchKeyLeaf)
    | 1 => return .sequenceSet (← sequenceSet)
    | 2 => return .all
    | 3 => return .answered
    | 4 => return .bcc (← astring)
    | 5 => return .before (← naiveDate)
    | 6 => return .body (← astring)
    | 7 => return .cc (← astring)
    | 8 => return .deleted
    | 9 => return .draft
    | 10 => return .flagged
    | 11 => return .from_ (← astring)
    | 12 => return .header (← astring) (← astring)
    | 13 => return .keyword (← atom)
    | 14 => return .larger (← u32)
    | 15 => return .new
    | 16 => return .not (← searchKeyLimited depth)
    | 17 => return .old
    | 18 => return .on (← naiveDate)
    | 19 => return .or (← searchKeyLimited depth) (← searchKeyLimited depth)
    | 20 => return .recent
    | 21 => return .seen
    | 22 => return .sentBefore (← naiveDate)
    | 23 => return .sentOn (← naiveDate)
    | 24 => return .sentSince (← naiveDate)
    | 25 => return .since (← naiveDate)
    | 26 => return .smaller (← u32)
    | 27 => return .subject (← astring)
    | 28 => return .text (← astring)
    | 29 => return .to (← astring)
    | 30 => return .uid (← sequenceSet)
    | 31 => return .unanswered
    | 32 => return .undeleted
    | 33 => return .undraft
    | 34 => return .unflagged
    | 35 => return .unkeyword (← atom)
    | 36 => return .unseen
    | 37 =>
      if q.extCondstoreQresync then return .modSequence (← opt (return (← attributeFlag, ← entryTypeReq))) (← u64)
      else panic
    | _ => panic

/-- `SearchKey` (imap-types/src/arbitrary.rs:219-226). -/
def searchKey [e : Entropy] : Gen SearchKey := if e.simplified then searchKeyLeaf else searchKeyLimited 7

/-! ### Commands -/

omit [Entropy] in
/-- `SelectParameter` (imap-types/src/command.rs:1856-1871). -/
def selectParameter : Gen SelectParameter := oneOf [pure .condStore,
  return .qresync (← nz32) (← nz64) (← opt sequenceSet) (← opt (return (← sequenceSet, ← sequenceSet)))]

omit [Entropy] q in
/-- `FetchModifier` (imap-types/src/command.rs:1873-1882). -/
def fetchModifier : Gen FetchModifier := oneOf [return .changedSince (← nz64), pure .vanished]

omit [Entropy] in
/-- `StatusDataItemName` (imap-types/src/status.rs:11-38). -/
def statusDataItemName : Gen StatusDataItemName := oneOf [pure .messages, pure .recent, pure .uidNext, pure .uidValidity,
  pure .unseen, pure .deleted, pure .deletedStorage, onlyIf q.extCondstoreQresync (pure .highestModSeq)]

omit q in
/-- `QuotaSet` (imap-types/src/extensions/quota.rs:244-250). -/
def quotaSet : Gen QuotaSet := return ⟨← resource, ← u64⟩

omit [Entropy] q in
/-- `SortKey` (imap-types/src/extensions/sort.rs:60-76). -/
def sortKey : Gen SortKey := oneOf [pure .arrival, pure .cc, pure .date, pure .from_, pure .size, pure .subject, pure .to,
  pure .displayFrom, pure .displayTo]

omit [Entropy] q in
/-- `SortCriterion` (imap-types/src/extensions/sort.rs:52-57). -/
def sortCriterion : Gen SortCriterion := return ⟨← bool, ← sortKey⟩

omit [Entropy] q in
/-- `StoreType` (imap-types/src/flag.rs:205-211). -/
def storeType : Gen StoreType := oneOf [pure .replace, pure .add, pure .remove]

omit [Entropy] q in
/-- `StoreResponse` (imap-types/src/flag.rs:214-219). -/
def storeResponse : Gen StoreResponse := oneOf [pure .answer, pure .silent]

/-- The field `parameters` of `Id` (imap-types/src/command.rs:1505, imap-types/src/response.rs:570). -/
def idParams : Gen (Option IdParams) := opt (vec (return (← istring, ← nstring)))

/-- `EntryValue` (imap-types/src/extensions/metadata.rs:12-18). -/
def entryValue : Gen EntryValue := return ⟨← astring, ← nstring8⟩

omit [Entropy] q in
/-- `GetMetadataOption` and `Depth` (imap-types/src/extensions/metadata.rs:48-75). -/
def getMetadataOption : Gen GetMetadataOption := oneOf [return .maxSize (← u32),
  oneOf [pure .depthNull, pure .depthOne, pure .depthInfinity]]

/-- `CommandBody` (imap-types/src/command.rs:71-1545). -/
def commandBody : Gen CommandBody := oneOf [
  pure .capability,
  pure .noop,
  pure .logout,
  onlyIf q.starttls (pure .startTls),
  return .authenticate (← mechanism) (← opt bytes),
  return .login (← astring) (← astring),
  return .select (← mailbox) (← field q.extCondstoreQresync [] (vec selectParameter)),
  pure .unselect,
  return .examine (← mailbox) (← field q.extCondstoreQresync [] (vec selectParameter)),
  return .create (← mailbox),
  return .delete (← mailbox),
  return .rename (← mailbox) (← mailbox),
  return .subscribe (← mailbox),
  return .unsubscribe (← mailbox),
  return .list (← mailbox) (← listMailbox),
  return .lsub (← mailbox) (← listMailbox),
  return .status (← mailbox) (← vec statusDataItemName),
  return .append (← mailbox) (← vec flag) (← opt dateTime) (← literalOrLiteral8),
  pure .check,
  pure .close,
  pure .expunge,
  return .expungeUid (← sequenceSet),
  return .search (← opt charset) (← vec1 searchKey) (← bool),
  return .sort (← vec1 sortCriterion) (← charset) (← vec1 searchKey) (← bool),
  return .thread (← threadingAlgorithm) (← charset) (← vec1 searchKey) (← bool),
  return .fetch (← sequenceSet) (← macroOrNames) (← bool) (← field q.extCondstoreQresync [] (vec fetchModifier)),
  return .store (← sequenceSet) (← storeType) (← storeResponse) (← vec flag) (← bool) (← field q.extCondstoreQresync [] (vec u64)),
  return .copy (← sequenceSet) (← mailbox) (← bool),
  pure .idle,
  return .enable (← vec1 capabilityEnable),
  pure .compress,
  return .getQuota (← astring),
  return .getQuotaRoot (← mailbox),
  return .setQuota (← astring) (← vec quotaSet),
  return .move (← sequenceSet) (← mailbox) (← bool),
  onlyIf q.extId (return .id (← idParams)),
  onlyIf q.extMetadata (return .setMetadata (← mailbox) (← vec1 entryValue)),
  onlyIf q.extMetadata (return .getMetadata (← vec getMetadataOption) (← mailbox) (← vec1 astring)),
  onlyIf q.extNamespace (pure .namespace_)]

/-- `Command` (imap-types/src/command.rs:40-48). -/
def command : Gen Command := return ⟨← tag, ← commandBody⟩

omit q in
/-- `AuthenticateData` (imap-types/src/auth.rs:208-218). -/
def authenticateData : Gen AuthenticateData := oneOf [return .continue_ (← bytes), pure .cancel]

/-! ### Envelopes and body structures -/

/-- `Address` (imap-types/src/envelope.rs:40-51). -/
def address : Gen Address := return ⟨← nstring, ← nstring, ← nstring, ← nstring⟩

/-- `Envelope` (imap-types/src/envelope.rs:11-24). -/
def envelope : Gen Envelope := return ⟨← nstring, ← nstring, ← vec address, ← vec address, ← vec address, ← vec address, ← vec address,
  ← vec address, ← nstring, ← nstring⟩

/-- `arbitrary_body_extension_leaf` (imap-types/src/arbitrary.rs:483-492). -/
def bodyExtensionLeaf : Gen BodyExtension := do
  match ← intIn 1 2 with
  | 1 => return .nstring (← nstring)
  | 2 => return .number (← u32)
  | _ => panic

/-- `arbitrary_body_extension_limited` (imap-types/src/arbitrary.rs:449-481). The range of the choice is `1..=2`, so that the third case
never happens. -/
def bodyExtensionLimited : (depth : Nat) → Gen BodyExtension
  | 0 => bodyExtensionLeaf
  | depth + 1 => do
    match ← intIn 1 2 with
    | 1 => return .nstring (← nstring)
    | 2 => return .number (← u32)
    | 3 => return .list (← nonEmptyOr (← vec (bodyExtensionLimited depth)) bodyExtensionLeaf)
    | _ => panic

/-- `BodyExtension` (imap-types/src/arbitrary.rs:440-447). -/
def bodyExtension [e : Entropy] : Gen BodyExtension := if e.simplified then bodyExtensionLeaf else bodyExtensionLimited 3

/-- A list of parameters (imap-types/src/body.rs:31, 282, 296). -/
def params : Gen Params := vec (return (← istring, ← istring))

/-- `Location` (imap-types/src/body.rs:318-326). -/
def location : Gen Location := return ⟨← nstring, ← vec bodyExtension⟩

/-- `Language` (imap-types/src/body.rs:305-314). -/
def language : Gen Language := return ⟨← vec istring, ← opt location⟩

/-- `Disposition` (imap-types/src/body.rs:291-301). -/
def disposition : Gen Disposition := return ⟨← opt (return (← istring, ← params)), ← opt language⟩

/-- `SinglePartExtensionData` (imap-types/src/body.rs:252-260). -/
def singlePartExt : Gen SinglePartExt := return ⟨← nstring, ← opt disposition⟩

/-- `MultiPartExtensionData` (imap-types/src/body.rs:277-287). -/
def multiPartExt : Gen MultiPartExt := return ⟨← params, ← opt disposition⟩

/-- `BasicFields` (imap-types/src/body.rs:26-46). -/
def basicFields : Gen BasicFields := return ⟨← params, ← nstring, ← nstring, ← istring, ← u32⟩

/-- `arbitrary_body_structure_leaf` (imap-types/src/arbitrary.rs:417-438). -/
def bodyStructureLeaf : Gen BodyStructure := do
  let basic ← basicFields
  match ← intIn 1 2 with
  | 1 => return .basic basic (← istring) (← istring) (← opt singlePartExt)
  | 2 => return .text basic (← istring) (← u32) (← opt singlePartExt)
  | _ => panic

/-- `arbitrary_body_structure_limited` (imap-types/src/arbitrary.rs:359-415). -/
def bodyStructureLimited : (depth : Nat) → Gen BodyStructure
  | 0 => bodyStructureLeaf
  | depth + 1 => do
    match ← intIn 1 2 with
    | 1 =>
      let basic ← basicFields
      match ← intIn 1 3 with
      | 1 => return .basic basic (← istring) (← istring) (← opt singlePartExt)
      | 2 => return .message basic (← envelope) (← bodyStructureLimited depth) (← u32) (← opt singlePartExt)
      | 3 => return .text basic (← istring) (← u32) (← opt singlePartExt)
      | _ => panic
    | 2 => return .multi (← nonEmptyOr (← vec (bodyStructureLimited depth)) bodyStructureLeaf) (← istring) (← opt multiPartExt)
    | _ => panic

/-- `BodyStructure` (imap-types/src/arbitrary.rs:350-357). -/
def bodyStructure [e : Entropy] : Gen BodyStructure := if e.simplified then bodyStructureLeaf else bodyStructureLimited 3

/-! ### Responses -/

omit [Entropy] q in
/-- `UidElement` (imap-types/src/extensions/uidplus.rs:17-22). -/
def uidElement : Gen UidElement := oneOf [return .single (← nz32), return .range (← nz32) (← nz32)]

omit [Entropy] q in
/-- `MetadataCode` (imap-types/src/extensions/metadata.rs:77-86). -/
def metadataCode : Gen MetadataCode := oneOf [return .longEntries (← u32), return .maxSize (← u32), pure .tooMany, pure .noPrivate]

/-- `Code` (imap-types/src/response.rs:780-976) and `CodeOther` (imap-types/src/arbitrary.rs:212-217). -/
def code : Gen Code := oneOf [
  pure .alert,
  return .badCharset (← vec charset),
  return .capability (← vec1 capability),
  pure .parse,
  return .permanentFlags (← vec flagPerm),
  pure .readOnly,
  pure .readWrite,
  pure .tryCreate,
  return .uidNext (← nz32),
  return .uidValidity (← nz32),
  return .unseen (← nz32),
  onlyIf (q.extMailboxReferrals || q.extLoginReferrals) (return .referral (← str)),
  pure .compressionActive,
  pure .overQuota,
  pure .tooBig,
  onlyIf q.extMetadata (return .metadata (← metadataCode)),
  pure .unknownCte,
  return .appendUid (← nz32) (← nz32),
  return .copyUid (← nz32) (← vec1 uidElement) (← vec1 uidElement),
  pure .uidNotSticky,
  onlyIf q.extCondstoreQresync (return .highestModSeq (← nz64)),
  onlyIf q.extCondstoreQresync (return .modified (← sequenceSet)),
  onlyIf q.extCondstoreQresync (pure .noModSeq),
  onlyIf q.extCondstoreQresync (pure .closed),
  pure (.other b!"IMAP-CODEC-CODE-OTHER>")]

/-- A text that does not start with `[` (imap-types/src/arbitrary.rs:97-105, 117-123). -/
def textNoBracket : Gen Bytes := do
  let text ← text
  if text.head? = some 91 then unwrap (Text.tryFrom b!"...") else return text

omit [Entropy] q in
/-- `GreetingKind` (imap-types/src/response.rs:98-113). -/
def greetingKind : Gen GreetingKind := oneOf [pure .ok, pure .preAuth, pure .bye]

/-- `Greeting` (imap-types/src/arbitrary.rs:91-107). -/
def greeting : Gen Greeting := return ⟨← greetingKind, ← opt code, ← textNoBracket⟩

/-- `Status` (imap-types/src/arbitrary.rs:110-167). -/
def status : Gen Status := do
  let code ← opt code
  let text ← (if code.isSome then text else textNoBracket : Gen Bytes)
  match ← intIn 0 3 with
  | 0 =>
    match ← opt tag with
    | some tag => return .tagged tag .ok code text
    | none => return .untagged .ok code text
  | 1 =>
    match ← opt tag with
    | some tag => return .tagged tag .no code text
    | none => return .untagged .no code text
  | 2 =>
    match ← opt tag with
    | some tag => return .tagged tag .bad code text
    | none => return .untagged .bad code text
  | 3 => return .bye code text
  | _ => panic

/-- `CommandContinuationRequest` (imap-types/src/response.rs:679-685) and `CommandContinuationRequestBasic`
(imap-types/src/arbitrary.rs:83-88). -/
def continueReq : Gen ContinueReq := oneOf [
  do
    let code ← opt code
    let text ← text
    of (ContinueReq.mkBasic code (.ok text : Made Unit Bytes)),
  return .base64 (← bytes)]

omit [Entropy] in
/-- `StatusDataItem` (imap-types/src/status.rs:44-79). -/
def statusDataItem : Gen StatusDataItem := oneOf [return .messages (← u32), return .recent (← u32), return .uidNext (← nz32),
  return .uidValidity (← nz32), return .unseen (← u32), return .deleted (← u32), return .deletedStorage (← u64),
  onlyIf q.extCondstoreQresync (return .highestModSeq (← u64))]

/-- `MessageDataItem` (imap-types/src/fetch.rs:251-387). -/
def messageDataItem : Gen MessageDataItem := oneOf [
  return .body (← bodyStructure),
  return .bodyExt (← opt section_) (← opt u32) (← nstring),
  return .bodyStructure (← bodyStructure),
  return .envelope (← envelope),
  return .flags (← vec flagFetch),
  return .internalDate (← dateTime),
  return .rfc822 (← nstring),
  return .rfc822Header (← nstring),
  return .rfc822Size (← u32),
  return .rfc822Text (← nstring),
  return .uid (← nz32),
  return .binary (← vec nz32) (← nstring8),
  return .binarySize (← vec nz32) (← u32),
  onlyIf q.extCondstoreQresync (return .modSeq (← nz64))]

omit [Entropy] q in
/-- `arbitrary_thread_leaf` (imap-types/src/extensions/thread.rs:131-137). -/
def threadLeaf : Gen Thread := return .members (← vec1 nz32) []

omit [Entropy] q in
/-- The loop of `arbitrary_thread_limited` (imap-types/src/extensions/thread.rs:108-128), with the number of iterations that are left. -/
def threadLoop : (depth : Nat) → (current : Thread) → Gen Thread
  | 0, current => return current
  | depth + 1, current => do
    match ← intIn 0 2 with
    | 0 =>
      let pre ← vec1 nz32
      threadLoop depth (.members pre (← unwrap (VecN.tryFrom 2 [current, current])))
    | 1 => threadLoop depth (.nested (← unwrap (VecN.tryFrom 2 [current, current])))
    | 2 => return current
    | _ => panic

/-- `Thread` and `arbitrary_thread_limited` (imap-types/src/extensions/thread.rs:92-129). -/
def thread [e : Entropy] : Gen Thread := if e.simplified then threadLeaf else do threadLoop 7 (← threadLeaf)

/-- `NamespaceResponseExtension` (imap-types/src/extensions/namespace.rs:90-96). -/
def namespaceExt : Gen NamespaceExt := return ⟨← istring, ← vec1 istring⟩

/-- `Namespace` (imap-types/src/extensions/namespace.rs:69-77). -/
def namespace_ : Gen Namespace := return ⟨← istring, ← opt quotedChar, ← vec namespaceExt⟩

omit q in
/-- `QuotaGet` (imap-types/src/extensions/quota.rs:223-230). -/
def quotaGet : Gen QuotaGet := return ⟨← resource, ← u64, ← u64⟩

/-- `MetadataResponse` (imap-types/src/extensions/metadata.rs:88-95). -/
def metadataResponse : Gen MetadataResponse := oneOf [return .withValues (← vec1 entryValue), return .withoutValues (← vec1 astring)]

/-- `Data` (imap-types/src/response.rs:316-606). -/
def data : Gen Data := oneOf [
  return .capability (← vec1 capability),
  return .list (← vec flagNameAttribute) (← opt quotedChar) (← mailbox),
  return .lsub (← vec flagNameAttribute) (← opt quotedChar) (← mailbox),
  return .status (← mailbox) (← vec statusDataItem),
  return .search (← vec nz32) (← field q.extCondstoreQresync none (opt nz64)),
  return .sort (← vec nz32) (← field q.extCondstoreQresync none (opt nz64)),
  return .thread (← vec thread),
  return .flags (← vec flag),
  return .exists_ (← u32),
  return .recent (← u32),
  return .expunge (← nz32),
  return .fetch (← nz32) (← vec1 messageDataItem),
  return .enabled (← vec capabilityEnable),
  return .quota (← astring) (← vec1 quotaGet),
  return .quotaRoot (← mailbox) (← vec astring),
  onlyIf q.extId (return .id_ (← idParams)),
  onlyIf q.extMetadata (return .metadata (← mailbox) (← metadataResponse)),
  onlyIf q.extCondstoreQresync (return .vanished (← bool) (← sequenceSet)),
  onlyIf q.extNamespace (return .namespace_ (← vec namespace_) (← vec namespace_) (← vec namespace_))]

/-- `Response` (imap-types/src/response.rs:117-135). -/
def response : Gen Response := oneOf [return .continue_ (← continueReq), return .data (← data), return .status (← status)]

/-- The generator for the messages of a codec. `IdleDone` is a unit struct (imap-types/src/extensions/idle.rs:23-26). -/
def message : (k : Codec) → Gen k.Message
  | .greeting => greeting
  | .command => command
  | .authenticateData => authenticateData
  | .response => response
  | .idleDone => pure ()

end Imap.Arb
