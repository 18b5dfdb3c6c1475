import Verif.FetchName
import Verif.Search
/-
Commands: imap-types/src/command.rs, imap-codec/src/command.rs, imap-codec/src/search.rs, imap-codec/src/extensions/*.rs,
imap-codec/src/codec/encode.rs.
-/
namespace Imap

/-! ### Arguments -/

/-- The type invariants of `NonZeroU64`. -/
def isNonZeroU64 (n : Nat) : Bool := 0 < n && n < 18446744073709551616

/-- The type invariants of `Option<SequenceSet>`. -/
def isSetOpt : Option SequenceSet → Bool
  | none => true
  | some s => s.wf

/-- The type invariants of `Option<(SequenceSet, SequenceSet)>`. -/
def isSetPairOpt : Option (SequenceSet × SequenceSet) → Bool
  | none => true
  | some (a, b) => a.wf && b.wf

/-- `SelectParameter` (imap-types/src/command.rs:1862-1870). -/
inductive SelectParameter where
  | condStore
  | qresync (uidValidity modSequenceValue : Nat) (knownUids : Option SequenceSet) (seqMatchData : Option (SequenceSet × SequenceSet))
  deriving DecidableEq, Repr

/-- The type invariants of `SelectParameter`, a type that exists only with a feature. -/
def SelectParameter.valid [q : Quirks] : SelectParameter → Bool
  | .condStore => q.extCondstoreQresync
  | .qresync u m k s => q.extCondstoreQresync && isNonZeroU32 u && isNonZeroU64 m && isSetOpt k && isSetPairOpt s

/-- `SelectParameter::encode_ctx` (imap-codec/src/codec/encode.rs:716-748). -/
def SelectParameter.enc [Quirks] : SelectParameter → List W
  | .condStore => [.wr b!"CONDSTORE"]
  | .qresync u m k s =>
    [.wr b!"QRESYNC (", .wr (showNat u), .wr b!" ", .wr (showNat m)] ++
      ((match k with
        | none => []
        | some k => .wr b!" " :: encSet k) ++
      ((match s with
        | none => []
        | some (a, b) => .wr b!" (" :: encSet a ++ .wr b!" " :: encSet b ++ [.wr b!")"]) ++
      [.wr b!")"]))

/-- Normalization of the sequence sets (see `SearchKey.norm`). -/
def SelectParameter.norm [Quirks] : SelectParameter → SelectParameter
  | .condStore => .condStore
  | .qresync u m k s => .qresync u m (k.map normSet) (s.map fun x => (normSet x.1, normSet x.2))

/-- The second half of `select_param` (imap-codec/src/command.rs:382-408). -/
def qresync [Quirks] : P SelectParameter := do
  tagNC b!"QRESYNC ("
  let u ← nzNumber
  sp
  let m ← modSequenceValue
  let k ← opt (do sp; sequenceSet)
  let s ← opt (do
    sp
    char 40
    let a ← sequenceSet
    sp
    let b ← sequenceSet
    char 41
    return (a, b))
  char 41
  return .qresync u m k s

/-- `select_param` (imap-codec/src/command.rs:378-410). -/
def selectParam [Quirks] : P SelectParameter :=
  gate Quirks.extCondstoreQresync (alt [value .condStore (tagNC b!"CONDSTORE"), qresync])

/-- `select_params` (imap-codec/src/command.rs:329-332). -/
def selectParams [Quirks] : P (List SelectParameter) := gate Quirks.extCondstoreQresync do
  tag b!" ("
  let l ← sepList1 sp selectParam
  tag b!")"
  return l

/-- `FetchModifier` (imap-types/src/command.rs:1878-1881). -/
inductive FetchModifier where
  | changedSince (n : Nat)
  | vanished
  deriving DecidableEq, Repr

/-- The type invariants of `FetchModifier`, a type that exists only with a feature. -/
def FetchModifier.valid [q : Quirks] : FetchModifier → Bool
  | .changedSince n => q.extCondstoreQresync && isNonZeroU64 n
  | .vanished => q.extCondstoreQresync

/-- `FetchModifier::encode_ctx` (imap-codec/src/codec/encode.rs:697-704). -/
def FetchModifier.enc : FetchModifier → List W
  | .changedSince n => [.wr b!"CHANGEDSINCE ", .wr (showNat n)]
  | .vanished => [.wr b!"VANISHED"]

/-- `fetch_modifier` (imap-codec/src/command.rs:673-681). -/
def fetchModifier [Quirks] : P FetchModifier :=
  gate Quirks.extCondstoreQresync
    (alt [.changedSince <$> (do tagNC b!"CHANGEDSINCE "; modSequenceValue), value .vanished (tagNC b!"VANISHED")])

/-- `fetch_modifiers` (imap-codec/src/command.rs:643-645). -/
def fetchModifiers [Quirks] : P (List FetchModifier) := gate Quirks.extCondstoreQresync do
  tag b!" ("
  let l ← sepList1 sp fetchModifier
  char 41
  return l

/-- `StoreModifier` (imap-types/src/command.rs:1889-1891): `UnchangedSince(u64)` is its only variant. -/
abbrev StoreModifier := Nat

/-- The type invariants of `StoreModifier`, a type that exists only with a feature. -/
def isStoreModifier [q : Quirks] (n : StoreModifier) : Bool := q.extCondstoreQresync && n < 18446744073709551616

/-- `StoreModifier::encode_ctx` (imap-codec/src/codec/encode.rs:707-713). -/
def encStoreModifier (n : StoreModifier) : List W := [.wr b!"UNCHANGEDSINCE ", .wr (showNat n)]

/-- `store_modifier` (imap-codec/src/command.rs:745-750). -/
def storeModifier [Quirks] : P StoreModifier := gate Quirks.extCondstoreQresync do
  tagNC b!"UNCHANGEDSINCE "
  modSequenceValzer

/-- `store_modifiers` (imap-codec/src/command.rs:724-726). -/
def storeModifiers [Quirks] : P (List StoreModifier) := gate Quirks.extCondstoreQresync do
  tag b!" ("
  let l ← sepList1 sp storeModifier
  char 41
  return l

/-- `StoreType` (imap-types/src/flag.rs:205-212). -/
inductive StoreType where
  | replace | add | remove
  deriving DecidableEq, Repr

/-- `StoreResponse` (imap-types/src/flag.rs:214-220). -/
inductive StoreResponse where
  | answer | silent
  deriving DecidableEq, Repr

/-- `store_att_flags` (imap-codec/src/command.rs:753-783). -/
def storeAttFlags : P (StoreType × StoreResponse × List Flag) := do
  let t ← opt (alt [value StoreType.add (tag b!"+"), value StoreType.remove (tag b!"-")])
  tagNC b!"FLAGS"
  let s ← opt (tagNC b!".SILENT")
  sp
  let l ← alt [flagList, sepList1 sp flag]
  return (t.getD .replace, if s.isSome then .silent else .answer, l)

/-- `CapabilityEnable` (imap-types/src/extensions/enable.rs:37-54). -/
inductive CapabilityEnable where
  | condStore | metadata | metadataServer | utf8Accept | utf8Only
  | other (a : Bytes)
  deriving DecidableEq, Repr

/-- The capability is a part of the type in this build (imap-types/src/extensions/enable.rs:42-52). -/
def CapabilityEnable.present [q : Quirks] : CapabilityEnable → Bool
  | .condStore => q.extCondstoreQresync
  | .metadata | .metadataServer => q.extMetadata
  | .utf8Accept | .utf8Only => q.extUtf8
  | .other _ => true

/-- `From<Atom> for CapabilityEnable` (imap-types/src/extensions/enable.rs:64-80). -/
def CapabilityEnable.ofAtom [q : Quirks] (a : Bytes) : CapabilityEnable :=
  let l := lowerAll a
  if q.extCondstoreQresync ∧ l = b!"condstore" then .condStore
  else if q.extMetadata ∧ l = b!"metadata" then .metadata
  else if q.extMetadata ∧ l = b!"metadata-server" then .metadataServer
  else if q.extUtf8 ∧ l = b!"utf8=accept" then .utf8Accept
  else if q.extUtf8 ∧ l = b!"utf8=only" then .utf8Only
  else .other a

/-- The type invariants of `CapabilityEnable`: `CapabilityEnableOther` can only be created by the conversion from atoms. -/
def CapabilityEnable.valid [Quirks] : CapabilityEnable → Bool
  | .other a => isAtom a && decide (CapabilityEnable.ofAtom a = .other a)
  | c => c.present

/-- `Display for CapabilityEnable` (imap-types/src/extensions/enable.rs:82-96). -/
def CapabilityEnable.name : CapabilityEnable → Bytes
  | .condStore => b!"CONDSTORE"
  | .metadata => b!"METADATA"
  | .metadataServer => b!"METADATA-SERVER"
  | .utf8Accept => b!"UTF8=ACCEPT"
  | .utf8Only => b!"UTF8=ONLY"
  | .other a => a

/-- `CapabilityEnable::encode_ctx` (imap-codec/src/extensions/enable.rs:69-73). -/
def CapabilityEnable.enc (c : CapabilityEnable) : List W := [.wr c.name]

/-- `capability_enable` (imap-codec/src/extensions/enable.rs:53-55). -/
def capabilityEnable [Quirks] : P CapabilityEnable := CapabilityEnable.ofAtom <$> atom

/-- `Resource` (imap-types/src/extensions/quota.rs:122-182). -/
inductive Resource where
  | storage | message | mailbox | annotationStorage
  | other (a : Bytes)
  deriving DecidableEq, Repr

/-- `From<Atom> for Resource` (imap-types/src/extensions/quota.rs:197-207). -/
def Resource.ofAtom (a : Bytes) : Resource :=
  let u := upperAll a
  if u = b!"STORAGE" then .storage
  else if u = b!"MESSAGE" then .message
  else if u = b!"MAILBOX" then .mailbox
  else if u = b!"ANNOTATION-STORAGE" then .annotationStorage
  else .other a

/-- The type invariants of `Resource`: `ResourceOther` can only be created by the conversion from atoms. -/
def Resource.valid : Resource → Bool
  | .other a => isAtom a && decide (Resource.ofAtom a = .other a)
  | _ => true

/-- `Display for Resource` (imap-types/src/extensions/quota.rs:209-219). -/
def Resource.name : Resource → Bytes
  | .storage => b!"STORAGE"
  | .message => b!"MESSAGE"
  | .mailbox => b!"MAILBOX"
  | .annotationStorage => b!"ANNOTATION-STORAGE"
  | .other a => a

/-- `resource_name` (imap-codec/src/extensions/quota.rs:96-98). -/
def resourceName : P Resource := Resource.ofAtom <$> atom

/-- `QuotaSet` (imap-types/src/extensions/quota.rs:242-250). -/
structure QuotaSet where
  resource : Resource
  limit : Nat
  deriving DecidableEq, Repr

/-- The type invariants of `QuotaSet`. -/
def QuotaSet.valid (q : QuotaSet) : Bool := q.resource.valid && q.limit < 18446744073709551616

/-- `QuotaSet::encode_ctx` (imap-codec/src/extensions/quota.rs:211-216). -/
def QuotaSet.enc (q : QuotaSet) : List W := [.wr q.resource.name, .wr b!" ", .wr (showNat q.limit)]

/-- `setquota_resource` (imap-codec/src/extensions/quota.rs:159-165). -/
def setquotaResource : P QuotaSet := do
  let r ← resourceName
  sp
  let l ← number64
  return ⟨r, l⟩

/-- `SortKey` (imap-types/src/extensions/sort.rs:66-79). -/
inductive SortKey where
  | arrival | cc | date | from_ | size | subject | to | displayFrom | displayTo
  deriving DecidableEq, Repr

/-- `AsRef<str> for SortKey` (imap-types/src/extensions/sort.rs:79-93). -/
def SortKey.name : SortKey → Bytes
  | .arrival => b!"ARRIVAL"
  | .cc => b!"CC"
  | .date => b!"DATE"
  | .from_ => b!"FROM"
  | .size => b!"SIZE"
  | .subject => b!"SUBJECT"
  | .to => b!"TO"
  | .displayFrom => b!"DISPLAYFROM"
  | .displayTo => b!"DISPLAYTO"

/-- `sort_key` (imap-codec/src/extensions/sort.rs:76-88). -/
def sortKey : P SortKey :=
  alt [value .arrival (tagNC b!"ARRIVAL"), value .cc (tagNC b!"CC"), value .date (tagNC b!"DATE"), value .from_ (tagNC b!"FROM"),
    value .size (tagNC b!"SIZE"), value .subject (tagNC b!"SUBJECT"), value .to (tagNC b!"TO"),
    value .displayFrom (tagNC b!"DISPLAYFROM"), value .displayTo (tagNC b!"DISPLAYTO")]

/-- `SortCriterion` (imap-types/src/extensions/sort.rs:52-58). -/
structure SortCriterion where
  reverse : Bool
  key : SortKey
  deriving DecidableEq, Repr

/-- `SortCriterion::encode_ctx` (imap-codec/src/extensions/sort.rs:90-98). -/
def SortCriterion.enc (c : SortCriterion) : List W := [.wr (if c.reverse then b!"REVERSE " else []), .wr c.key.name]

/-- `sort_criterion` (imap-codec/src/extensions/sort.rs:62-71). -/
def sortCriterion : P SortCriterion := do
  let r ← opt (tagNC b!"REVERSE ")
  let k ← sortKey
  return ⟨r.isSome, k⟩

/-- `sort_criteria` (imap-codec/src/extensions/sort.rs:51-57). -/
def sortCriteria : P (List SortCriterion) := do
  tag b!"("
  let l ← sepList1 sp sortCriterion
  tag b!")"
  return l

/-- `ThreadingAlgorithm` (imap-types/src/extensions/thread.rs:139-146). -/
inductive ThreadingAlgorithm where
  | orderedSubject | references
  | other (a : Bytes)
  deriving DecidableEq, Repr

/-- `From<Atom> for ThreadingAlgorithm` (imap-types/src/extensions/thread.rs:148-156). `to_lowercase` is `to_ascii_lowercase` on an
`Atom`, which is ASCII. -/
def ThreadingAlgorithm.ofAtom (a : Bytes) : ThreadingAlgorithm :=
  let l := lowerAll a
  if l = b!"orderedsubject" then .orderedSubject
  else if l = b!"references" then .references
  else .other a

/-- The type invariants of `ThreadingAlgorithm`: `ThreadingAlgorithmOther` can only be created by the conversion from atoms. -/
def ThreadingAlgorithm.valid : ThreadingAlgorithm → Bool
  | .other a => isAtom a && decide (ThreadingAlgorithm.ofAtom a = .other a)
  | _ => true

/-- `ThreadingAlgorithm::encode_ctx` (imap-codec/src/extensions/thread.rs:31-39). -/
def ThreadingAlgorithm.name : ThreadingAlgorithm → Bytes
  | .orderedSubject => b!"ORDEREDSUBJECT"
  | .references => b!"REFERENCES"
  | .other a => a

/-- `thread_alg` (imap-codec/src/extensions/thread.rs:77-79). -/
def threadAlg : P ThreadingAlgorithm := ThreadingAlgorithm.ofAtom <$> atom

/-- The parameters of ID: `Vec<(IString, NString)>`. -/
abbrev IdParams := List (IString × NString)

/-- The type invariants of the parameters of ID. -/
def isIdParam [Quirks] (x : IString × NString) : Bool := x.1.valid && NString.valid x.2

/-- One pair of the parameters of ID (imap-codec/src/codec/encode.rs:625-634). -/
def encIdParam (x : IString × NString) : List W := x.1.enc ++ .wr b!" " :: encNString x.2

/-- The parameters of ID (imap-codec/src/codec/encode.rs:620-648; the same code for the response at 1403-1430). -/
def encIdParams [q : Quirks] : Option IdParams → List W
  | none => [.wr b!"NIL"]
  | some [] => [.wr (if q.idEmptyToNil then b!"NIL" else b!"()")]
  | some l => .wr b!"(" :: join b!" " (l.map encIdParam) ++ [.wr b!")"]

/-- The pairs of `id_params_list`. -/
def idParam [Quirks] : P (IString × NString) := do
  let k ← string
  sp
  let v ← nstring
  return (k, v)

/-- `id_params_list` (imap-codec/src/extensions/id.rs:52-74). -/
def idParamsList [q : Quirks] : P (Option IdParams) :=
  alt [some <$> (do
      tag b!"("
      let l ← sepList0 sp idParam
      if q.trailingSpaceId then (do let _ ← opt sp; tag b!")"; return l) else (do tag b!")"; return l)),
    value none nil]

/-- `id` (imap-codec/src/extensions/id.rs:31-33). -/
def idCommand [Quirks] : P (Option IdParams) := do
  tagNC b!"ID "
  idParamsList

/-- `Entry` (imap-types/src/extensions/metadata.rs:20-40): any `AString`. -/
abbrev Entry := AString

/-- `EntryValue` (imap-types/src/extensions/metadata.rs:13-20). -/
structure EntryValue where
  entry : Entry
  value : NString8
  deriving DecidableEq, Repr

/-- The type invariants of `EntryValue`. -/
def EntryValue.valid [Quirks] (e : EntryValue) : Bool := e.entry.valid && e.value.valid

/-- `EntryValue::encode_ctx` (imap-codec/src/extensions/metadata.rs:302-308). -/
def EntryValue.enc (e : EntryValue) : List W := e.entry.enc ++ .wr b!" " :: e.value.enc

/-- `entry` (imap-codec/src/extensions/metadata.rs:82-93). `Entry::try_from` never fails. -/
def entry [Quirks] : P Entry := astring

/-- `imap_value` (imap-codec/src/extensions/metadata.rs:99-104). -/
def imapValue [Quirks] : P NString8 := alt [.nstring <$> nstring, .literal8 <$> literal8]

/-- `entry_value` (imap-codec/src/extensions/metadata.rs:69-73). -/
def entryValue [Quirks] : P EntryValue := do
  let e ← entry
  sp
  let v ← imapValue
  return ⟨e, v⟩

/-- `entry_values` (imap-codec/src/extensions/metadata.rs:58-63). -/
def entryValues [Quirks] : P (List EntryValue) := do
  tag b!"("
  let l ← sepList1 sp entryValue
  tag b!")"
  return l

/-- `entries` (imap-codec/src/extensions/metadata.rs:175-183). -/
def entries [Quirks] : P (List Entry) :=
  alt [(fun e => [e]) <$> entry, do tag b!"("; let l ← sepList1 sp entry; tag b!")"; return l]

/-- `GetMetadataOption` and `Depth` (imap-types/src/extensions/metadata.rs:48-75). -/
inductive GetMetadataOption where
  | maxSize (n : Nat)
  | depthNull | depthOne | depthInfinity
  deriving DecidableEq, Repr

/-- The type invariants of `GetMetadataOption`. -/
def GetMetadataOption.valid : GetMetadataOption → Bool
  | .maxSize n => n < 4294967296
  | _ => true

/-- `GetMetadataOption::encode_ctx`, `Depth::encode_ctx` (imap-codec/src/extensions/metadata.rs:277-300). -/
def GetMetadataOption.enc : GetMetadataOption → List W
  | .maxSize n => [.wr b!"MAXSIZE ", .wr (showNat n)]
  | .depthNull => [.wr b!"DEPTH ", .wr b!"0"]
  | .depthOne => [.wr b!"DEPTH ", .wr b!"1"]
  | .depthInfinity => [.wr b!"DEPTH ", .wr b!"INFINITY"]

/-- `getmetadata_option` (imap-codec/src/extensions/metadata.rs:151-170). -/
def getmetadataOption : P GetMetadataOption :=
  alt [.maxSize <$> (do tagNC b!"MAXSIZE "; number),
    do
      tagNC b!"DEPTH "
      alt [value .depthNull (tag b!"0"), value .depthOne (tag b!"1"), value .depthInfinity (tagNC b!"infinity")]]

/-- `getmetadata_options` (imap-codec/src/extensions/metadata.rs:134-139). -/
def getmetadataOptions : P (List GetMetadataOption) := do
  tag b!"("
  let l ← sepList1 sp getmetadataOption
  tag b!")"
  return l

/-! ### Commands -/

/-- `CommandBody` (imap-types/src/command.rs:75-1546). The features ext_id, ext_metadata, ext_namespace, ext_condstore_qresync,
ext_utf8 and starttls are enabled; see `CommandBody.valid` for what exists without them. `Secret<T>` is `T`. -/
inductive CommandBody where
  | capability | noop | logout | startTls
  | authenticate (mechanism : AuthMechanism) (initialResponse : Option Bytes)
  | login (username password : AString)
  | select (mailbox : Mailbox) (parameters : List SelectParameter)
  | unselect
  | examine (mailbox : Mailbox) (parameters : List SelectParameter)
  | create (mailbox : Mailbox)
  | delete (mailbox : Mailbox)
  | rename (src dst : Mailbox)
  | subscribe (mailbox : Mailbox)
  | unsubscribe (mailbox : Mailbox)
  | list (reference : Mailbox) (wildcard : ListMailbox)
  | lsub (reference : Mailbox) (wildcard : ListMailbox)
  | status (mailbox : Mailbox) (itemNames : List StatusDataItemName)
  | append (mailbox : Mailbox) (flags : List Flag) (date : Option DateTime) (message : LiteralOrLiteral8)
  | check | close | expunge
  | expungeUid (s : SequenceSet)
  | search (charset : Option Charset) (criteria : List SearchKey) (uid : Bool)
  | sort (sortCriteria : List SortCriterion) (charset : Charset) (searchCriteria : List SearchKey) (uid : Bool)
  | thread (algorithm : ThreadingAlgorithm) (charset : Charset) (searchCriteria : List SearchKey) (uid : Bool)
  | fetch (s : SequenceSet) (items : MacroOrNames) (uid : Bool) (modifiers : List FetchModifier)
  | store (s : SequenceSet) (kind : StoreType) (response : StoreResponse) (flags : List Flag) (uid : Bool)
      (modifiers : List StoreModifier)
  | copy (s : SequenceSet) (mailbox : Mailbox) (uid : Bool)
  | idle
  | enable (capabilities : List CapabilityEnable)
  | compress
  | getQuota (root : AString)
  | getQuotaRoot (mailbox : Mailbox)
  | setQuota (root : AString) (quotas : List QuotaSet)
  | move (s : SequenceSet) (mailbox : Mailbox) (uid : Bool)
  | id (parameters : Option IdParams)
  | setMetadata (mailbox : Mailbox) (entryValues : List EntryValue)
  | getMetadata (options : List GetMetadataOption) (mailbox : Mailbox) (entries : List Entry)
  | namespace_

/-- The type invariants of `Option<Charset>`. -/
def isCharsetOpt : Option Charset → Bool
  | none => true
  | some c => c.valid

/-- The type invariants of `Option<DateTime>`. -/
def isDateTimeOpt : Option DateTime → Bool
  | none => true
  | some d => d.valid

/-- The type invariants of `Option<Vec<(IString, NString)>>`. -/
def isIdParamsOpt [Quirks] : Option IdParams → Bool
  | none => true
  | some l => l.all isIdParam

/-- The type invariants of `Vec1<SearchKey>`. EXCLUSION: the nesting of search keys is limited to 9, the limit of the parser; deeper keys
are not decoded. -/
def isCriteria [Quirks] (l : List SearchKey) : Bool := !l.isEmpty && l.all fun k => k.valid && k.depth ≤ 9

/-- The type invariants of `CommandBody`, and the exclusions of its parts. Some commands are a part of the type only with a feature. -/
def CommandBody.valid [q : Quirks] : CommandBody → Bool
  | .authenticate m _ => m.valid
  | .login u p => u.valid && p.valid
  | .select m ps => m.valid && ps.all SelectParameter.valid
  | .examine m ps => m.valid && ps.all SelectParameter.valid
  | .create m | .delete m | .subscribe m | .unsubscribe m | .getQuotaRoot m => m.valid
  | .rename a b => a.valid && b.valid
  | .list r w => r.valid && w.valid
  | .lsub r w => r.valid && w.valid
  | .status m l => m.valid && l.all StatusDataItemName.valid
  | .append m fs d msg => m.valid && fs.all Flag.valid && isDateTimeOpt d && msg.valid
  | .expungeUid s => s.wf
  | .search c l _ => isCharsetOpt c && isCriteria l
  | .sort s c l _ => !s.isEmpty && c.valid && isCriteria l
  | .thread a c l _ => a.valid && c.valid && isCriteria l
  | .fetch s i _ ms => s.wf && i.valid && ms.all FetchModifier.valid
  | .store s _ _ fs _ ms => s.wf && fs.all Flag.valid && ms.all isStoreModifier
  | .copy s m _ => s.wf && m.valid
  | .enable cs => !cs.isEmpty && cs.all CapabilityEnable.valid
  | .getQuota r => r.valid
  | .setQuota r qs => r.valid && qs.all QuotaSet.valid
  | .move s m _ => s.wf && m.valid
  | .id ps => q.extId && isIdParamsOpt ps
  | .setMetadata m es => q.extMetadata && m.valid && !es.isEmpty && es.all EntryValue.valid
  | .getMetadata os m es => q.extMetadata && os.all GetMetadataOption.valid && m.valid && !es.isEmpty && es.all AString.valid
  | .startTls => q.starttls
  | .namespace_ => q.extNamespace
  | .capability | .noop | .logout | .unselect | .check | .close | .expunge | .idle | .compress => true

/-- What the decoder returns for an encoded command: sequence sets are normalized by the encoder, depending on a quirk, and an empty list of
ID parameters may become NIL, depending on another quirk. -/
def CommandBody.norm [q : Quirks] : CommandBody → CommandBody
  | .select m ps => .select m (ps.map SelectParameter.norm)
  | .examine m ps => .examine m (ps.map SelectParameter.norm)
  | .expungeUid s => .expungeUid (normSet s)
  | .search c l u => .search c (l.map SearchKey.norm) u
  | .sort s c l u => .sort s c (l.map SearchKey.norm) u
  | .thread a c l u => .thread a c (l.map SearchKey.norm) u
  | .fetch s i u ms => .fetch (normSet s) i u ms
  | .store s k r fs u ms => .store (normSet s) k r fs u ms
  | .copy s m u => .copy (normSet s) m u
  | .move s m u => .move (normSet s) m u
  | .id (some []) => if q.idEmptyToNil then .id none else .id (some [])
  | c => c

/-- A parenthesised list after a space, omitted if empty (imap-codec/src/codec/encode.rs:336-340 et al.). -/
def encParams (l : List (List W)) : List W :=
  if l.isEmpty then [] else .wr b!" (" :: join b!" " l ++ [.wr b!")"]

/-- `if *uid` (imap-codec/src/codec/encode.rs:450-454 et al.). -/
def encUid (uid : Bool) (name : Bytes) : W := .wr (if uid then b!"UID " ++ name else name)

/-- `StoreType` (imap-codec/src/codec/encode.rs:546-550). -/
def StoreType.enc : StoreType → List W
  | .add => [.wr b!"+"]
  | .remove => [.wr b!"-"]
  | .replace => []

/-- `StoreResponse` (imap-codec/src/codec/encode.rs:554-557). -/
def StoreResponse.enc : StoreResponse → List W
  | .answer => []
  | .silent => [.wr b!".SILENT"]

/-- The initial response (imap-codec/src/codec/encode.rs:307-318). -/
def encInitialResponse : Option Bytes → List W
  | none => []
  | some d => [.wr b!" ", .wr (if d.isEmpty then b!"=" else b64Encode d)]

/-- `Option<DateTime>` (imap-codec/src/codec/encode.rs:429-432). -/
def encDateOpt : Option DateTime → List W
  | none => []
  | some d => .wr b!" " :: d.enc

/-- `Option<Charset>` (imap-codec/src/codec/encode.rs:455-458). -/
def encCharsetOpt : Option Charset → List W
  | none => []
  | some c => .wr b!" CHARSET " :: c.enc

/-- The search keys separated by spaces. -/
def encKeys [Quirks] (l : List SearchKey) : List W := join b!" " (l.map SearchKey.enc)

/-- The modifiers of STORE (imap-codec/src/codec/encode.rs:539-544). -/
def encStoreModifiers (l : List StoreModifier) : List W :=
  if l.isEmpty then [] else .wr b!"(" :: join b!" " (l.map encStoreModifier) ++ [.wr b!") "]

/-- The entries of GETMETADATA (imap-codec/src/codec/encode.rs:680-686). -/
def encEntries : List Entry → List W
  | [e] => e.enc
  | l => .wr b!"(" :: join b!" " (l.map AString.enc) ++ [.wr b!")"]

/-- `CommandBody::encode_ctx` (imap-codec/src/codec/encode.rs:292-694). -/
def CommandBody.enc [Quirks] : CommandBody → List W
  | .capability => [.wr b!"CAPABILITY"]
  | .noop => [.wr b!"NOOP"]
  | .logout => [.wr b!"LOGOUT"]
  | .startTls => [.wr b!"STARTTLS"]
  | .authenticate m ir => .wr b!"AUTHENTICATE " :: m.enc ++ encInitialResponse ir
  | .login u p => .wr b!"LOGIN " :: u.enc ++ .wr b!" " :: p.enc
  | .select m ps => .wr b!"SELECT " :: m.enc ++ encParams (ps.map SelectParameter.enc)
  | .unselect => [.wr b!"UNSELECT"]
  | .examine m ps => .wr b!"EXAMINE " :: m.enc ++ encParams (ps.map SelectParameter.enc)
  | .create m => .wr b!"CREATE " :: m.enc
  | .delete m => .wr b!"DELETE " :: m.enc
  | .rename a b => .wr b!"RENAME " :: a.enc ++ .wr b!" " :: b.enc
  | .subscribe m => .wr b!"SUBSCRIBE " :: m.enc
  | .unsubscribe m => .wr b!"UNSUBSCRIBE " :: m.enc
  | .list r w => .wr b!"LIST " :: r.enc ++ .wr b!" " :: w.enc
  | .lsub r w => .wr b!"LSUB " :: r.enc ++ .wr b!" " :: w.enc
  | .status m l => .wr b!"STATUS " :: m.enc ++ .wr b!" (" :: join b!" " (l.map StatusDataItemName.enc) ++ [.wr b!")"]
  | .append m fs d msg => .wr b!"APPEND " :: m.enc ++ encParams (fs.map Flag.enc) ++ encDateOpt d ++ .wr b!" " :: msg.enc
  | .check => [.wr b!"CHECK"]
  | .close => [.wr b!"CLOSE"]
  | .expunge => [.wr b!"EXPUNGE"]
  | .expungeUid s => .wr b!"UID EXPUNGE " :: encSet s
  | .search c l u => encUid u b!"SEARCH" :: encCharsetOpt c ++ .wr b!" " :: encKeys l
  | .sort s c l u => encUid u b!"SORT (" :: join b!" " (s.map SortCriterion.enc) ++ .wr b!") " :: c.enc ++ .wr b!" " :: encKeys l
  | .thread a c l u => encUid u b!"THREAD " :: .wr a.name :: .wr b!" " :: c.enc ++ .wr b!" " :: encKeys l
  | .fetch s i u ms => encUid u b!"FETCH " :: encSet s ++ .wr b!" " :: i.enc ++ encParams (ms.map FetchModifier.enc)
  | .store s k r fs u ms => encUid u b!"STORE " :: encSet s ++ .wr b!" " :: encStoreModifiers ms ++ k.enc ++
      .wr b!"FLAGS" :: r.enc ++ .wr b!" (" :: join b!" " (fs.map Flag.enc) ++ [.wr b!")"]
  | .copy s m u => encUid u b!"COPY " :: encSet s ++ .wr b!" " :: m.enc
  | .idle => [.wr b!"IDLE"]
  | .enable cs => .wr b!"ENABLE " :: join b!" " (cs.map CapabilityEnable.enc)
  | .compress => [.wr b!"COMPRESS ", .wr b!"DEFLATE"]
  | .getQuota r => .wr b!"GETQUOTA " :: r.enc
  | .getQuotaRoot m => .wr b!"GETQUOTAROOT " :: m.enc
  | .setQuota r qs => .wr b!"SETQUOTA " :: r.enc ++ .wr b!" (" :: join b!" " (qs.map QuotaSet.enc) ++ [.wr b!")"]
  | .move s m u => encUid u b!"MOVE " :: encSet s ++ .wr b!" " :: m.enc
  | .id ps => .wr b!"ID " :: encIdParams ps
  | .setMetadata m es => .wr b!"SETMETADATA " :: m.enc ++ .wr b!" (" :: join b!" " (es.map EntryValue.enc) ++ [.wr b!")"]
  | .getMetadata os m es => .wr b!"GETMETADATA" :: encParams (os.map GetMetadataOption.enc) ++ .wr b!" " :: m.enc ++
      .wr b!" " :: encEntries es
  | .namespace_ => [.wr b!"NAMESPACE"]

section Parsers

variable [Quirks]

/-- `append` (imap-codec/src/command.rs:179-203). -/
def append : P CommandBody := do
  tagNC b!"APPEND "
  let m ← mailbox
  let fs ← opt (do sp; flagList)
  let d ← opt (do sp; dateTime)
  sp
  let msg ← alt [LiteralOrLiteral8.literal <$> literal, .literal8 <$> literal8]
  return .append m (fs.getD []) d msg

/-- `create` (imap-codec/src/command.rs:208-214). -/
def create : P CommandBody := .create <$> (do tagNC b!"CREATE "; mailbox)

/-- `delete` (imap-codec/src/command.rs:219-225). -/
def delete : P CommandBody := .delete <$> (do tagNC b!"DELETE "; mailbox)

/-- `examine` (imap-codec/src/command.rs:233-250). -/
def examine : P CommandBody := do
  tagNC b!"EXAMINE "
  let m ← mailbox
  let ps ← opt selectParams
  return .examine m (ps.getD [])

/-- `list` (imap-codec/src/command.rs:253-265). -/
def list : P CommandBody := do
  tagNC b!"LIST "
  let r ← mailbox
  sp
  let w ← listMailbox
  return .list r w

/-- `lsub` (imap-codec/src/command.rs:268-280). -/
def lsub : P CommandBody := do
  tagNC b!"LSUB "
  let r ← mailbox
  sp
  let w ← listMailbox
  return .lsub r w

/-- `rename` (imap-codec/src/command.rs:285-297). -/
def rename : P CommandBody := do
  tagNC b!"RENAME "
  let a ← mailbox
  sp
  let b ← mailbox
  return .rename a b

/-- `select` (imap-codec/src/command.rs:305-322). -/
def select : P CommandBody := do
  tagNC b!"SELECT "
  let m ← mailbox
  let ps ← opt selectParams
  return .select m (ps.getD [])

/-- `status` (imap-codec/src/command.rs:413-429). -/
def status : P CommandBody := do
  tagNC b!"STATUS "
  let m ← mailbox
  tag b!" ("
  let l ← sepList0 sp statusAtt
  tag b!")"
  return .status m l

/-- `subscribe` (imap-codec/src/command.rs:432-438). -/
def subscribe : P CommandBody := .subscribe <$> (do tagNC b!"SUBSCRIBE "; mailbox)

/-- `unsubscribe` (imap-codec/src/command.rs:441-447). -/
def unsubscribe : P CommandBody := .unsubscribe <$> (do tagNC b!"UNSUBSCRIBE "; mailbox)

/-- `enable` (imap-codec/src/extensions/enable.rs:37-51). -/
def enable : P CommandBody := do
  tagNC b!"ENABLE"
  let cs ← many1 (do sp; capabilityEnable)
  return .enable cs

/-- `compress` (imap-codec/src/extensions/compress.rs:24-33). -/
def compress : P CommandBody := do
  tagNC b!"COMPRESS "
  value .compress (tagNC b!"DEFLATE")

/-- `getquota` (imap-codec/src/extensions/quota.rs:40-46). -/
def getquota : P CommandBody := .getQuota <$> (do tagNC b!"GETQUOTA "; astring)

/-- `getquotaroot` (imap-codec/src/extensions/quota.rs:51-57). -/
def getquotaroot : P CommandBody := .getQuotaRoot <$> (do tagNC b!"GETQUOTAROOT "; mailbox)

/-- `setquota` (imap-codec/src/extensions/quota.rs:144-154). -/
def setquota : P CommandBody := do
  tagNC b!"SETQUOTA "
  let r ← astring
  tag b!" ("
  let qs ← sepList0 sp setquotaResource
  tag b!")"
  return .setQuota r qs

/-- `setmetadata` (imap-codec/src/extensions/metadata.rs:37-53). -/
def setmetadata : P CommandBody := do
  tagNC b!"SETMETADATA"
  sp
  let m ← mailbox
  sp
  let es ← entryValues
  return .setMetadata m es

/-- `getmetadata` (imap-codec/src/extensions/metadata.rs:111-129). -/
def getmetadata : P CommandBody := do
  tagNC b!"GETMETADATA"
  let os ← opt (do sp; getmetadataOptions)
  sp
  let m ← mailbox
  sp
  let es ← entries
  return .getMetadata (os.getD []) m es

/-- `command_any` (imap-codec/src/command.rs:114-123). -/
def commandAny : P CommandBody :=
  alt [value .capability (tagNC b!"CAPABILITY"), value .logout (tagNC b!"LOGOUT"), value .noop (tagNC b!"NOOP"),
    gate Quirks.extId (.id <$> idCommand)]

/-- `command_auth` (imap-codec/src/command.rs:150-176), with `idle` (imap-codec/src/extensions/idle.rs:35-37) and `namespace_command`
(imap-codec/src/extensions/namespace.rs:30-32). -/
def commandAuth : P CommandBody :=
  alt [append, create, delete, examine, list, lsub, rename, select, status, subscribe, unsubscribe,
    value .idle (tagNC b!"IDLE"), enable, compress, getquota, getquotaroot, setquota, gate Quirks.extMetadata setmetadata,
    gate Quirks.extMetadata getmetadata, gate Quirks.extNamespace (value .namespace_ (tagNC b!"NAMESPACE"))]

/-- `login` (imap-codec/src/command.rs:473-486). -/
def login : P CommandBody := do
  tagNC b!"LOGIN"
  sp
  let u ← astring
  sp
  let p ← astring
  return .login u p

/-- `authenticate` (imap-codec/src/command.rs:512-532). -/
def authenticate : P CommandBody := do
  tagNC b!"AUTHENTICATE "
  let m ← authType
  let d ← opt (do sp; alt [base64, value [] (tag b!"=")])
  return .authenticate m d

/-- `command_nonauth` (imap-codec/src/command.rs:454-470). -/
def commandNonauth : P CommandBody := alt [login, authenticate, gate Quirks.starttls (value .startTls (tagNC b!"STARTTLS"))]

/-- `uid_expunge` (imap-codec/src/extensions/uidplus.rs:28-33). -/
def uidExpunge : P CommandBody := .expungeUid <$> (do tagNC b!"UID EXPUNGE "; sequenceSet)

/-- `copy` (imap-codec/src/command.rs:565-578). -/
def copy : P CommandBody := do
  tagNC b!"COPY"
  sp
  let s ← sequenceSet
  sp
  let m ← mailbox
  return .copy s m false

/-- `move` (imap-codec/src/extensions/move.rs:12-25). -/
def move : P CommandBody := do
  tagNC b!"MOVE"
  sp
  let s ← sequenceSet
  sp
  let m ← mailbox
  return .move s m false

/-- `fetch` (imap-codec/src/command.rs:587-635). -/
def fetch : P CommandBody := do
  tagNC b!"FETCH"
  sp
  let s ← sequenceSet
  sp
  let i ← macroOrNames
  let ms ← opt fetchModifiers
  return .fetch s i false (ms.getD [])

/-- `store` (imap-codec/src/command.rs:689-716). -/
def store : P CommandBody := do
  tagNC b!"STORE"
  sp
  let s ← sequenceSet
  let ms ← opt storeModifiers
  sp
  let x ← storeAttFlags
  return .store s x.1 x.2.1 x.2.2 false (ms.getD [])

/-- `search` (imap-codec/src/search.rs:30-50). -/
def search : P CommandBody := do
  tagNC b!"SEARCH"
  let c ← opt (do sp; tagNC b!"CHARSET"; sp; charset)
  sp
  let l ← sepList1 sp (searchKey 9)
  return .search c l false

/-- `sort` (imap-codec/src/extensions/sort.rs:26-46). -/
def sort : P CommandBody := do
  let u ← opt (tagNC b!"UID ")
  tagNC b!"SORT "
  let s ← sortCriteria
  sp
  let x ← searchCriteria
  return .sort s x.1 x.2 u.isSome

/-- `thread` (imap-codec/src/extensions/thread.rs:50-70). -/
def thread : P CommandBody := do
  let u ← opt (tagNC b!"UID ")
  tagNC b!"THREAD "
  let a ← threadAlg
  sp
  let x ← searchCriteria
  return .thread a x.1 x.2 u.isSome

omit [Quirks] in
/-- The assignment `*uid = true` of `uid` (imap-codec/src/command.rs:798-806); `none` is the panic `unreachable!()`. -/
def CommandBody.setUid : CommandBody → Option CommandBody
  | .copy s m _ => some (.copy s m true)
  | .fetch s i _ ms => some (.fetch s i true ms)
  | .search c l _ => some (.search c l true)
  | .store s k r fs _ ms => some (.store s k r fs true ms)
  | .move s m _ => some (.move s m true)
  | _ => none

/-- `uid` (imap-codec/src/command.rs:786-805). The panic is modelled as an error of `mapRes` and is never reached (theorem
`uidBody_setUid`). -/
def uidBody : P CommandBody := alt [copy, fetch, search, store, move]

/-- `uid` (imap-codec/src/command.rs:786-805). -/
def uid : P CommandBody := do
  tagNC b!"UID"
  sp
  mapRes uidBody CommandBody.setUid

/-- `command_select` (imap-codec/src/command.rs:546-562). -/
def commandSelect : P CommandBody :=
  alt [value .check (tagNC b!"CHECK"), value .close (tagNC b!"CLOSE"), value .expunge (tagNC b!"EXPUNGE"), uidExpunge, copy, fetch, store,
    uid, search, sort, thread, value .unselect (tagNC b!"UNSELECT"), move]

/-- `Command` (imap-types/src/command.rs:43-50). -/
structure Command where
  tag : Bytes
  body : CommandBody

omit [Quirks] in
/-- The type invariants of `Command`, and the exclusions of its parts. -/
def Command.valid (c : Command) : Bool := isTagStr c.tag && c.body.valid

/-- See `CommandBody.norm`. -/
def Command.norm (c : Command) : Command := ⟨c.tag, c.body.norm⟩

/-- `Command::encode_ctx` (imap-codec/src/codec/encode.rs:277-284). -/
def Command.enc (c : Command) : List W := .wr c.tag :: .wr b!" " :: c.body.enc ++ [.wr b!"\r\n"]

/-- `parser_body` (imap-codec/src/command.rs:75-78). -/
def commandBody : P CommandBody := do
  let b ← alt [commandAny, commandAuth, commandNonauth, commandSelect]
  crlf
  return b

omit [Quirks] in
/-- Filling in the tag of a literal error (imap-codec/src/command.rs:91-100). -/
def fillTag {α : Type} (t : Bytes) : Res α → Res α
  | .failure (.literal _ n m) => .failure (.literal (some t) n m)
  | r => r

/-- `command` (imap-codec/src/command.rs:73-103). -/
def command : P Command := do
  let t ← tagImap
  sp
  fun i => fillTag t ((do let b ← commandBody; return ⟨t, b⟩ : P Command) i)

end Parsers

end Imap
