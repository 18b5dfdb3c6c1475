import Verif.Codec
/-
Specification: the invariants of the types of imap-types, i.e. what their constructors guarantee, written without the validators of the
model. Each predicate `Inv` has a parameter `L`.
* With `L = .inv` it is the invariant of the type alone.
* With `L = .rt` it also contains the exclusions, i.e. the conditions on which the round trip depends; each of them has the form
  `L = .rt → ...` or `L ≠ .rt` and is marked with the word EXCLUSION.
* With `L = .line` it also contains the condition that three kinds of strings, whose types admit all characters, have no line breaks; it
  has the form `L = .line → ...`.

The character classes are those of RFC 3501, section 9.

Some variants and fields exist only in builds with one of the Cargo features; they have a condition of the form `q.extX`. In a build without
the feature there are no such values.
-/
namespace Imap.Spec

open Imap

/-- The three levels of the predicates, see the top of this file. -/
inductive Level where
  | inv | rt | line
  deriving DecidableEq

/-- CTL (RFC 5234): 0-31 and 127. -/
def Ctl (b : UInt8) : Prop := b.toNat ≤ 31 ∨ b.toNat = 127

/-- ATOM-CHAR: a 7-bit character except for `(`, `)`, `{`, SP, CTL, `%`, `*`, `"`, `\`, `]`. -/
def AtomChar (b : UInt8) : Prop := b.toNat < 128 ∧ ¬ Ctl b ∧ b ∉ b!"(){ %*\"\\]"

/-- ASTRING-CHAR: ATOM-CHAR or `]`. -/
def AStringChar (b : UInt8) : Prop := AtomChar b ∨ b ∈ b!"]"

/-- The characters of a tag: ASTRING-CHAR except for `+`. -/
def TagChar (b : UInt8) : Prop := AStringChar b ∧ b ∉ b!"+"

/-- TEXT-CHAR: a 7-bit character except for NUL, CR and LF. -/
def TextChar (b : UInt8) : Prop := b.toNat < 128 ∧ b ≠ 0 ∧ b ∉ b!"\r\n"

/-- Neither CR nor LF. -/
def NoBreak (s : Bytes) : Prop := 13 ∉ s ∧ 10 ∉ s

/-- list-char: ATOM-CHAR, `%`, `*` or `]`. -/
def ListChar (b : UInt8) : Prop := AtomChar b ∨ b ∈ b!"%*]"

/-- One or more characters of a class. -/
def Str1 (c : UInt8 → Prop) (s : Bytes) : Prop := s ≠ [] ∧ ∀ b ∈ s, c b

/-- Atom. -/
def IsAtom : Bytes → Prop := Str1 AtomChar

/-- The atom is not one of the given names, whatever the letter case (of ASCII letters). The names are in lowercase. -/
def NotOneOf (names : List Bytes) (s : Bytes) : Prop := lowerAll s ∉ names

/-- `NonZeroU32`. -/
def NZ32 (n : Nat) : Prop := 1 ≤ n ∧ n < 2 ^ 32

/-- `NonZeroU64`. -/
def NZ64 (n : Nat) : Prop := 1 ≤ n ∧ n < 2 ^ 64

/-- The property holds for the value, if there is one. -/
def Opt {α : Type} (p : α → Prop) (o : Option α) : Prop := ∀ a ∈ o, p a

/-- The property holds for all elements. -/
def All {α : Type} (p : α → Prop) (l : List α) : Prop := ∀ a ∈ l, p a

/-- `Vec1`: one or more elements with the property. -/
def All1 {α : Type} (p : α → Prop) (l : List α) : Prop := l ≠ [] ∧ ∀ a ∈ l, p a

variable (L : Level)

/-! ### Strings -/

/-- `Literal`: no NUL. EXCLUSION: less than 4 GiB, as the decoder reads the length as a `u32`. -/
def Literal.Inv (l : Literal) : Prop := 0 ∉ l.data ∧ (L = .rt → l.data.length < 2 ^ 32)

/-- `Literal8`: any data. EXCLUSION: less than 4 GiB. -/
def Literal8.Inv (l : Literal8) : Prop := L = .rt → l.data.length < 2 ^ 32

/-- `IString`. EXCLUSION: `QuotedUtf8` with just text characters, which is decoded as `Quoted`. -/
def IString.Inv [q : Quirks] : IString → Prop
  | .literal l => Literal.Inv L l
  | .quoted s => ∀ b ∈ s, TextChar b
  | .quotedUtf8 s => q.extUtf8 ∧ isUtf8 s ∧ (L = .rt → ∃ b ∈ s, ¬ TextChar b) ∧ (L = .line → NoBreak s)

/-- `NString`. -/
def NString.Inv [Quirks] (s : NString) : Prop := Opt (IString.Inv L) s

/-- `AString`. -/
def AString.Inv [Quirks] : AString → Prop
  | .atom s => Str1 AStringChar s
  | .string s => IString.Inv L s

/-- `Charset`. -/
def Charset.Inv : Charset → Prop
  | .atom s => IsAtom s
  | .quoted s => ∀ b ∈ s, TextChar b

/-- `LiteralOrLiteral8`. -/
def LiteralOrLiteral8.Inv : LiteralOrLiteral8 → Prop
  | .literal l => Literal.Inv L l
  | .literal8 l => Literal8.Inv L l

/-- `NString8`. -/
def NString8.Inv [Quirks] : NString8 → Prop
  | .nstring s => NString.Inv L s
  | .literal8 l => Literal8.Inv L l

/-! ### Sequence sets, dates, flags, mailboxes, mechanisms -/

/-- `SeqOrUid`. -/
def SeqOrUid.Inv : SeqOrUid → Prop
  | .value n => NZ32 n
  | .asterisk => True

/-- `Sequence`. -/
def Sequence.Inv : Sequence → Prop
  | .single a => SeqOrUid.Inv a
  | .range a b => SeqOrUid.Inv a ∧ SeqOrUid.Inv b

/-- `SequenceSet`. -/
def SequenceSet.Inv (s : SequenceSet) : Prop := All1 Sequence.Inv s

/-- The days of a month of the Gregorian calendar. -/
def monthDays (y m : Nat) : Nat :=
  if m = 2 then if y % 4 = 0 ∧ (y % 100 ≠ 0 ∨ y % 400 = 0) then 29 else 28
  else if m = 4 ∨ m = 6 ∨ m = 9 ∨ m = 11 then 30 else 31

/-- `NaiveDate`: a date of the Gregorian calendar with a year of at most four digits. -/
def NaiveDate.Inv (d : NaiveDate) : Prop :=
  d.year ≤ 9999 ∧ 1 ≤ d.month ∧ d.month ≤ 12 ∧ 1 ≤ d.day ∧ d.day ≤ monthDays d.year d.month

/-- `DateTime`: no leap second, the offset is less than a day and a number of minutes. -/
def DateTime.Inv (t : DateTime) : Prop :=
  NaiveDate.Inv t.date ∧ t.hour < 24 ∧ t.minute < 60 ∧ t.second < 60 ∧ -86400 < t.offset ∧ t.offset < 86400 ∧ t.offset % 60 = 0

/-- `Flag`. -/
def Flag.Inv : Flag → Prop
  | .extension s => IsAtom s ∧ NotOneOf [b!"answered", b!"deleted", b!"draft", b!"flagged", b!"seen"] s
  | .keyword s => IsAtom s
  | _ => True

/-- `FlagFetch`. EXCLUSION: the extension flag named RECENT, which is decoded as `Recent`. -/
def FlagFetch.Inv : FlagFetch → Prop
  | .flag f => Flag.Inv f ∧ (L = .rt → ∀ s, f = .extension s → NotOneOf [b!"recent"] s)
  | .recent => True

/-- `FlagPerm`. -/
def FlagPerm.Inv : FlagPerm → Prop
  | .flag f => Flag.Inv f
  | .asterisk => True

/-- `FlagNameAttribute`. -/
def FlagNameAttribute.Inv : FlagNameAttribute → Prop
  | .extension s => IsAtom s ∧ NotOneOf [b!"noinferiors", b!"noselect", b!"marked", b!"unmarked"] s
  | _ => True

/-- `Mailbox`: `Other` is not INBOX in any letter case. -/
def Mailbox.Inv [Quirks] : Mailbox → Prop
  | .inbox => True
  | .other s => AString.Inv L s ∧ NotOneOf [b!"inbox"] s.content

/-- `ListMailbox`. -/
def ListMailbox.Inv [Quirks] : ListMailbox → Prop
  | .token s => Str1 ListChar s
  | .string s => IString.Inv L s

/-- `AuthMechanism`. EXCLUSION: SCRAM-SHA3-512 and SCRAM-SHA3-512-PLUS, which are decoded as `Other`. -/
def AuthMechanism.Inv : AuthMechanism → Prop
  | .scramSha3_512 | .scramSha3_512Plus => L ≠ .rt
  | .other s => IsAtom s ∧ NotOneOf [b!"plain", b!"login", b!"oauthbearer", b!"xoauth2", b!"scram-sha-1", b!"scram-sha-1-plus",
      b!"scram-sha-256", b!"scram-sha-256-plus"] s
  | _ => True

/-! ### Fetch -/

/-- `Part`. -/
def Part.Inv (p : List NzU32) : Prop := All1 NZ32 p

/-- `Section`. -/
def Section.Inv [Quirks] : Section → Prop
  | .part p => Part.Inv p
  | .header p => Opt Part.Inv p
  | .headerFields p fs => Opt Part.Inv p ∧ All1 (AString.Inv L) fs
  | .headerFieldsNot p fs => Opt Part.Inv p ∧ All1 (AString.Inv L) fs
  | .text p => Opt Part.Inv p
  | .mime p => Part.Inv p

/-- The first and the number of the requested octets. -/
def Partial.Inv (x : Nat × NzU32) : Prop := x.1 < 2 ^ 32 ∧ NZ32 x.2

/-- `MessageDataItemName`. -/
def MessageDataItemName.Inv [q : Quirks] : MessageDataItemName → Prop
  | .bodyExt s p _ => Opt (Section.Inv L) s ∧ Opt Partial.Inv p
  | .binary s p _ => All NZ32 s ∧ Opt Partial.Inv p
  | .binarySize s => All NZ32 s
  | .modSeq => q.extCondstoreQresync
  | _ => True

/-- `MacroOrMessageDataItemNames`. -/
def MacroOrNames.Inv [Quirks] : MacroOrNames → Prop
  | .macro_ _ => True
  | .names l => All (MessageDataItemName.Inv L) l

/-! ### Search -/

/-- `AttributeFlag`. -/
def AttributeFlag.Inv : AttributeFlag → Prop
  | .extension a => IsAtom a ∧ NotOneOf [b!"answered", b!"deleted", b!"draft", b!"flagged", b!"seen"] a
  | .keyword a => IsAtom a
  | _ => True

/-- `SearchKey`. -/
def SearchKey.Inv [q : Quirks] : SearchKey → Prop
  | .and ks => ks ≠ [] ∧ go ks
  | .sequenceSet s => SequenceSet.Inv s
  | .bcc s | .body s | .cc s | .from_ s | .subject s | .text s | .to s => AString.Inv L s
  | .before d | .on d | .sentBefore d | .sentOn d | .sentSince d | .since d => NaiveDate.Inv d
  | .header n v => AString.Inv L n ∧ AString.Inv L v
  | .keyword a | .unkeyword a => IsAtom a
  | .larger n | .smaller n => n < 2 ^ 32
  | .not k => Inv k
  | .or a b => Inv a ∧ Inv b
  | .uid s => SequenceSet.Inv s
  | .modSequence e n => q.extCondstoreQresync ∧ Opt (fun x => AttributeFlag.Inv x.1) e ∧ n < 2 ^ 64
  | .all | .answered | .deleted | .draft | .flagged | .new | .old | .recent | .seen | .unanswered | .undeleted | .undraft
  | .unflagged | .unseen => True
where
  /-- All of the keys. -/
  go : List SearchKey → Prop
    | [] => True
    | k :: ks => Inv k ∧ go ks

/-- The criteria of SEARCH, SORT and THREAD. EXCLUSION: keys are nested at most nine deep. -/
def Criteria.Inv [Quirks] (l : List SearchKey) : Prop := All1 (fun k => SearchKey.Inv L k ∧ (L = .rt → k.depth ≤ 9)) l

/-! ### Commands -/

/-- `SelectParameter`. -/
def SelectParameter.Inv [q : Quirks] : SelectParameter → Prop
  | .condStore => q.extCondstoreQresync
  | .qresync u m k s => q.extCondstoreQresync ∧ NZ32 u ∧ NZ64 m ∧ Opt SequenceSet.Inv k ∧ Opt (fun x => SequenceSet.Inv x.1 ∧ SequenceSet.Inv x.2) s

/-- `FetchModifier`. -/
def FetchModifier.Inv [q : Quirks] : FetchModifier → Prop
  | .changedSince n => q.extCondstoreQresync ∧ NZ64 n
  | .vanished => q.extCondstoreQresync

/-- `StoreModifier`. -/
def StoreModifier.Inv [q : Quirks] (n : StoreModifier) : Prop := q.extCondstoreQresync ∧ n < 2 ^ 64

/-- `StatusDataItemName`. -/
def StatusDataItemName.Inv [q : Quirks] : StatusDataItemName → Prop
  | .highestModSeq => q.extCondstoreQresync
  | _ => True

/-- `CapabilityEnable`. -/
def CapabilityEnable.Inv [q : Quirks] : CapabilityEnable → Prop
  | .condStore => q.extCondstoreQresync
  | .metadata | .metadataServer => q.extMetadata
  | .utf8Accept | .utf8Only => q.extUtf8
  | .other a => IsAtom a ∧ (q.extCondstoreQresync → NotOneOf [b!"condstore"] a) ∧
      (q.extMetadata → NotOneOf [b!"metadata", b!"metadata-server"] a) ∧
      (q.extUtf8 → NotOneOf [b!"utf8=accept", b!"utf8=only"] a)

/-- `Resource`. -/
def Resource.Inv : Resource → Prop
  | .other a => IsAtom a ∧ NotOneOf [b!"storage", b!"message", b!"mailbox", b!"annotation-storage"] a
  | _ => True

/-- `QuotaSet`. -/
def QuotaSet.Inv (q : QuotaSet) : Prop := Resource.Inv q.resource ∧ q.limit < 2 ^ 64

/-- `ThreadingAlgorithm`. -/
def ThreadingAlgorithm.Inv : ThreadingAlgorithm → Prop
  | .other a => IsAtom a ∧ NotOneOf [b!"orderedsubject", b!"references"] a
  | _ => True

/-- The parameters of ID. -/
def IdParams.Inv [Quirks] (l : IdParams) : Prop := All (fun x => IString.Inv L x.1 ∧ NString.Inv L x.2) l

/-- `EntryValue`. -/
def EntryValue.Inv [Quirks] (e : EntryValue) : Prop := AString.Inv L e.entry ∧ NString8.Inv L e.value

/-- `GetMetadataOption`. -/
def GetMetadataOption.Inv : GetMetadataOption → Prop
  | .maxSize n => n < 2 ^ 32
  | _ => True

/-- `CommandBody`. -/
def CommandBody.Inv [q : Quirks] : CommandBody → Prop
  | .authenticate m _ => AuthMechanism.Inv L m
  | .login u p => AString.Inv L u ∧ AString.Inv L p
  | .select m ps => Mailbox.Inv L m ∧ All SelectParameter.Inv ps
  | .examine m ps => Mailbox.Inv L m ∧ All SelectParameter.Inv ps
  | .create m | .delete m | .subscribe m | .unsubscribe m | .getQuotaRoot m => Mailbox.Inv L m
  | .rename a b => Mailbox.Inv L a ∧ Mailbox.Inv L b
  | .list r w => Mailbox.Inv L r ∧ ListMailbox.Inv L w
  | .lsub r w => Mailbox.Inv L r ∧ ListMailbox.Inv L w
  | .status m l => Mailbox.Inv L m ∧ All StatusDataItemName.Inv l
  | .append m fs d msg => Mailbox.Inv L m ∧ All Flag.Inv fs ∧ Opt DateTime.Inv d ∧ LiteralOrLiteral8.Inv L msg
  | .expungeUid s => SequenceSet.Inv s
  | .search c l _ => Opt Charset.Inv c ∧ Criteria.Inv L l
  | .sort s c l _ => s ≠ [] ∧ Charset.Inv c ∧ Criteria.Inv L l
  | .thread a c l _ => ThreadingAlgorithm.Inv a ∧ Charset.Inv c ∧ Criteria.Inv L l
  | .fetch s i _ ms => SequenceSet.Inv s ∧ MacroOrNames.Inv L i ∧ All FetchModifier.Inv ms
  | .store s _ _ fs _ ms => SequenceSet.Inv s ∧ All Flag.Inv fs ∧ All StoreModifier.Inv ms
  | .copy s m _ => SequenceSet.Inv s ∧ Mailbox.Inv L m
  | .enable cs => All1 CapabilityEnable.Inv cs
  | .getQuota r => AString.Inv L r
  | .setQuota r qs => AString.Inv L r ∧ All QuotaSet.Inv qs
  | .move s m _ => SequenceSet.Inv s ∧ Mailbox.Inv L m
  | .id ps => q.extId ∧ Opt (IdParams.Inv L) ps
  | .setMetadata m es => q.extMetadata ∧ Mailbox.Inv L m ∧ All1 (EntryValue.Inv L) es
  | .getMetadata os m es => q.extMetadata ∧ All GetMetadataOption.Inv os ∧ Mailbox.Inv L m ∧ All1 (AString.Inv L) es
  | .startTls => q.starttls
  | .namespace_ => q.extNamespace
  | .capability | .noop | .logout | .unselect | .check | .close | .expunge | .idle | .compress => True

/-- `Tag`. -/
def Tag.Inv (t : Bytes) : Prop := Str1 TagChar t

/-- `Command`. -/
def Command.Inv [Quirks] (c : Command) : Prop := Tag.Inv c.tag ∧ CommandBody.Inv L c.body

/-! ### Envelopes and body structures -/

/-- `Address`. -/
def Address.Inv [Quirks] (a : Address) : Prop :=
  NString.Inv L a.name ∧ NString.Inv L a.adl ∧ NString.Inv L a.mailbox ∧ NString.Inv L a.host

/-- `Envelope`. -/
def Envelope.Inv [Quirks] (e : Envelope) : Prop :=
  NString.Inv L e.date ∧ NString.Inv L e.subject ∧ All (Address.Inv L) e.from_ ∧ All (Address.Inv L) e.sender ∧
    All (Address.Inv L) e.replyTo ∧ All (Address.Inv L) e.to_ ∧ All (Address.Inv L) e.cc ∧ All (Address.Inv L) e.bcc ∧
    NString.Inv L e.inReplyTo ∧ NString.Inv L e.messageId

/-- `BodyExtension`. -/
def BodyExtension.Inv [Quirks] : BodyExtension → Prop
  | .nstring s => NString.Inv L s
  | .number n => n < 2 ^ 32
  | .list l => l ≠ [] ∧ go l
where
  /-- All of the extensions. -/
  go : List BodyExtension → Prop
    | [] => True
    | e :: l => Inv e ∧ go l

/-- Parameters of a body. -/
def Params.Inv [Quirks] (l : Params) : Prop := All (fun x => IString.Inv L x.1 ∧ IString.Inv L x.2) l

/-- `Location`. EXCLUSION: body extensions are nested at most eight deep. -/
def Location.Inv [Quirks] (x : Location) : Prop :=
  NString.Inv L x.location ∧ All (fun e => BodyExtension.Inv L e ∧ (L = .rt → e.depth ≤ 8)) x.extensions

/-- `Language`. -/
def Language.Inv [Quirks] (x : Language) : Prop := All (IString.Inv L) x.language ∧ Opt (Location.Inv L) x.tail

/-- `Disposition`. -/
def Disposition.Inv [Quirks] (x : Disposition) : Prop :=
  Opt (fun d => IString.Inv L d.1 ∧ Params.Inv L d.2) x.disposition ∧ Opt (Language.Inv L) x.tail

/-- `SinglePartExtensionData`. -/
def SinglePartExt.Inv [Quirks] (x : SinglePartExt) : Prop := NString.Inv L x.md5 ∧ Opt (Disposition.Inv L) x.tail

/-- `MultiPartExtensionData`. -/
def MultiPartExt.Inv [Quirks] (x : MultiPartExt) : Prop := Params.Inv L x.parameterList ∧ Opt (Disposition.Inv L) x.tail

/-- `BasicFields`. -/
def BasicFields.Inv [Quirks] (f : BasicFields) : Prop :=
  Params.Inv L f.parameterList ∧ NString.Inv L f.id ∧ NString.Inv L f.description ∧ IString.Inv L f.contentTransferEncoding ∧
    f.size < 2 ^ 32

/-- `BodyStructure`. EXCLUSION: the body of a message has at most five levels of multipart (`need` is the number of levels plus
two). -/
def BodyStructure.Inv [Quirks] : BodyStructure → Prop
  | .basic f t s x => BasicFields.Inv L f ∧ IString.Inv L t ∧ IString.Inv L s ∧ Opt (SinglePartExt.Inv L) x
  | .message f e b n x => BasicFields.Inv L f ∧ Envelope.Inv L e ∧ Inv b ∧ (L = .rt → b.need ≤ 7) ∧ n < 2 ^ 32 ∧
      Opt (SinglePartExt.Inv L) x
  | .text f s n x => BasicFields.Inv L f ∧ IString.Inv L s ∧ n < 2 ^ 32 ∧ Opt (SinglePartExt.Inv L) x
  | .multi l s x => l ≠ [] ∧ go l ∧ IString.Inv L s ∧ Opt (MultiPartExt.Inv L) x
where
  /-- All of the bodies. -/
  go : List BodyStructure → Prop
    | [] => True
    | b :: l => Inv b ∧ go l

/-! ### Responses -/

/-- `SortAlgorithm`. -/
def SortAlgorithm.Inv : SortAlgorithm → Prop
  | .display => True
  | .other a => IsAtom a ∧ NotOneOf [b!"display"] a

/-- `Capability`. `Other` values are created by the conversion from atoms only.
EXCLUSION: `AUTH=` with the mechanisms that the conversion does not know; `NAMESPACE`, which the conversion does not know;
`QUOTA=RES-` with another resource that is not lowercase, as the conversion changes it to lowercase. -/
def Capability.Inv [q : Quirks] : Capability → Prop
  | .auth m => AuthMechanism.Inv L m
  | .quotaRes r => Resource.Inv r ∧ (L = .rt → ∀ a, r = .other a → lowerAll a = a)
  | .sort (some a) => SortAlgorithm.Inv a
  | .thread a => ThreadingAlgorithm.Inv a
  | .namespace_ => q.extNamespace ∧ L ≠ .rt
  | .startTls => q.starttls
  | .mailboxReferrals => q.extMailboxReferrals
  | .loginReferrals => q.extLoginReferrals
  | .id_ => q.extId
  | .metadata | .metadataServer => q.extMetadata
  | .condStore | .qResync => q.extCondstoreQresync
  | .utf8Accept | .utf8Only => q.extUtf8
  | .other a => IsAtom a ∧ Capability.ofAtom a = .other a
  | _ => True

/-- `UidElement`. -/
def UidElement.Inv : UidElement → Prop
  | .single n => NZ32 n
  | .range a b => NZ32 a ∧ NZ32 b

/-- `MetadataCode`. -/
def MetadataCode.Inv : MetadataCode → Prop
  | .longEntries n | .maxSize n => n < 2 ^ 32
  | _ => True

/-- `Code`. EXCLUSION: `Referral`, which the decoder does not know; `Other` with `]`, CR or LF, or which is decoded as a known code
(this depends on the text after the code). -/
def Code.Inv [q : Quirks] (text : Bytes) : Code → Prop
  | .badCharset l => All Charset.Inv l
  | .capability l => All1 (Capability.Inv L) l
  | .permanentFlags l => All FlagPerm.Inv l
  | .uidNext n => NZ32 n
  | .uidValidity n => NZ32 n
  | .unseen n => NZ32 n
  | .referral url => (q.extLoginReferrals ∨ q.extMailboxReferrals) ∧ L ≠ .rt ∧ isUtf8 url ∧ (L = .line → NoBreak url)
  | .metadata c => q.extMetadata ∧ MetadataCode.Inv c
  | .appendUid v u => NZ32 v ∧ NZ32 u
  | .copyUid v s d => NZ32 v ∧ All1 UidElement.Inv s ∧ All1 UidElement.Inv d
  | .highestModSeq n => q.extCondstoreQresync ∧ NZ64 n
  | .modified s => q.extCondstoreQresync ∧ SequenceSet.Inv s
  | .noModSeq | .closed => q.extCondstoreQresync
  | .other bs => (L = .rt → (∀ b ∈ bs, b ∉ b!"]\r\n") ∧ codeKnown (bs ++ b!"] " ++ text ++ b!"\r\n") = .error) ∧
      (L = .line → NoBreak bs)
  | _ => True

/-- Code and `Text`. EXCLUSION: a text that starts with `[` after no code, which is decoded as a code. -/
def RespText.Inv [Quirks] (code : Option Code) (text : Bytes) : Prop :=
  Str1 TextChar text ∧ Opt (Code.Inv L text) code ∧ (L = .rt → code = none → text.head? ≠ some 91)

/-- `Greeting`. -/
def Greeting.Inv [Quirks] (g : Greeting) : Prop := RespText.Inv L g.code g.text

/-- `Status`. -/
def Status.Inv [Quirks] : Status → Prop
  | .untagged _ c t => RespText.Inv L c t
  | .tagged tag _ c t => Tag.Inv tag ∧ RespText.Inv L c t
  | .bye c t => RespText.Inv L c t

/-- `CommandContinuationRequest`: without a code, the text of `Basic` does not start with `[` and is not base64. -/
def ContinueReq.Inv [Quirks] : ContinueReq → Prop
  | .basic c t => RespText.Inv L c t ∧ (c = none → t.head? ≠ some 91 ∧ b64Decode t = none)
  | .base64 _ => True

/-- `StatusDataItem`. -/
def StatusDataItem.Inv [q : Quirks] : StatusDataItem → Prop
  | .messages n | .recent n | .unseen n | .deleted n => n < 2 ^ 32
  | .uidNext n | .uidValidity n => NZ32 n
  | .deletedStorage n => n < 2 ^ 64
  | .highestModSeq n => q.extCondstoreQresync ∧ n < 2 ^ 64

/-- `MessageDataItem`. EXCLUSION: at most six levels of multipart (`need` is the number of levels plus two); `ModSeq`, which the
encoder writes in a form that the decoder rejects. -/
def MessageDataItem.Inv [q : Quirks] : MessageDataItem → Prop
  | .body b => BodyStructure.Inv L b ∧ (L = .rt → b.need ≤ 8)
  | .bodyExt s o d => Opt (Section.Inv L) s ∧ Opt (fun n : Nat => n < 2 ^ 32) o ∧ NString.Inv L d
  | .bodyStructure b => BodyStructure.Inv L b ∧ (L = .rt → b.need ≤ 8)
  | .envelope e => Envelope.Inv L e
  | .flags l => All (FlagFetch.Inv L) l
  | .internalDate t => DateTime.Inv t
  | .rfc822 s => NString.Inv L s
  | .rfc822Header s => NString.Inv L s
  | .rfc822Size n => n < 2 ^ 32
  | .rfc822Text s => NString.Inv L s
  | .uid n => NZ32 n
  | .binary s v => All NZ32 s ∧ NString8.Inv L v
  | .binarySize s n => All NZ32 s ∧ n < 2 ^ 32
  | .modSeq n => q.extCondstoreQresync ∧ NZ64 n ∧ L ≠ .rt

/-- `Thread`: prefixes are `Vec1`, answers are `Vec2`. -/
def Thread.Inv : Thread → Prop
  | .members p l => All1 NZ32 p ∧ l.length ≠ 1 ∧ go l
  | .nested l => 2 ≤ l.length ∧ go l
where
  /-- All of the threads. -/
  go : List Thread → Prop
    | [] => True
    | t :: l => Inv t ∧ go l

/-- `NamespaceResponseExtension`. -/
def NamespaceExt.Inv [Quirks] (e : NamespaceExt) : Prop := IString.Inv L e.key ∧ All1 (IString.Inv L) e.values

/-- `Namespace`. -/
def Namespace.Inv [Quirks] (n : Namespace) : Prop :=
  IString.Inv L n.prefix_ ∧ Opt TextChar n.delimiter ∧ All (NamespaceExt.Inv L) n.extensions

/-- `QuotaGet`. -/
def QuotaGet.Inv (q : QuotaGet) : Prop := Resource.Inv q.resource ∧ q.usage < 2 ^ 64 ∧ q.limit < 2 ^ 64

/-- `MetadataResponse`. -/
def MetadataResponse.Inv [Quirks] : MetadataResponse → Prop
  | .withValues l => All1 (EntryValue.Inv L) l
  | .withoutValues l => All1 (AString.Inv L) l

/-- `Data`. EXCLUSION: threads are nested at most eight deep. -/
def Data.Inv [q : Quirks] : Data → Prop
  | .capability l => All1 (Capability.Inv L) l
  | .list l d m => All FlagNameAttribute.Inv l ∧ Opt TextChar d ∧ Mailbox.Inv L m
  | .lsub l d m => All FlagNameAttribute.Inv l ∧ Opt TextChar d ∧ Mailbox.Inv L m
  | .status m l => Mailbox.Inv L m ∧ All StatusDataItem.Inv l
  | .search l m => All NZ32 l ∧ Opt (fun n => q.extCondstoreQresync ∧ NZ64 n) m
  | .sort l m => All NZ32 l ∧ Opt (fun n => q.extCondstoreQresync ∧ NZ64 n) m
  | .thread l => All (fun t => Thread.Inv t ∧ (L = .rt → t.depth ≤ 8)) l
  | .flags l => All Flag.Inv l
  | .exists_ n => n < 2 ^ 32
  | .recent n => n < 2 ^ 32
  | .expunge n => NZ32 n
  | .fetch n l => NZ32 n ∧ All1 (MessageDataItem.Inv L) l
  | .enabled l => All CapabilityEnable.Inv l
  | .quota r l => AString.Inv L r ∧ All1 QuotaGet.Inv l
  | .quotaRoot m l => Mailbox.Inv L m ∧ All (AString.Inv L) l
  | .id_ p => q.extId ∧ Opt (IdParams.Inv L) p
  | .metadata m r => q.extMetadata ∧ Mailbox.Inv L m ∧ MetadataResponse.Inv L r
  | .vanished _ s => q.extCondstoreQresync ∧ SequenceSet.Inv s
  | .namespace_ p o s => q.extNamespace ∧ All (Namespace.Inv L) p ∧ All (Namespace.Inv L) o ∧ All (Namespace.Inv L) s

/-- `Response`. -/
def Response.Inv [Quirks] : Response → Prop
  | .continue_ r => ContinueReq.Inv L r
  | .data d => Data.Inv L d
  | .status s => Status.Inv L s

/-- The messages of a codec. `AuthenticateData` and `IdleDone` have no invariants. -/
def Message.Inv [Quirks] : (k : Codec) → k.Message → Prop
  | .greeting, g => Greeting.Inv L g
  | .command, c => Command.Inv L c
  | .authenticateData, _ => True
  | .response, r => Response.Inv L r
  | .idleDone, _ => True

end Imap.Spec

namespace Imap

/-- The message satisfies the invariants of its type. -/
def WellFormed [Quirks] (k : Codec) (m : k.Message) : Prop := Spec.Message.Inv .inv k m

/-- The message satisfies the invariants of its type and none of the exclusions applies. -/
def Supported [Quirks] (k : Codec) (m : k.Message) : Prop := Spec.Message.Inv .rt k m

/-- The message satisfies the invariants of its type, and its strings of the types `QuotedUtf8` and `CodeOther` and its referral
URLs do not contain line breaks. -/
def Unbroken [Quirks] (k : Codec) (m : k.Message) : Prop := Spec.Message.Inv .line k m

end Imap
