import Verif.Core
import Verif.Sequence
/-
Building blocks of messages: sequence sets, mailboxes, flags, dates, authentication mechanisms, status items
(imap-types/src/{sequence,mailbox,flag,datetime,auth,status}.rs), their encoders (imap-codec/src/codec/encode.rs) and
their parsers (imap-codec/src/{sequence,mailbox,flag,datetime,auth,status}.rs).
-/
namespace Imap

/-- `to_ascii_lowercase`. -/
def lowerAll (s : Bytes) : Bytes := s.map lower

/-- `to_ascii_uppercase`. -/
def upperAll (s : Bytes) : Bytes := s.map upper

/-- `eq_ignore_ascii_case`. -/
def eqIC (a b : Bytes) : Bool := lowerAll a == lowerAll b

/-! ### Sequence sets -/

/-- `SeqOrUid::encode_ctx` (imap-codec/src/codec/encode.rs:1061-1068). -/
def SeqOrUid.enc : SeqOrUid → List W
  | .value n => [.wr (showNat n)]
  | .asterisk => [.wr b!"*"]

/-- `Sequence::encode_ctx` (imap-codec/src/codec/encode.rs:1040-1059); with quirk_always_normalize_sequence_sets the
sequence is normalized first. -/
def Sequence.enc [q : Quirks] (s : Sequence) : List W :=
  match (if q.alwaysNormalizeSequenceSets then s.normalize else s) with
  | .single a => a.enc
  | .range a b => a.enc ++ [.wr b!":"] ++ b.enc

/-- What the encoder makes of a sequence set before writing it (imap-codec/src/codec/encode.rs:1026-1036): with
quirk_always_normalize_sequence_sets it is normalized. -/
def normSet [q : Quirks] (s : SequenceSet) : SequenceSet := if q.alwaysNormalizeSequenceSets then s.normalize else s

/-- `SequenceSet::encode_ctx` (imap-codec/src/codec/encode.rs:1026-1038). -/
def encSet [Quirks] (s : SequenceSet) : List W := join b!"," ((normSet s).map Sequence.enc)

/-- `seq_number` (imap-codec/src/sequence.rs:79-84). -/
def seqNumber : P SeqOrUid := alt [.value <$> nzNumber, value .asterisk (tag b!"*")]

/-- `seq_range` (imap-codec/src/sequence.rs:58-64). -/
def seqRange : P (SeqOrUid × SeqOrUid) := do
  let a ← seqNumber
  tag b!":"
  let b ← seqNumber
  return (a, b)

/-- `sequence_set` (imap-codec/src/sequence.rs:34-47). -/
def sequenceSet : P SequenceSet :=
  sepList1 (tag b!",") (alt [(fun r => .range r.1 r.2) <$> seqRange, .single <$> seqNumber])

/-! ### Mailboxes -/

/-- `IString::as_ref` (imap-types/src/core.rs:482-490): the content. -/
def IString.content : IString → Bytes
  | .literal l => l.data
  | .quoted s => s
  | .quotedUtf8 s => s

/-- `AString::as_ref` (imap-types/src/core.rs:1025-1032). -/
def AString.content : AString → Bytes
  | .atom s => s
  | .string s => s.content

/-- `Mailbox` (imap-types/src/mailbox.rs:176-179). -/
inductive Mailbox where
  | inbox
  | other (s : AString)
  deriving DecidableEq, Repr

/-- `MailboxOther::validate` (imap-types/src/mailbox.rs:204-210): the name must not be a variant of INBOX. -/
def isMailboxOther (s : Bytes) : Bool := !eqIC s b!"inbox"

/-- `MailboxOther::try_from(AString)` (imap-types/src/mailbox.rs:254-262). -/
def MailboxOther.tryFrom (s : AString) : Option AString := if isMailboxOther s.content then some s else none

/-- `From<AString> for Mailbox` (imap-types/src/mailbox.rs:186-193), where `none` is the panic of `unwrap`. -/
def Mailbox.fromAString (s : AString) : Option Mailbox :=
  if isUtf8 s.content && eqIC s.content b!"inbox" then some .inbox
  else (MailboxOther.tryFrom s).map .other

/-- `From<AString> for Mailbox` (imap-types/src/mailbox.rs:186-193), using that the `unwrap` never panics
(theorem `Mailbox.fromAString_eq`). -/
def Mailbox.ofAString (s : AString) : Mailbox := if eqIC s.content b!"inbox" then .inbox else .other s

/-- The type invariants of `Mailbox`. -/
def Mailbox.valid [Quirks] : Mailbox → Bool
  | .inbox => true
  | .other s => s.valid && isMailboxOther s.content

/-- `Mailbox::encode_ctx` (imap-codec/src/codec/encode.rs:822-835). -/
def Mailbox.enc : Mailbox → List W
  | .inbox => [.wr b!"INBOX"]
  | .other s => s.enc

/-- `mailbox` (imap-codec/src/mailbox.rs:62-64). -/
def mailbox [Quirks] : P Mailbox := Mailbox.ofAString <$> astring

/-- `ListMailbox` (imap-types/src/mailbox.rs:93-96). -/
inductive ListMailbox where
  | token (s : Bytes)
  | string (s : IString)
  deriving DecidableEq, Repr

/-- `ListCharString::validate` (imap-types/src/mailbox.rs:24-39). -/
def isListCharString (s : Bytes) : Bool := !s.isEmpty && s.all isListChar

/-- The type invariants of `ListMailbox`. -/
def ListMailbox.valid [Quirks] : ListMailbox → Bool
  | .token s => isListCharString s
  | .string s => s.valid

/-- `ListMailbox::encode_ctx` (imap-codec/src/codec/encode.rs:837-850). -/
def ListMailbox.enc : ListMailbox → List W
  | .token s => [.wr s]
  | .string s => s.enc

/-- `list_mailbox` (imap-codec/src/mailbox.rs:37-51). -/
def listMailbox [Quirks] : P ListMailbox := alt [.token <$> takeWhile1 isListChar, .string <$> string]

/-! ### Flags -/

/-- `Flag` (imap-types/src/flag.rs:28-43). -/
inductive Flag where
  | answered | deleted | draft | flagged | seen
  | extension (s : Bytes)
  | keyword (s : Bytes)
  deriving DecidableEq, Repr

/-- `Flag::system` (imap-types/src/flag.rs:53-62). -/
def Flag.system (atom : Bytes) : Flag :=
  let l := lowerAll atom
  if l = b!"answered" then .answered
  else if l = b!"deleted" then .deleted
  else if l = b!"draft" then .draft
  else if l = b!"flagged" then .flagged
  else if l = b!"seen" then .seen
  else .extension atom

/-- The type invariants of `Flag`: a `FlagExtension` can only be created by `Flag::system`
(imap-types/src/flag.rs:50-62), so that it is none of the known flags. -/
def Flag.valid : Flag → Bool
  | .extension s => isAtom s && Flag.system s == .extension s
  | .keyword s => isAtom s
  | _ => true

/-- `Flag::encode_ctx` (imap-codec/src/codec/encode.rs:868-872) and `Display for Flag` (imap-types/src/flag.rs:81-93). -/
def Flag.enc : Flag → List W
  | .answered => [.wr b!"\\Answered"]
  | .deleted => [.wr b!"\\Deleted"]
  | .draft => [.wr b!"\\Draft"]
  | .flagged => [.wr b!"\\Flagged"]
  | .seen => [.wr b!"\\Seen"]
  | .extension s => [.wr (b!"\\" ++ s)]
  | .keyword s => [.wr s]

/-- `flag` (imap-codec/src/flag.rs:25-30). -/
def flag : P Flag := alt [Flag.system <$> (do char 92; atom), .keyword <$> atom]

/-- `flag_list` (imap-codec/src/flag.rs:54-56). -/
def flagList : P (List Flag) := do
  tag b!"("
  let l ← sepList0 sp flag
  tag b!")"
  return l

/-- `FlagFetch` (imap-types/src/flag.rs:99-109). -/
inductive FlagFetch where
  | flag (f : Flag)
  | recent
  deriving DecidableEq, Repr

/-- The type invariants of `FlagFetch`.
EXCLUSION: `FlagFetch::Flag(Flag::Extension("Recent"))` (any case) is encoded like `FlagFetch::Recent`. -/
def FlagFetch.valid : FlagFetch → Bool
  | .flag (.extension s) => (Flag.extension s).valid && !eqIC s b!"recent"
  | .flag f => f.valid
  | .recent => true

/-- `FlagFetch::encode_ctx` (imap-codec/src/codec/encode.rs:874-881). -/
def FlagFetch.enc : FlagFetch → List W
  | .flag f => f.enc
  | .recent => [.wr b!"\\Recent"]

/-- `flag_fetch` (imap-codec/src/flag.rs:59-67). -/
def flagFetch : P FlagFetch := fun i =>
  match recognize (do char 92; atom) i with
  | .ok r p => if eqIC p b!"\\recent" then .ok r .recent else (FlagFetch.flag <$> flag : P FlagFetch) i
  | _ => (FlagFetch.flag <$> flag : P FlagFetch) i

/-- `FlagPerm` (imap-types/src/flag.rs:121-127). -/
inductive FlagPerm where
  | flag (f : Flag)
  | asterisk
  deriving DecidableEq, Repr

/-- The type invariants of `FlagPerm`. -/
def FlagPerm.valid : FlagPerm → Bool
  | .flag f => f.valid
  | .asterisk => true

/-- `FlagPerm::encode_ctx` (imap-codec/src/codec/encode.rs:883-890). -/
def FlagPerm.enc : FlagPerm → List W
  | .flag f => f.enc
  | .asterisk => [.wr b!"\\*"]

/-- `flag_perm` (imap-codec/src/flag.rs:70-75). -/
def flagPerm : P FlagPerm := alt [value .asterisk (tag b!"\\*"), .flag <$> flag]

/-- `FlagNameAttribute` (imap-types/src/flag.rs:139-159). -/
inductive FlagNameAttribute where
  | noinferiors | noselect | marked | unmarked
  | extension (s : Bytes)
  deriving DecidableEq, Repr

/-- `From<Atom> for FlagNameAttribute` (imap-types/src/flag.rs:181-191). -/
def FlagNameAttribute.ofAtom (atom : Bytes) : FlagNameAttribute :=
  let l := lowerAll atom
  if l = b!"noinferiors" then .noinferiors
  else if l = b!"noselect" then .noselect
  else if l = b!"marked" then .marked
  else if l = b!"unmarked" then .unmarked
  else .extension atom

/-- The type invariants of `FlagNameAttribute`: extensions can only be created by the conversion from atoms. -/
def FlagNameAttribute.valid : FlagNameAttribute → Bool
  | .extension s => isAtom s && FlagNameAttribute.ofAtom s == .extension s
  | _ => true

/-- `Display for FlagNameAttribute` (imap-types/src/flag.rs:193-203), which its encoder uses
(imap-codec/src/codec/encode.rs:1656-1660). -/
def FlagNameAttribute.enc : FlagNameAttribute → List W
  | .noinferiors => [.wr b!"\\Noinferiors"]
  | .noselect => [.wr b!"\\Noselect"]
  | .marked => [.wr b!"\\Marked"]
  | .unmarked => [.wr b!"\\Unmarked"]
  | .extension s => [.wr (b!"\\" ++ s)]

/-- `mbx_list_flags` (imap-codec/src/flag.rs:84-102). -/
def mbxListFlags : P (List FlagNameAttribute) :=
  sepList1 sp (FlagNameAttribute.ofAtom <$> (do char 92; atom))

/-! ### Dates -/

/-- `NaiveDate` (imap-types/src/datetime.rs:97). The calendar is `chrono`'s, the proleptic Gregorian calendar; only
years in 0..=9999 can be represented. -/
structure NaiveDate where
  year : Nat
  month : Nat
  day : Nat
  deriving DecidableEq, Repr

/-- Leap years of the proleptic Gregorian calendar. -/
def isLeap (y : Nat) : Bool := (y % 4 == 0 && y % 100 != 0) || y % 400 == 0

/-- Days of a month. -/
def daysIn (y m : Nat) : Nat :=
  if m = 2 then if isLeap y then 29 else 28
  else if m = 4 ∨ m = 6 ∨ m = 9 ∨ m = 11 then 30
  else 31

/-- `NaiveDate::validate` (imap-types/src/datetime.rs:100-107) and the invariants of `chrono::NaiveDate`. -/
def NaiveDate.valid (d : NaiveDate) : Bool :=
  d.year ≤ 9999 && 1 ≤ d.month && d.month ≤ 12 && 1 ≤ d.day && d.day ≤ daysIn d.year d.month

/-- `chrono::NaiveDate::from_ymd_opt` (for years that fit in a `u16` and have four digits). -/
def fromYmdOpt (y m d : Nat) : Option NaiveDate :=
  if 1 ≤ m ∧ m ≤ 12 ∧ 1 ≤ d ∧ d ≤ daysIn y m then some ⟨y, m, d⟩ else none

/-- `DateTime` (imap-types/src/datetime.rs:15): the local date and time, and the offset from UTC in seconds. -/
structure DateTime where
  date : NaiveDate
  hour : Nat
  minute : Nat
  second : Nat
  offset : Int
  deriving DecidableEq, Repr

/-- `DateTime::validate` (imap-types/src/datetime.rs:18-37) and the invariants of `chrono::DateTime<FixedOffset>`. Fractional
seconds (and so leap seconds) are excluded by `validate`; they are not represented in the model. -/
def DateTime.valid (t : DateTime) : Bool :=
  t.date.valid && t.hour ≤ 23 && t.minute ≤ 59 && t.second ≤ 59 && t.offset % 60 == 0 && t.offset.natAbs < 86400

/-- `%d`, `%H`, `%M`, `%S` of `chrono`: two digits. -/
def show2 (n : Nat) : Bytes := [UInt8.ofNat (48 + n / 10), UInt8.ofNat (48 + n % 10)]

/-- `%Y` of `chrono` for years in 0..=9999: four digits. -/
def show4 (n : Nat) : Bytes :=
  [UInt8.ofNat (48 + n / 1000), UInt8.ofNat (48 + n / 100 % 10), UInt8.ofNat (48 + n / 10 % 10), UInt8.ofNat (48 + n % 10)]

/-- `%b` of `chrono`: abbreviated names of months. -/
def monthName : Nat → Bytes
  | 1 => b!"Jan" | 2 => b!"Feb" | 3 => b!"Mar" | 4 => b!"Apr" | 5 => b!"May" | 6 => b!"Jun"
  | 7 => b!"Jul" | 8 => b!"Aug" | 9 => b!"Sep" | 10 => b!"Oct" | 11 => b!"Nov" | 12 => b!"Dec"
  | _ => []

/-- `%d-%b-%Y`. -/
def showDate (d : NaiveDate) : Bytes := show2 d.day ++ b!"-" ++ monthName d.month ++ b!"-" ++ show4 d.year

/-- `NaiveDate::encode_ctx` (imap-codec/src/codec/encode.rs:1070-1074). -/
def NaiveDate.enc (d : NaiveDate) : List W := [.wr (b!"\"" ++ showDate d ++ b!"\"")]

/-- `%z` of `chrono`, for offsets that are whole minutes. -/
def showZone (o : Int) : Bytes :=
  (if o < 0 then b!"-" else b!"+") ++ show2 (o.natAbs / 3600) ++ show2 (o.natAbs / 60 % 60)

/-- `DateTime::encode_ctx` (imap-codec/src/codec/encode.rs:892-896, 2024-2028). -/
def DateTime.enc (t : DateTime) : List W :=
  [.wr (b!"\"" ++ showDate t.date ++ b!" " ++ show2 t.hour ++ b!":" ++ show2 t.minute ++ b!":" ++ show2 t.second ++ b!" " ++
    showZone t.offset ++ b!"\"")]

/-- `digit_1_2` (imap-codec/src/datetime.rs:182-192); two digits always fit in a `u8`. -/
def digit12 : P Nat := decVal <$> take1or2 isDigit

/-- `digit_2` (imap-codec/src/datetime.rs:194-204); two digits always fit in a `u8`. -/
def digit2 : P Nat := decVal <$> takeExactly isDigit 2

/-- `digit_4` (imap-codec/src/datetime.rs:206-216); four digits always fit in a `u16`. -/
def digit4 : P Nat := decVal <$> takeExactly isDigit 4

/-- `date_month` (imap-codec/src/datetime.rs:54-69). -/
def dateMonth : P Nat :=
  alt [value 1 (tagNC b!"Jan"), value 2 (tagNC b!"Feb"), value 3 (tagNC b!"Mar"), value 4 (tagNC b!"Apr"),
    value 5 (tagNC b!"May"), value 6 (tagNC b!"Jun"), value 7 (tagNC b!"Jul"), value 8 (tagNC b!"Aug"),
    value 9 (tagNC b!"Sep"), value 10 (tagNC b!"Oct"), value 11 (tagNC b!"Nov"), value 12 (tagNC b!"Dec")]

/-- `date_text` (imap-codec/src/datetime.rs:29-38). -/
def dateText : P (Option NaiveDate) := do
  let d ← digit12
  tag b!"-"
  let m ← dateMonth
  tag b!"-"
  let y ← digit4
  return fromYmdOpt y m d

/-- `date` (imap-codec/src/datetime.rs:22-24). -/
def date : P (Option NaiveDate) := alt [dateText, do dquote; let d ← dateText; dquote; return d]

/-- `time` (imap-codec/src/datetime.rs:83-92) with `chrono::NaiveTime::from_hms_opt`. -/
def time : P (Option (Nat × Nat × Nat)) := do
  let h ← digit2
  tag b!":"
  let m ← digit2
  tag b!":"
  let s ← digit2
  return if h < 24 ∧ m < 60 ∧ s < 60 then some (h, m, s) else none

/-- `date_day_fixed` (imap-codec/src/datetime.rs:147-155). -/
def dateDayFixed : P Nat := alt [digitVal <$> (do sp; satisfy isDigit), digit2]

/-- `zone` (imap-codec/src/datetime.rs:166-180), with `chrono::FixedOffset::{east_opt, west_opt}`. -/
def zone : P (Option Int) := do
  let east ← alt [value true (char 43), value false (char 45)]
  let hh ← digit2
  let mm ← digit2
  let o := 3600 * hh + 60 * mm
  return if o < 86400 then some (if east then (o : Int) else -(o : Int)) else none

/-- The end of `date_time` (imap-codec/src/datetime.rs:114-139). -/
def mkDateTime (d : Option NaiveDate) (t : Option (Nat × Nat × Nat)) (z : Option Int) : P DateTime :=
  match d, t, z with
  | some d, some t, some z => return ⟨d, t.1, t.2.1, t.2.2, z⟩
  | _, _, _ => fun _ => .failure .badDateTime

/-- `date_time` (imap-codec/src/datetime.rs:101-140). `FixedOffset::from_local_datetime` always gives a single result
for years in 0..=9999. -/
def dateTime : P DateTime := do
  dquote
  let d ← dateDayFixed
  tag b!"-"
  let m ← dateMonth
  tag b!"-"
  let y ← digit4
  sp
  let t ← time
  sp
  let z ← zone
  dquote
  mkDateTime (fromYmdOpt y m d) t z

/-! ### Authentication -/

/-- `AuthMechanism` (imap-types/src/auth.rs:26-137). -/
inductive AuthMechanism where
  | plain | login | oAuthBearer | xOAuth2
  | scramSha1 | scramSha1Plus | scramSha256 | scramSha256Plus | scramSha3_512 | scramSha3_512Plus
  | other (s : Bytes)
  deriving DecidableEq, Repr

/-- `From<Atom> for AuthMechanism` (imap-types/src/auth.rs:149-163). -/
def AuthMechanism.ofAtom (atom : Bytes) : AuthMechanism :=
  let u := upperAll atom
  if u = b!"PLAIN" then .plain
  else if u = b!"LOGIN" then .login
  else if u = b!"OAUTHBEARER" then .oAuthBearer
  else if u = b!"XOAUTH2" then .xOAuth2
  else if u = b!"SCRAM-SHA-1" then .scramSha1
  else if u = b!"SCRAM-SHA-1-PLUS" then .scramSha1Plus
  else if u = b!"SCRAM-SHA-256" then .scramSha256
  else if u = b!"SCRAM-SHA-256-PLUS" then .scramSha256Plus
  else .other atom

/-- `AsRef<str> for AuthMechanism` (imap-types/src/auth.rs:171-187). -/
def AuthMechanism.name : AuthMechanism → Bytes
  | .plain => b!"PLAIN"
  | .login => b!"LOGIN"
  | .oAuthBearer => b!"OAUTHBEARER"
  | .xOAuth2 => b!"XOAUTH2"
  | .scramSha1 => b!"SCRAM-SHA-1"
  | .scramSha1Plus => b!"SCRAM-SHA-1-PLUS"
  | .scramSha256 => b!"SCRAM-SHA-256"
  | .scramSha256Plus => b!"SCRAM-SHA-256-PLUS"
  | .scramSha3_512 => b!"SCRAM-SHA3-512"
  | .scramSha3_512Plus => b!"SCRAM-SHA3-512-PLUS"
  | .other s => s

/-- `AuthMechanism::encode_ctx` (imap-codec/src/codec/encode.rs:750-754). -/
def AuthMechanism.enc (m : AuthMechanism) : List W := [.wr m.name]

/-- The type invariants of `AuthMechanism`: an `AuthMechanismOther` can only be created by the conversion from atoms.
EXCLUSION: `ScramSha3_512` and `ScramSha3_512Plus`, which the conversion does not know. -/
def AuthMechanism.valid : AuthMechanism → Bool
  | .scramSha3_512 => false
  | .scramSha3_512Plus => false
  | .other s => isAtom s && AuthMechanism.ofAtom s == .other s
  | _ => true

/-- `auth_type` (imap-codec/src/auth.rs:23-27). -/
def authType : P AuthMechanism := AuthMechanism.ofAtom <$> atom

/-- `AuthenticateData` (imap-types/src/auth.rs:211-219). -/
inductive AuthenticateData where
  | continue_ (data : Bytes)
  | cancel
  deriving DecidableEq, Repr

/-- `AuthenticateData::encode_ctx` (imap-codec/src/codec/encode.rs:756-767). -/
def AuthenticateData.enc : AuthenticateData → List W
  | .continue_ d => [.wr (b64Encode d), .wr b!"\r\n"]
  | .cancel => [.wr b!"*\r\n"]

/-- `authenticate_data` (imap-codec/src/auth.rs:39-44). -/
def authenticateData [Quirks] : P AuthenticateData :=
  alt [.continue_ <$> (do let d ← base64; crlf; return d), value .cancel (do tag b!"*"; crlf)]

/-- `IdleDone::encode_ctx` (imap-codec/src/extensions/idle.rs:57-61). -/
def encIdleDone : List W := [.wr b!"DONE\r\n"]

/-- `idle_done` (imap-codec/src/extensions/idle.rs:53-55). -/
def idleDone [Quirks] : P Unit := value () (do tagNC b!"DONE"; crlf)

/-! ### Status items -/

/-- `StatusDataItemName` (imap-types/src/status.rs:14-39). -/
inductive StatusDataItemName where
  | messages | recent | uidNext | uidValidity | unseen | deleted | deletedStorage | highestModSeq
  deriving DecidableEq, Repr

/-- `StatusDataItemName::encode_ctx` (imap-codec/src/codec/encode.rs:852-866). -/
def StatusDataItemName.enc : StatusDataItemName → List W
  | .messages => [.wr b!"MESSAGES"]
  | .recent => [.wr b!"RECENT"]
  | .uidNext => [.wr b!"UIDNEXT"]
  | .uidValidity => [.wr b!"UIDVALIDITY"]
  | .unseen => [.wr b!"UNSEEN"]
  | .deleted => [.wr b!"DELETED"]
  | .deletedStorage => [.wr b!"DELETED-STORAGE"]
  | .highestModSeq => [.wr b!"HIGHESTMODSEQ"]

/-- The name is a part of the type in this build (imap-types/src/status.rs:36-38). -/
def StatusDataItemName.valid [q : Quirks] : StatusDataItemName → Bool
  | .highestModSeq => q.extCondstoreQresync
  | _ => true

/-- `status_att` (imap-codec/src/status.rs:23-41). -/
def statusAtt [Quirks] : P StatusDataItemName :=
  alt [value .messages (tagNC b!"MESSAGES"), value .recent (tagNC b!"RECENT"), value .uidNext (tagNC b!"UIDNEXT"),
    value .uidValidity (tagNC b!"UIDVALIDITY"), value .unseen (tagNC b!"UNSEEN"),
    value .deletedStorage (tagNC b!"DELETED-STORAGE"), value .deleted (tagNC b!"DELETED"),
    gate Quirks.extCondstoreQresync (value .highestModSeq (tagNC b!"HIGHESTMODSEQ"))]

end Imap
