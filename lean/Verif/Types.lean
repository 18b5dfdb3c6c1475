import Verif.Codec
/-
The validating constructors and conversions of imap-types: imap-types/src/{core,mailbox,flag,auth,command,response,error}.rs.

Rust strings and byte strings are both modelled by bytes; a `&str` argument is a byte string that is valid UTF-8. The conversions from
`&[u8]`, `Vec<u8>`, `&str` and `String` differ only in ownership, and in that those from bytes contain `from_utf8(..).unwrap()`; the
models here are those from bytes, where the panic is explicit.
-/
namespace Imap

/-- `ValidationErrorKind` (imap-types/src/error.rs:21-31). -/
inductive ValidationError where
  | empty
  | notEnough (min : Nat)
  | invalid
  | invalidByteAt (byte : UInt8) (at_ : Nat)
  deriving DecidableEq, Repr

/-- The result of a fallible function: `Ok`, `Err`, or a panic. -/
inductive Made (ε α : Type) where
  | ok (a : α)
  | err (e : ε)
  | panicked
  deriving DecidableEq, Repr

/-- The operator `?`. -/
def Made.bind {ε α β : Type} : Made ε α → (α → Made ε β) → Made ε β
  | .ok a, f => f a
  | .err e, _ => .err e
  | .panicked, _ => .panicked

instance {ε : Type} : Monad (Made ε) where
  pure := .ok
  bind := Made.bind

/-- `Result::map_err`. -/
def Made.mapErr {ε δ α : Type} (f : ε → δ) : Made ε α → Made δ α
  | .ok a => .ok a
  | .err e => .err (f e)
  | .panicked => .panicked

/-- `slice.iter().position(p)`. -/
def position (p : UInt8 → Bool) : Bytes → Option Nat
  | [] => none
  | b :: bs => if p b then some 0 else (position p bs).map (· + 1)

/-- The common part of the functions `validate` (for example imap-types/src/core.rs:130-137): find the first byte that is not in the
class, and index the slice, which could panic. -/
def validateBytes (ok : UInt8 → Bool) (v : Bytes) : Made ValidationError Unit :=
  match position (fun b => !ok b) v with
  | some at_ =>
    match v[at_]? with
    | some byte => .err (.invalidByteAt byte at_)
    | none => .panicked
  | none => .ok ()

/-- The check for the empty string followed by `validateBytes` (for example imap-types/src/core.rs:126-137). -/
def validateBytes1 (ok : UInt8 → Bool) (v : Bytes) : Made ValidationError Unit :=
  if v.isEmpty then .err .empty else validateBytes ok v

/-- `from_utf8(value).unwrap()` (for example imap-types/src/core.rs:179). -/
def fromUtf8Unwrap (v : Bytes) : Made ValidationError Bytes := if isUtf8 v then .ok v else .panicked

/-- `Atom::validate` (imap-types/src/core.rs:123-138). -/
def Atom.validate (v : Bytes) : Made ValidationError Unit := validateBytes1 isAtomChar v

/-- `TryFrom<&[u8]> for Atom` (imap-types/src/core.rs:172-181). -/
def Atom.tryFrom (v : Bytes) : Made ValidationError Bytes := do
  Atom.validate v
  fromUtf8Unwrap v

/-- `AtomExt::validate` (imap-types/src/core.rs:273-288). -/
def AtomExt.validate (v : Bytes) : Made ValidationError Unit := validateBytes1 isAStringChar v

/-- `TryFrom<&[u8]> for AtomExt` (imap-types/src/core.rs:322-331). -/
def AtomExt.tryFrom (v : Bytes) : Made ValidationError Bytes := do
  AtomExt.validate v
  fromUtf8Unwrap v

/-- `Literal::validate` (imap-types/src/core.rs:567-578). -/
def Literal.validate (v : Bytes) : Made ValidationError Unit := validateBytes isChar8 v

/-- `TryFrom<&[u8]> for Literal` (imap-types/src/core.rs:665-676). -/
def Literal.tryFrom (v : Bytes) : Made ValidationError Literal := do
  Literal.validate v
  return ⟨v, .sync⟩

/-- `Literal::into_sync` (imap-types/src/core.rs:593-596). -/
def Literal.intoSync (l : Literal) : Literal := { l with mode := .sync }

/-- `Literal::into_non_sync` (imap-types/src/core.rs:603-606). -/
def Literal.intoNonSync (l : Literal) : Literal := { l with mode := .nonSync }

/-- `Quoted::validate` (imap-types/src/core.rs:772-783). -/
def Quoted.validate (v : Bytes) : Made ValidationError Unit := validateBytes isTextChar v

/-- `TryFrom<&[u8]> for Quoted` (imap-types/src/core.rs:815-824). -/
def Quoted.tryFrom (v : Bytes) : Made ValidationError Bytes := do
  Quoted.validate v
  fromUtf8Unwrap v

/-- `if let Ok(x) = a { return Ok(f(x)); } b` (for example imap-types/src/core.rs:424-428). -/
def Made.orElse {ε α : Type} (a b : Made ε α) : Made ε α :=
  match a with
  | .ok a => .ok a
  | .err _ => b
  | .panicked => .panicked

/-- `TryFrom<&[u8]> for IString` (imap-types/src/core.rs:420-430). -/
def IString.tryFrom (v : Bytes) : Made ValidationError IString :=
  (do return IString.quoted (← Quoted.tryFrom v) : Made _ IString).orElse (do return .literal (← Literal.tryFrom v))

/-- `TryFrom<&[u8]> for NString` (imap-types/src/core.rs:904-910). -/
def NString.tryFrom (v : Bytes) : Made ValidationError NString := do return some (← IString.tryFrom v)

/-- `TryFrom<&[u8]> for AString` (imap-types/src/core.rs:951-961). -/
def AString.tryFrom (v : Bytes) : Made ValidationError AString :=
  (do return AString.atom (← AtomExt.tryFrom v) : Made _ AString).orElse (do return .string (← IString.tryFrom v))

/-- `Tag::validate` (imap-types/src/core.rs:1070-1088). -/
def Tag.validate (v : Bytes) : Made ValidationError Unit := validateBytes1 (fun b => !(!isAStringChar b || b == 43)) v

/-- `TryFrom<&[u8]> for Tag` (imap-types/src/core.rs:1116-1125). -/
def Tag.tryFrom (v : Bytes) : Made ValidationError Bytes := do
  Tag.validate v
  fromUtf8Unwrap v

/-- `Text::validate` (imap-types/src/core.rs:1249-1264). -/
def Text.validate (v : Bytes) : Made ValidationError Unit := validateBytes1 isTextChar v

/-- `TryFrom<&[u8]> for Text` (imap-types/src/core.rs:1296-1305). -/
def Text.tryFrom (v : Bytes) : Made ValidationError Bytes := do
  Text.validate v
  fromUtf8Unwrap v

/-- `TryFrom<char> for QuotedChar` (imap-types/src/core.rs:1362-1373, 1396-1404); the cast `input as u8` is only reached for ASCII
characters. -/
def QuotedChar.tryFrom (c : Char) : Made ValidationError UInt8 :=
  if c.toNat < 128 && (isAnyTextCharExceptQuotedSpecials (UInt8.ofNat c.toNat) || c == '\\' || c == '"') then
    .ok (UInt8.ofNat c.toNat)
  else .err .invalid

/-- `TryFrom<&[u8]> for Charset` (imap-types/src/core.rs:1452-1462). -/
def Charset.tryFrom (v : Bytes) : Made ValidationError Charset :=
  (do return Charset.atom (← Atom.tryFrom v) : Made _ Charset).orElse (do return .quoted (← Quoted.tryFrom v))

/-- `Charset::as_ref` (imap-types/src/core.rs:1502-1509). -/
def Charset.content : Charset → Bytes
  | .atom s => s
  | .quoted s => s

/-- `TryFrom<Vec<T>> for VecN<T, N>` (imap-types/src/core.rs:1549-1557, 1586-1594). -/
def VecN.tryFrom {α : Type} (n : Nat) (l : List α) : Made ValidationError (List α) :=
  if l.length < n then .err (.notEnough n) else .ok l

/-! ### Mailboxes -/

/-- `ListCharString::validate` (imap-types/src/mailbox.rs:24-39) and `TryFrom<&str>` (63-71), which has no `unwrap`. -/
def ListCharString.tryFrom (v : Bytes) : Made ValidationError Bytes := do
  validateBytes1 isListChar v
  return v

/-- `TryFrom<&str> for ListMailbox` (imap-types/src/mailbox.rs:98-113). -/
def ListMailbox.tryFrom (v : Bytes) : Made ValidationError ListMailbox :=
  if v.isEmpty then
    match Quoted.tryFrom v with
    | .ok q => .ok (.string (.quoted q))
    | _ => .panicked
  else (do return ListMailbox.token (← ListCharString.tryFrom v) : Made _ ListMailbox).orElse (do return .string (← IString.tryFrom v))

/-- `ListMailbox` as bytes: `ListCharString::as_ref` (imap-types/src/mailbox.rs:83-87) or `IString::as_ref`. -/
def ListMailbox.content : ListMailbox → Bytes
  | .token s => s
  | .string s => s.content

/-- `TryFrom<&[u8]> for Mailbox` (imap-types/src/mailbox.rs:181, macro at imap-types/src/core.rs:64-76). -/
def Mailbox.tryFrom (v : Bytes) : Made ValidationError Mailbox := do
  let s ← AString.tryFrom v
  match Mailbox.fromAString s with
  | some m => .ok m
  | none => .panicked

/-- `MailboxOtherError` (imap-types/src/mailbox.rs:277-282). -/
inductive MailboxOtherError where
  | literal (e : ValidationError)
  | reserved
  deriving DecidableEq, Repr

/-- `TryFrom<&[u8]> for MailboxOther` (imap-types/src/mailbox.rs:203-210, 233-249). -/
def MailboxOther.tryFromBytes (v : Bytes) : Made MailboxOtherError AString := do
  let s ← (AString.tryFrom v).mapErr .literal
  if eqIC s.content b!"inbox" then .err .reserved else .ok s

/-! ### Flags and mechanisms -/

/-- `TryFrom<&str> for Flag` (imap-types/src/flag.rs:69-79). -/
def Flag.tryFrom (v : Bytes) : Made ValidationError Flag :=
  match v with
  | 92 :: v => do return .system (← Atom.tryFrom v)
  | _ => do return .keyword (← Atom.tryFrom v)

/-- `TryFrom<&[u8]> for AuthMechanism` (imap-types/src/auth.rs:143) and `FromStr` (189-195). -/
def AuthMechanism.tryFrom (v : Bytes) : Made ValidationError AuthMechanism := do return .ofAtom (← Atom.tryFrom v)

/-! ### Commands

The constructors take arguments of types that implement `TryInto`. The model takes the result of this conversion. -/

/-- `Command::new` (imap-types/src/command.rs:52-60) and `CommandBody::tag` (1550-1558). -/
def Command.mk' {ε : Type} (tag : Made ε Bytes) (body : CommandBody) : Made ε Command := do return ⟨← tag, body⟩

namespace CommandBody

/-- `CommandBody::authenticate` (imap-types/src/command.rs:1563-1568). -/
def mkAuthenticate (mechanism : AuthMechanism) : CommandBody := .authenticate mechanism none

/-- `CommandBody::authenticate_with_ir` (imap-types/src/command.rs:1577-1585). -/
def mkAuthenticateWithIr (mechanism : AuthMechanism) (initialResponse : Bytes) : CommandBody :=
  .authenticate mechanism (some initialResponse)

/-- The errors of constructors with two fallible arguments: `LoginError`, `RenameError`, `ListError`, `AppendError`, `CopyError`
(imap-types/src/command.rs:1890-1936). -/
inductive Error2 (ε δ : Type) where
  | first (e : ε)
  | second (e : δ)
  deriving DecidableEq, Repr

variable {ε δ : Type}

/-- `CommandBody::login` (imap-types/src/command.rs:1588-1597). -/
def mkLogin (username : Made ε AString) (password : Made δ AString) : Made (Error2 ε δ) CommandBody := do
  let u ← username.mapErr .first
  let p ← password.mapErr .second
  return .login u p

/-- `CommandBody::select` (imap-types/src/command.rs:1600-1609). -/
def mkSelect (mailbox : Made ε Mailbox) : Made ε CommandBody := do return .select (← mailbox) []

/-- `CommandBody::examine` (imap-types/src/command.rs:1612-1621). -/
def mkExamine (mailbox : Made ε Mailbox) : Made ε CommandBody := do return .examine (← mailbox) []

/-- `CommandBody::create` (imap-types/src/command.rs:1624-1631). -/
def mkCreate (mailbox : Made ε Mailbox) : Made ε CommandBody := do return .create (← mailbox)

/-- `CommandBody::delete` (imap-types/src/command.rs:1634-1641). -/
def mkDelete (mailbox : Made ε Mailbox) : Made ε CommandBody := do return .delete (← mailbox)

/-- `CommandBody::rename` (imap-types/src/command.rs:1644-1653). -/
def mkRename (mailbox : Made ε Mailbox) (newMailbox : Made δ Mailbox) : Made (Error2 ε δ) CommandBody := do
  let a ← mailbox.mapErr .first
  let b ← newMailbox.mapErr .second
  return .rename a b

/-- `CommandBody::subscribe` (imap-types/src/command.rs:1656-1663). -/
def mkSubscribe (mailbox : Made ε Mailbox) : Made ε CommandBody := do return .subscribe (← mailbox)

/-- `CommandBody::unsubscribe` (imap-types/src/command.rs:1666-1673). -/
def mkUnsubscribe (mailbox : Made ε Mailbox) : Made ε CommandBody := do return .unsubscribe (← mailbox)

/-- `CommandBody::list` (imap-types/src/command.rs:1676-1688). -/
def mkList (reference : Made ε Mailbox) (wildcard : Made δ ListMailbox) : Made (Error2 ε δ) CommandBody := do
  let a ← reference.mapErr .first
  let b ← wildcard.mapErr .second
  return .list a b

/-- `CommandBody::lsub` (imap-types/src/command.rs:1691-1703). -/
def mkLsub (reference : Made ε Mailbox) (wildcard : Made δ ListMailbox) : Made (Error2 ε δ) CommandBody := do
  let a ← reference.mapErr .first
  let b ← wildcard.mapErr .second
  return .lsub a b

/-- `CommandBody::status` (imap-types/src/command.rs:1706-1717). -/
def mkStatus (mailbox : Made ε Mailbox) (itemNames : List StatusDataItemName) : Made ε CommandBody := do
  return .status (← mailbox) itemNames

/-- `CommandBody::append` (imap-types/src/command.rs:1720-1736). -/
def mkAppend (mailbox : Made ε Mailbox) (flags : List Flag) (date : Option DateTime) (message : Made δ Literal) :
    Made (Error2 ε δ) CommandBody := do
  let m ← mailbox.mapErr .first
  let d ← message.mapErr .second
  return .append m flags date (.literal d)

/-- `CommandBody::search` (imap-types/src/command.rs:1739-1745). -/
def mkSearch (charset : Option Charset) (criteria : List SearchKey) (uid : Bool) : CommandBody := .search charset criteria uid

/-- `CommandBody::fetch` (imap-types/src/command.rs:1748-1762). -/
def mkFetch (s : Made ε SequenceSet) (items : MacroOrNames) (uid : Bool) : Made ε CommandBody := do
  return .fetch (← s) items uid []

/-- `CommandBody::store` (imap-types/src/command.rs:1765-1786). -/
def mkStore (s : Made ε SequenceSet) (kind : StoreType) (response : StoreResponse) (flags : List Flag) (uid : Bool) :
    Made ε CommandBody := do
  return .store (← s) kind response flags uid []

/-- `CommandBody::copy` (imap-types/src/command.rs:1789-1803). -/
def mkCopy (s : Made ε SequenceSet) (mailbox : Made δ Mailbox) (uid : Bool) : Made (Error2 ε δ) CommandBody := do
  let s ← s.mapErr .first
  let m ← mailbox.mapErr .second
  return .copy s m uid

/-- `CommandBody::name` (imap-types/src/command.rs:1806-1853). -/
def name : CommandBody → Bytes
  | .capability => b!"CAPABILITY"
  | .noop => b!"NOOP"
  | .logout => b!"LOGOUT"
  | .startTls => b!"STARTTLS"
  | .authenticate .. => b!"AUTHENTICATE"
  | .login .. => b!"LOGIN"
  | .select .. => b!"SELECT"
  | .sort .. => b!"SORT"
  | .thread .. => b!"THREAD"
  | .unselect => b!"UNSELECT"
  | .examine .. => b!"EXAMINE"
  | .create .. => b!"CREATE"
  | .delete .. => b!"DELETE"
  | .rename .. => b!"RENAME"
  | .subscribe .. => b!"SUBSCRIBE"
  | .unsubscribe .. => b!"UNSUBSCRIBE"
  | .list .. => b!"LIST"
  | .lsub .. => b!"LSUB"
  | .status .. => b!"STATUS"
  | .append .. => b!"APPEND"
  | .check => b!"CHECK"
  | .close => b!"CLOSE"
  | .expunge => b!"EXPUNGE"
  | .expungeUid .. => b!"EXPUNGE"
  | .search .. => b!"SEARCH"
  | .fetch .. => b!"FETCH"
  | .store .. => b!"STORE"
  | .copy .. => b!"COPY"
  | .idle => b!"IDLE"
  | .enable .. => b!"ENABLE"
  | .compress => b!"COMPRESS"
  | .getQuota .. => b!"GETQUOTA"
  | .getQuotaRoot .. => b!"GETQUOTAROOT"
  | .setQuota .. => b!"SETQUOTA"
  | .move .. => b!"MOVE"
  | .id .. => b!"ID"
  | .setMetadata .. => b!"SETMETADATA"
  | .getMetadata .. => b!"GETMETADATA"
  | .namespace_ => b!"NAMESPACE"

end CommandBody

/-- `Command::name` (imap-types/src/command.rs:63-65). -/
def Command.name (c : Command) : Bytes := c.body.name

/-! ### Responses -/

/-- `Greeting::new` (imap-types/src/response.rs:60-70); `ok`, `preauth` and `bye` (72-94) are `new` with a fixed kind. -/
def Greeting.mk' (kind : GreetingKind) (code : Option Code) (text : Bytes) : Made ValidationError Greeting := do
  return ⟨kind, code, ← Text.tryFrom text⟩

/-- `Status::new` (imap-types/src/response.rs:228-247); `ok`, `no` and `bad` (249-271) are `new` with a fixed kind. -/
def Status.mk' {ε : Type} (tag : Option Bytes) (kind : StatusKind) (code : Option Code) (text : Made ε Bytes) : Made ε Status := do
  let text ← text
  match tag with
  | some tag => return .tagged tag kind code text
  | none => return .untagged kind code text

/-- `Status::bye` (imap-types/src/response.rs:273-281). -/
def Status.mkBye {ε : Type} (code : Option Code) (text : Made ε Bytes) : Made ε Status := do return .bye code (← text)

/-- `Status::tag` (imap-types/src/response.rs:285-290). -/
def Status.tag? : Status → Option Bytes
  | .tagged tag .. => some tag
  | _ => none

/-- `Status::code` (imap-types/src/response.rs:292-301). -/
def Status.code : Status → Option Code
  | .untagged _ c _ | .tagged _ _ c _ | .bye c _ => c

/-- `Status::text` (imap-types/src/response.rs:303-312). -/
def Status.text : Status → Bytes
  | .untagged _ _ t | .tagged _ _ _ t | .bye _ t => t

/-- `ContinueError` (imap-types/src/response.rs:1296-1301). -/
inductive ContinueError (ε : Type) where
  | ambiguity
  | text (e : ε)
  deriving DecidableEq, Repr

/-- `CommandContinuationRequest::basic` and `CommandContinuationRequestBasic::new` (imap-types/src/response.rs:689-696, 745-762). -/
def ContinueReq.mkBasic {ε : Type} (code : Option Code) (text : Made ε Bytes) : Made (ContinueError ε) ContinueReq := do
  let text ← text.mapErr .text
  match ContinueReq.ofBasic code text with
  | some r => .ok r
  | none => .err .ambiguity

/-- `NonZeroU32::try_from(u32)`; the error is `TryFromIntError`. -/
def nonZeroU32 (n : Nat) : Made Unit Nat := if n = 0 then .err () else .ok n

/-- `Data::capability` (imap-types/src/response.rs:610-615). -/
def Data.mkCapability {ε : Type} (caps : Made ε (List Capability)) : Made ε Data := do return .capability (← caps)

/-- `Data::expunge` (imap-types/src/response.rs:642-644). -/
def Data.mkExpunge (seq : Nat) : Made Unit Data := do return .expunge (← nonZeroU32 seq)

/-- `Data::fetch` (imap-types/src/response.rs:646-655). -/
def Data.mkFetch {ε δ : Type} (seq : Made ε Nat) (items : Made δ (List MessageDataItem)) :
    Made (CommandBody.Error2 ε δ) Data := do
  let s ← seq.mapErr .first
  let i ← items.mapErr .second
  return .fetch s i

end Imap
