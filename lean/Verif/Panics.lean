import Verif.Types
/-
The places in the decoder of imap-codec that can panic: `unwrap`, `unreachable!` and, in builds with debug assertions, the functions
`unvalidated` of imap-types. Each is written here as in the code: a parser, and what is done with its result.

Not here: `tag.expect(..)` (imap-codec/src/codec/decode.rs:335), see `C08_decode_never_panics`; `PartSpecifier::PartNumber(_)`
(imap-codec/src/fetch.rs:271, 283), which no parser makes and which the model's type does not have; `CodeOther::unvalidated`
(imap-codec/src/response.rs:99), which checks nothing (imap-types/src/response.rs:1042-1047); panics inside of nom, chrono and base64.
-/
namespace Imap.Panics

open Imap

/-- The result of a function that has no errors, but can panic. -/
abbrev Risky (α : Type) := Made Empty α

/-- `Result::unwrap`. -/
def unwrap {ε α : Type} : Made ε α → Risky α
  | .ok a => .ok a
  | _ => .panicked

/-- `Option::unwrap`, and `match` with an arm `unreachable!()`. -/
def unwrapOption {α : Type} : Option α → Risky α
  | some a => .ok a
  | none => .panicked

/-- The functions `unvalidated` (for example imap-types/src/core.rs:159-169): `validate` is called only with debug assertions. -/
def unvalidated {α : Type} (debug : Bool) (validate : α → Made ValidationError Unit) (v : α) : Risky α :=
  if debug then (unwrap (validate v)).bind fun _ => .ok v else .ok v

/-- `map(p, f)` (nom) where `f` can panic; `none` is the panic. -/
def mapRisky {α β : Type} (p : P α) (f : α → Risky β) (x : Bytes) : Option (Res β) :=
  match p x with
  | .ok r v =>
    match f v with
    | .ok b => some (.ok r b)
    | _ => none
  | .incomplete => some .incomplete
  | .error => some .error
  | .failure k => some (.failure k)

/-- `|val| from_utf8(val).unwrap()` (imap-codec/src/core.rs:43, 60, 101; imap-codec/src/datetime.rs:188, 200, 212). -/
def utf8 (v : Bytes) : Risky Bytes := unwrap (fromUtf8Unwrap v)

/-- `digit1` with `from_utf8` in `number` and `number64` (imap-codec/src/core.rs:43, 60). -/
def digit1 : Bytes → Option (Res Bytes) := mapRisky (takeWhile1 isDigit) utf8

/-- The digits in `digit_1_2`, `digit_2` and `digit_4` (imap-codec/src/datetime.rs:182-216). -/
def digits12 : Bytes → Option (Res Bytes) := mapRisky (take1or2 isDigit) utf8
def digitsN (n : Nat) : Bytes → Option (Res Bytes) := mapRisky (takeExactly isDigit n) utf8

/-- The text between the quotes in `quoted` (imap-codec/src/core.rs:92-102). -/
def quotedText : Bytes → Option (Res Bytes) := mapRisky (escaped isAnyTextCharExceptQuotedSpecials) utf8

variable (debug : Bool)

/-- `quoted` (imap-codec/src/core.rs:86-109), after `quotedText`. -/
def quoted : Bytes → Option (Res Bytes) :=
  mapRisky (do dquote; let s ← escaped isAnyTextCharExceptQuotedSpecials; dquote; return s) fun s =>
    unvalidated debug Quoted.validate (unescapeQuoted s)

/-- `assert_eq!(bytes.len(), 1); bytes[0] as char` (imap-codec/src/core.rs:117-120, 124-127). -/
def assertOne : Bytes → Risky UInt8
  | [b] => .ok b
  | _ => .panicked

/-- The two alternatives of `quoted_char` (imap-codec/src/core.rs:115-128), the second after the backslash. -/
def quotedCharPlain : Bytes → Option (Res UInt8) := mapRisky (takeExactly isAnyTextCharExceptQuotedSpecials 1) assertOne
def quotedCharEscaped : Bytes → Option (Res UInt8) := mapRisky (takeExactly isQuotedSpecials 1) assertOne

/-- `bytes[0] - b'0'` in `date_day_fixed` (imap-codec/src/datetime.rs:149-152), after the space. The index can be out of bounds and, with
debug assertions, the subtraction can overflow; here it panics always. -/
def dayDigit : Bytes → Option (Res UInt8) :=
  mapRisky (takeExactly isDigit 1) fun
    | [] => .panicked
    | b :: _ => if b < 48 then .panicked else .ok (b - 48)

/-- `QuotedChar::validate` (imap-types/src/core.rs:1363-1373). -/
def validateQuotedChar (c : Char) : Made ValidationError Unit := (QuotedChar.tryFrom c).bind fun _ => .ok ()

/-- The end of `quoted_char` (imap-codec/src/core.rs:112-132). SIMPLIFIED: the parsers of one byte are those of the model, that return a byte
instead of a slice of length one; see `quotedCharPlain` and `quotedCharEscaped` for these. -/
def quotedChar : Bytes → Option (Res Char) :=
  mapRisky Imap.quotedChar fun b => unvalidated debug validateQuotedChar (Char.ofNat b.toNat)

/-- The first alternative of `astring` (imap-codec/src/core.rs:202-211). -/
def atomExt : Bytes → Option (Res Bytes) :=
  mapRisky (takeWhile1 isAStringChar) fun v => (utf8 v).bind (unvalidated debug AtomExt.validate)

/-- `atom` (imap-codec/src/core.rs:218-231). -/
def atom : Bytes → Option (Res Bytes) := mapRisky (takeWhile1 isAtomChar) fun v => (utf8 v).bind (unvalidated debug Atom.validate)

/-- `text` (imap-codec/src/core.rs:253-259). -/
def text : Bytes → Option (Res Bytes) := mapRisky (takeWhile1 isTextChar) fun v => (utf8 v).bind (unvalidated debug Text.validate)

/-- `tag_imap` (imap-codec/src/core.rs:293-300). -/
def tagImap : Bytes → Option (Res Bytes) :=
  mapRisky (takeWhile1 fun b => isAStringChar b && b != 43) fun v => (utf8 v).bind (unvalidated debug Tag.validate)

/-- The first alternative of `list_mailbox` (imap-codec/src/mailbox.rs:39-48). -/
def listChars : Bytes → Option (Res Bytes) :=
  mapRisky (takeWhile1 isListChar) fun v => (utf8 v).bind (unvalidated debug (validateBytes1 isListChar))

/-- `VecN::validate` (imap-types/src/core.rs:1549-1557). -/
def validateVecN {α : Type} (n : Nat) (l : List α) : Made ValidationError Unit := (VecN.tryFrom n l).bind fun _ => .ok ()

/-- `map(separated_list1(sep, p), Vec1::unvalidated)`: imap-codec/src/extensions/namespace.rs:116, metadata.rs:61, 137, 180, 217,
sort.rs:54, thread.rs:140, uidplus.rs:85, imap-codec/src/body.rs:435, search.rs:38, 222, 235, response.rs:233,
fetch.rs:131, 325, 342, sequence.rs:44. SIMPLIFIED: at some of these, more is parsed between the list and `unvalidated`; the list is the same. -/
def list1 {α : Type} (sep : P Unit) (p : P α) : Bytes → Option (Res (List α)) :=
  mapRisky (sepList1 sep p) (unvalidated debug (validateVecN 1))

/-- `separated_list1(sep, p)` with `Vec1::try_from(..).unwrap()` (imap-codec/src/extensions/quota.rs:119). -/
def list1Unwrap {α : Type} (sep : P Unit) (p : P α) : Bytes → Option (Res (List α)) :=
  mapRisky (sepList1 sep p) fun l => unwrap (VecN.tryFrom 1 l)

/-- `many1(p)` with `Vec1::try_from(..).unwrap()` (imap-codec/src/extensions/enable.rs:48, imap-codec/src/body.rs:470). -/
def vec1 {α : Type} (p : P α) : Bytes → Option (Res (List α)) := mapRisky (many1 p) fun l => unwrap (VecN.tryFrom 1 l)

/-- `many_m_n(2, usize::MAX, p)` with `Vec2::unvalidated` (imap-codec/src/extensions/thread.rs:136-147). -/
def vec2 {α : Type} (p : P α) : Bytes → Option (Res (List α)) := mapRisky (many2 p) (unvalidated debug (validateVecN 2))

/-- `NaiveDate::validate` (imap-types/src/datetime.rs:100-107). SIMPLIFIED: one error. -/
def validateDate (d : NaiveDate) : Made ValidationError Unit := if d.year ≤ 9999 then .ok () else .err .invalid

/-- `date_text` (imap-codec/src/datetime.rs:29-38). SIMPLIFIED: the date is checked after `from_ymd_opt` of the model. -/
def dateText : Bytes → Option (Res (Option NaiveDate)) :=
  mapRisky Imap.dateText fun o =>
    match o with
    | none => .ok none
    | some d => (unvalidated debug validateDate d).bind fun d => .ok (some d)

/-- `DateTime::validate` (imap-types/src/datetime.rs:18-37). SIMPLIFIED: one error; the parser makes no fractions of seconds. -/
def validateDateTime (t : DateTime) : Made ValidationError Unit :=
  if t.date.year ≤ 9999 then if t.offset % 60 ≠ 0 then .err .invalid else .ok () else .err .invalid

/-- The end of `date_time` (imap-codec/src/datetime.rs:127). -/
def dateTime : Bytes → Option (Res DateTime) := mapRisky Imap.dateTime (unvalidated debug validateDateTime)

/-- The sign in `zone` (imap-codec/src/datetime.rs:167-177). -/
def zoneSign : Bytes → Option (Res Bool) :=
  mapRisky (alt [value 43 (char 43), value 45 (char 45)]) fun sign : UInt8 =>
    if sign = 43 then .ok true else if sign = 45 then .ok false else .panicked

variable [Quirks]

/-- `mailbox` (imap-codec/src/mailbox.rs:62-64), with the `unwrap` in `From<AString> for Mailbox` (imap-types/src/mailbox.rs:186-193). -/
def mailbox : Bytes → Option (Res Mailbox) := mapRisky astring fun s => unwrapOption (Mailbox.fromAString s)

/-- `uid` (imap-codec/src/command.rs:786-805), after `UID `. -/
def uid : Bytes → Option (Res CommandBody) := mapRisky uidBody fun c => unwrapOption c.setUid

/-- The first alternative of `section_spec` (imap-codec/src/fetch.rs:270-277), for `PartSpecifier::Mime`. -/
def sectionMsgtext : Bytes → Option (Res Section) := mapRisky Imap.sectionMsgtext fun s => unwrapOption (Section.ofMsgtext s)

/-- The end of `continue_req` (imap-codec/src/response.rs:316-319); the text is a `Text` already. -/
def continueReq : Bytes → Option (Res ContinueReq) :=
  mapRisky continueInner fun
    | .base64 d => .ok (.base64 d)
    | .basic (code, text) => unwrap (ContinueReq.mkBasic code (.ok text : Made Empty Bytes))

/-- `CommandContinuationRequest::basic(None, "...").unwrap()` in `empty_continue_req` (imap-codec/src/response.rs:273). -/
def emptyContinueReq : Risky ContinueReq := unwrap (ContinueReq.mkBasic none (Text.tryFrom b!"..."))

omit [Quirks] in
/-- `Text::unvalidated("...")` (imap-codec/src/response.rs:113). -/
def missingText : Risky Bytes := unvalidated debug Text.validate b!"..."

omit [Quirks] in
/-- `IString::try_from("").unwrap()` in `body_fld_enc` (imap-codec/src/body.rs:279). -/
def missingEncoding : Risky IString := unwrap (IString.tryFrom [])

end Imap.Panics
