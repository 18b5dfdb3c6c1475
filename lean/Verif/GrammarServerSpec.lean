import Verif.GrammarSpec
import Verif.Response
/-!
Specification for C49: the formal syntax of greetings and responses, written after the ABNF of the RFCs. See `Verif/GrammarSpec.lean` for
the notation and for the words LENIENT and STRICT.

Two rules of RFC 3501 are ambiguous: a response text that starts with `[` may start with a code or be a text only, and a continuation
request may be base64 or a text. The rules here say which of the two is meant.
-/
namespace Imap.Grammar.Server

open Imap.Spec (AtomChar TextChar IsAtom)

variable {α : Type}

/-! ### Notation -/

/-- The texts of `g` that do not have the property. -/
def except (g : G α) (p : Bytes → Prop) : G α := fun w v => g w v ∧ ¬ p w

/-- `2*g`. -/
def twoOrMore (g : G α) : G (List α) := do
  let a ← g
  let l ← plus g
  return a :: l

/-- `[SP]` with a quirk, nothing without. -/
def spIf (b : Bool) : G Unit := if b then optD () sp else pure ()

/-! ### Capabilities and codes -/

/-- `capa-quota-res = "QUOTA=RES-" resource-name` (RFC 9208), after `QUOTA=`. LENIENT: other characters may precede `RES-`; the resource is
what follows the first `RES-`. The name denotes what it denotes in lowercase. -/
def quotaRes : G Resource := fun w v =>
  ∃ p r, lowerAll w = p ++ b!"res-" ++ r ∧ (∀ p' r', lowerAll w = p' ++ b!"res-" ++ r' → p.length ≤ p'.length) ∧
    named Spec.resourceNames .other r v

/-- Capabilities with a parameter: `"AUTH=" auth-type` (RFC 3501), `"SORT=" sort-alg` (RFC 5957), `"THREAD=" thread-alg` (RFC 5256) and
`capa-quota-res`. -/
def capabilityParameter : G Capability := choice [
  .auth <$> do lit b!"AUTH="; authType,
  (fun a => .sort (some a)) <$> do lit b!"SORT="; named Spec.sortNames .other,
  .thread <$> do lit b!"THREAD="; named Spec.threadNames .other,
  .quotaRes <$> do lit b!"QUOTA="; quotaRes]

/-- `capability = ("AUTH=" auth-type) / atom`: a known name, a capability with a parameter, or any other atom. STRICT: `NAMESPACE` is not a
known name. -/
def capability [Quirks] : G Capability := fun w v =>
  (lowerAll w, v) ∈ Spec.capabilityNames ∨ (IsAtom w ∧ capabilityParameter w v) ∨
    (IsAtom w ∧ lowerAll w ∉ Spec.capabilityNames.map Prod.fst ∧ (∀ c, ¬ capabilityParameter w c) ∧ v = .other w)

/-- `capability-data = "CAPABILITY" *(SP capability) SP "IMAP4rev1" *(SP capability)`. LENIENT: `IMAP4rev1` may be missing, and with the
quirk `trailing_space_capability` a space may follow. -/
def capabilityData [q : Quirks] : G (List Capability) := do
  lit b!"CAPABILITY "
  let l ← sepBy1 sp capability
  spIf q.trailingSpaceCapability
  return l

/-- `uid-set = (uniqueid / uid-range) *("," uid-set)`, `uid-range = uniqueid ":" uniqueid`, `uniqueid = nz-number` (RFC 4315). -/
def uidSet : G (List UidElement) :=
  sepBy1 (lit b!",") (choice [.single <$> nzNumber, do let a ← nzNumber; lit b!":"; let b ← nzNumber; return .range a b])

/-- `flag-perm = flag / "\*"`. -/
def flagPerm : G FlagPerm := choice [.flag <$> flag, is b!"\\*" .asterisk]

/-- `resp-text-code`, see the comments below; the codes that are known. -/
def respTextCode [q : Quirks] : G Code := choice [
  -- "ALERT" / "BADCHARSET" [SP "(" astring *(SP astring) ")"] / capability-data / "PARSE" /
  -- STRICT: atoms and quoted strings only
  is b!"ALERT" .alert,
  .badCharset <$> do lit b!"BADCHARSET"; optD [] (do lit b!" "; parens (sepBy1 sp charset)),
  .capability <$> capabilityData,
  is b!"PARSE" .parse,
  -- "PERMANENTFLAGS" SP "(" [flag-perm *(SP flag-perm)] ")" / "READ-ONLY" / "READ-WRITE" / "TRYCREATE" /
  .permanentFlags <$> do lit b!"PERMANENTFLAGS "; parens (sepBy0 sp flagPerm),
  is b!"READ-ONLY" .readOnly,
  is b!"READ-WRITE" .readWrite,
  is b!"TRYCREATE" .tryCreate,
  -- "UIDNEXT" SP nz-number / "UIDVALIDITY" SP nz-number / "UNSEEN" SP nz-number /
  .uidNext <$> do lit b!"UIDNEXT "; nzNumber,
  .uidValidity <$> do lit b!"UIDVALIDITY "; nzNumber,
  .unseen <$> do lit b!"UNSEEN "; nzNumber,
  -- "COMPRESSIONACTIVE" (RFC 4978), "OVERQUOTA" (RFC 9208), "TOOBIG" (RFC 4469),
  is b!"COMPRESSIONACTIVE" .compressionActive,
  is b!"OVERQUOTA" .overQuota,
  is b!"TOOBIG" .tooBig,
  -- "METADATA" SP ("LONGENTRIES" SP number / "MAXSIZE" SP number / "TOOMANY" / "NOPRIVATE") (RFC 5464),
  onlyIf q.extMetadata (.metadata <$> do
    lit b!"METADATA "
    choice [.longEntries <$> do lit b!"LONGENTRIES "; number, .maxSize <$> do lit b!"MAXSIZE "; number, is b!"TOOMANY" .tooMany,
      is b!"NOPRIVATE" .noPrivate]),
  -- "UNKNOWN-CTE" (RFC 3516),
  is b!"UNKNOWN-CTE" .unknownCte,
  -- "APPENDUID" SP nz-number SP append-uid, "COPYUID" SP nz-number SP uid-set SP uid-set, "UIDNOTSTICKY" (RFC 4315),
  -- STRICT: only one UID after APPENDUID
  do lit b!"APPENDUID "; let v ← nzNumber; sp; let u ← nzNumber; return .appendUid v u,
  do lit b!"COPYUID "; let v ← nzNumber; sp; let s ← uidSet; sp; let d ← uidSet; return .copyUid v s d,
  is b!"UIDNOTSTICKY" .uidNotSticky,
  -- "HIGHESTMODSEQ" SP mod-sequence-value / "NOMODSEQ" / "MODIFIED" SP sequence-set / "CLOSED" (RFC 7162)
  onlyIf q.extCondstoreQresync (choice [
    .highestModSeq <$> do lit b!"HIGHESTMODSEQ "; modSequenceValue,
    is b!"NOMODSEQ" .noModSeq,
    .modified <$> do lit b!"MODIFIED "; sequenceSet,
    is b!"CLOSED" .closed])]

/-! ### Texts -/

/-- `text = 1*TEXT-CHAR`. -/
def text : G Bytes := token TextChar

/-- `"]" SP text`. LENIENT: with the quirk `missing_text` the space and the text may be missing, which denotes the text `...`. -/
def afterCode [q : Quirks] : G Bytes := do
  lit b!"]"
  if q.missingText then optD b!"..." (do sp; text) else do sp; text

/-- Any other code. LENIENT: RFC 3501 requires an atom, possibly followed by a space and other characters. -/
def otherCode : G Code := fun w v => v = .other w ∧ ∀ b ∈ w, b ∉ b!"]\r\n"

/-- The text starts with a code that is known. -/
def StartsWithKnownCode [Quirks] (w : Bytes) : Prop := ∃ p r c, w = b!"[" ++ p ++ b!"]" ++ r ∧ respTextCode p c

/-- `resp-text = ["[" resp-text-code "]" SP] text`. A text that starts with `[` starts with a code, and with a code that is known if that
is possible. -/
def respText [Quirks] : G (Option Code × Bytes) := choice [
  do lit b!"["; let c ← respTextCode; let t ← afterCode; return (some c, t),
  except (do lit b!"["; let c ← otherCode; let t ← afterCode; return (some c, t)) StartsWithKnownCode,
  (fun t => (none, t)) <$> except text (fun w => ∃ r, w = b!"[" ++ r)]

/-! ### Greetings, status responses and continuation requests -/

/-- `greeting = "*" SP (resp-cond-auth / resp-cond-bye) CRLF`, `resp-cond-auth = ("OK" / "PREAUTH") SP resp-text`,
`resp-cond-bye = "BYE" SP resp-text`. -/
def greeting [Quirks] : G Greeting := do
  lit b!"* "
  let k ← choice [is b!"OK " GreetingKind.ok, is b!"PREAUTH " .preAuth, is b!"BYE " .bye]
  let (c, t) ← respText
  crlf
  return ⟨k, c, t⟩

/-- `("OK" / "NO" / "BAD") SP`. -/
def condition : G StatusKind := choice [is b!"OK " .ok, is b!"NO " .no, is b!"BAD " .bad]

/-- `response-tagged = tag SP resp-cond-state CRLF`, `resp-cond-state = ("OK" / "NO" / "BAD") SP resp-text`. -/
def responseTagged [Quirks] : G Status := do
  let a ← tag
  sp
  let k ← condition
  let (c, t) ← respText
  crlf
  return .tagged a k c t

/-- `continue-req = "+" SP (resp-text / base64) CRLF`. What can be base64 is base64. LENIENT: with the quirk
`empty_continue_req` nothing but the plus sign is needed, which denotes the text `...`. -/
def continueReq [q : Quirks] : G ContinueReq := choice [
  .base64 <$> do { lit b!"+ "; let d ← base64; crlf; return d },
  do lit b!"+ "; let (c, t) ← except respText (fun w => ∃ d, base64 w d); crlf; return .basic c t,
  do lit b!"+"; crlf; if q.emptyContinueReq then return .basic none b!"..." else choice []]

/-! ### Envelopes and body structures -/

/-- `address = "(" addr-name SP addr-adl SP addr-mailbox SP addr-host ")"`, all of them `nstring`. LENIENT: with the quirk
`spaces_between_addresses` spaces may precede. -/
def address [q : Quirks] : G Address := do
  if q.spacesBetweenAddresses then (do let _ ← Star sp; pure ()) else pure ()
  lit b!"("
  let name ← nstring
  sp
  let adl ← nstring
  sp
  let mailbox ← nstring
  sp
  let host ← nstring
  lit b!")"
  return { name, adl, mailbox, host }

/-- `"(" 1*address ")" / nil`. -/
def addresses [Quirks] : G (List Address) := choice [parens (plus address), is b!"NIL" []]

/-- `envelope = "(" env-date SP env-subject SP env-from SP env-sender SP env-reply-to SP env-to SP env-cc SP env-bcc SP env-in-reply-to SP
env-message-id ")"`. -/
def envelope [Quirks] : G Envelope := do
  lit b!"("
  let date ← nstring
  sp
  let subject ← nstring
  sp
  let from_ ← addresses
  sp
  let sender ← addresses
  sp
  let replyTo ← addresses
  sp
  let to_ ← addresses
  sp
  let cc ← addresses
  sp
  let bcc ← addresses
  sp
  let inReplyTo ← nstring
  sp
  let messageId ← nstring
  lit b!")"
  return { date, subject, from_, sender, replyTo, to_, cc, bcc, inReplyTo, messageId }

/-- `body-fld-param = "(" string SP string *(SP string SP string) ")" / nil`. LENIENT: the list may be empty. -/
def bodyFldParam [Quirks] : G Params :=
  choice [parens (sepBy0 sp (do let k ← string; sp; let v ← string; return (k, v))), is b!"NIL" []]

/-- `body-fld-enc = (DQUOTE ("7BIT" / "8BIT" / "BINARY" / "BASE64" / "QUOTED-PRINTABLE") DQUOTE) / string`. LENIENT: with a quirk, also
`NIL`, which denotes the empty string. -/
def bodyFldEnc [q : Quirks] : G IString :=
  if q.bodyFldEncNilToEmpty then choice [string, is b!"NIL" (.quoted [])] else string

/-- `body-fld-octets = number`. LENIENT: with the quirk `rectify_numbers` also negative numbers, which denote 0. -/
def bodyFldOctets [q : Quirks] : G Nat :=
  if q.rectifyNumbers then choice [number, do lit b!"-"; let _ ← number; return 0] else number

/-- `body-fields = body-fld-param SP body-fld-id SP body-fld-desc SP body-fld-enc SP body-fld-octets`. -/
def bodyFields [Quirks] : G BasicFields := do
  let parameterList ← bodyFldParam
  sp
  let id ← nstring
  sp
  let description ← nstring
  sp
  let contentTransferEncoding ← bodyFldEnc
  sp
  let size ← bodyFldOctets
  return { parameterList, id, description, contentTransferEncoding, size }

/-- `body-extension = nstring / number / "(" body-extension *(SP body-extension) ")"`. STRICT: up to a depth. -/
def bodyExtension [Quirks] : Nat → G BodyExtension
  | 0 => choice []
  | n + 1 => choice [.nstring <$> nstring, .number <$> number, .list <$> parens (sepBy1 sp (bodyExtension n))]

/-- `body-fld-dsp = "(" string SP body-fld-param ")" / nil`. -/
def bodyFldDsp [Quirks] : G (Option (IString × Params)) :=
  choice [some <$> parens (do let s ← string; sp; let ps ← bodyFldParam; return (s, ps)), is b!"NIL" none]

/-- `body-fld-lang = nstring / "(" string *(SP string) ")"`. -/
def bodyFldLang [Quirks] : G (List IString) := choice [(fun s => s.toList) <$> nstring, parens (sepBy1 sp string)]

/-- `[SP body-fld-dsp [SP body-fld-lang [SP body-fld-loc *(SP body-extension)]]]`. -/
def extTail [Quirks] : G (Option Disposition) := opt (do
  sp
  let disposition ← bodyFldDsp
  let tail ← opt (do
    sp
    let language ← bodyFldLang
    let tail ← opt (do
      sp
      let location ← nstring
      let extensions ← Star (do sp; bodyExtension 8)
      return { location, extensions })
    return { language, tail })
  return { disposition, tail })

/-- `[SP body-ext-1part]`, `body-ext-1part = body-fld-md5 [SP body-fld-dsp [...]]`, `body-fld-md5 = nstring`. -/
def ext1part [Quirks] : G (Option SinglePartExt) := opt (do
  sp
  let md5 ← nstring
  let tail ← extTail
  return { md5, tail })

/-- `[SP body-ext-mpart]`, `body-ext-mpart = body-fld-param [SP body-fld-dsp [...]]`. -/
def extMpart [Quirks] : G (Option MultiPartExt) := opt (do
  sp
  let parameterList ← bodyFldParam
  let tail ← extTail
  return { parameterList, tail })

/-- `body-type-msg = media-message SP body-fields SP envelope SP body SP body-fld-lines`, with `[SP body-ext-1part]`. -/
def bodyMessage [Quirks] (body : G BodyStructure) : G BodyStructure := do
  lit b!"\"MESSAGE\" \"RFC822\" "
  let f ← bodyFields
  sp
  let e ← envelope
  sp
  let b ← body
  sp
  let n ← number
  let x ← ext1part
  return .message f e b n x

/-- `body-type-text = media-text SP body-fields SP body-fld-lines`, `media-text = DQUOTE "TEXT" DQUOTE SP string`, with
`[SP body-ext-1part]`. -/
def bodyText [Quirks] : G BodyStructure := do
  lit b!"\"TEXT\" "
  let s ← string
  sp
  let f ← bodyFields
  sp
  let n ← number
  let x ← ext1part
  return .text f s n x

/-- `body-type-basic = media-basic SP body-fields`, `media-basic = string SP string`, with `[SP body-ext-1part]`. -/
def bodyBasic [Quirks] : G BodyStructure := do
  let t ← string
  sp
  let s ← string
  sp
  let f ← bodyFields
  let x ← ext1part
  return .basic f t s x

/-- `body-type-mpart = 1*body SP media-subtype [SP body-ext-mpart]`. -/
def bodyMultipart [Quirks] (body : G BodyStructure) : G BodyStructure := do
  let bs ← plus body
  sp
  let s ← string
  let x ← extMpart
  return .multi bs s x

/-- The bodies whose derivation has a height of at most `k`. Bodies of `n` and less than `n` nested parts, where the count starts again in
an attached message. -/
def bodyUpTo [Quirks] : Nat → Nat → G BodyStructure
  | 0, _ => choice []
  | _, 0 => choice []
  | _, 1 => choice []
  | k + 1, n + 2 => parens (choice [bodyMessage (bodyUpTo k 7), bodyText, bodyBasic, bodyMultipart (bodyUpTo k (n + 1))])

/-- `body = "(" (body-type-1part / body-type-mpart) ")"`. STRICT: at most 6 multiparts are nested, and 5 in an attached message. -/
def body [Quirks] : G BodyStructure := fun w v => ∃ k, bodyUpTo k 8 w v

/-! ### FETCH -/

/-- System flags and `\Recent`, without the backslash. -/
def fetchFlagNames : List (Bytes × FlagFetch) := (b!"recent", .recent) :: Spec.flagNames.map fun x => (x.1, .flag x.2)

/-- `flag-fetch = flag / "\Recent"`. -/
def flagFetch : G FlagFetch :=
  choice [do lit b!"\\"; named fetchFlagNames (fun s => .flag (.extension s)), (fun s => .flag (.keyword s)) <$> atom]

/-- `msg-att-dynamic / msg-att-static`, see the comments below. -/
def msgAttItem [q : Quirks] : G MessageDataItem := choice [
  -- "FLAGS" SP "(" [flag-fetch *(SP flag-fetch)] ")" / "MODSEQ" SP "(" mod-sequence-value ")" (RFC 7162)
  .flags <$> do lit b!"FLAGS "; parens (sepBy0 sp flagFetch),
  onlyIf q.extCondstoreQresync (.modSeq <$> do lit b!"MODSEQ "; parens modSequenceValue),
  -- "ENVELOPE" SP envelope / "INTERNALDATE" SP date-time / "RFC822" [".HEADER" / ".TEXT"] SP nstring / "RFC822.SIZE" SP number /
  .envelope <$> do lit b!"ENVELOPE "; envelope,
  .internalDate <$> do lit b!"INTERNALDATE "; dateTime,
  .rfc822Header <$> do lit b!"RFC822.HEADER "; nstring,
  .rfc822Text <$> do lit b!"RFC822.TEXT "; nstring,
  .rfc822Size <$> do lit b!"RFC822.SIZE "; number,
  .rfc822 <$> do lit b!"RFC822 "; nstring,
  -- "BODY" ["STRUCTURE"] SP body / "BODY" section ["<" number ">"] SP nstring / "UID" SP uniqueid /
  .bodyStructure <$> do lit b!"BODYSTRUCTURE "; body,
  .body <$> do lit b!"BODY "; body,
  do
    lit b!"BODY"
    let s ← «section»
    let o ← opt (do lit b!"<"; let n ← number; lit b!">"; return n)
    sp
    let d ← nstring
    return .bodyExt s o d,
  .uid <$> do lit b!"UID "; nzNumber,
  -- "BINARY" section-binary SP (nstring / literal8) / "BINARY.SIZE" section-binary SP number (RFC 3516)
  do lit b!"BINARY"; let s ← sectionBinary; sp; let v ← imapValue; return .binary s v,
  do lit b!"BINARY.SIZE"; let s ← sectionBinary; sp; let n ← number; return .binarySize s n]

/-- `msg-att = "(" (msg-att-dynamic / msg-att-static) *(SP (msg-att-dynamic / msg-att-static)) ")"`. -/
def msgAtt [Quirks] : G (List MessageDataItem) := parens (sepBy1 sp msgAttItem)

/-! ### Data -/

/-- `DQUOTE QUOTED-CHAR DQUOTE / nil`. -/
def delimiter : G (Option UInt8) := choice [fun w v => ∃ c, v = some c ∧ quoted w [c], is b!"NIL" none]

/-- `mailbox-list = "(" [mbx-list-flags] ")" SP (DQUOTE QUOTED-CHAR DQUOTE / nil) SP mailbox`, where the flags are atoms with a backslash.
LENIENT: the flags may contradict each other. -/
def mailboxList [Quirks] : G (List FlagNameAttribute × Option UInt8 × Mailbox) := do
  let l ← parens (sepBy0 sp (do lit b!"\\"; named Spec.attributeNames .extension))
  sp
  let d ← delimiter
  sp
  let m ← mailbox
  return (l, d, m)

/-- `*(SP nz-number) [SP "(" "MODSEQ" SP mod-sequence-value ")"]` (RFC 3501, RFC 7162). -/
def numbers [q : Quirks] : G (List NzU32 × Option Nat) := do
  let l ← Star (do sp; nzNumber)
  let m ← opt (onlyIf q.extCondstoreQresync do lit b!" (MODSEQ "; let n ← modSequenceValue; lit b!")"; return n)
  return (l, m)

/-- `thread-list = "(" (thread-members / thread-nested) ")"`, `thread-members = nz-number *(SP nz-number) [SP thread-nested]`,
`thread-nested = 2*(thread-list)` (RFC 5256). STRICT: up to a depth. -/
def threadList : Nat → G Thread
  | 0 => choice []
  | n + 1 => parens (choice [
    do let p ← sepBy1 sp nzNumber; let l ← optD [] (do sp; twoOrMore (threadList n)); return .members p l,
    .nested <$> twoOrMore (threadList n)])

/-- The items of `STATUS` (RFC 3501, RFC 9208, RFC 7162). -/
def statusAttVal [q : Quirks] : G StatusDataItem := choice [
  .messages <$> do lit b!"MESSAGES "; number,
  .recent <$> do lit b!"RECENT "; number,
  .uidNext <$> do lit b!"UIDNEXT "; nzNumber,
  .uidValidity <$> do lit b!"UIDVALIDITY "; nzNumber,
  .unseen <$> do lit b!"UNSEEN "; number,
  .deleted <$> do lit b!"DELETED "; number,
  .deletedStorage <$> do lit b!"DELETED-STORAGE "; number64,
  onlyIf q.extCondstoreQresync (.highestModSeq <$> do lit b!"HIGHESTMODSEQ "; modSequenceValzer)]

/-- `Namespace = nil / "(" 1*("(" string SP (<"> QUOTED_CHAR <"> / nil) *(Namespace_Response_Extension) ")") ")"`,
`Namespace_Response_Extension = SP string SP "(" string *(SP string) ")"` (RFC 2342). -/
def namespaces [Quirks] : G (List Namespace) := choice [is b!"NIL" [], parens (plus (parens (do
  let prefix_ ← string
  sp
  let delimiter ← delimiter
  let extensions ← Star (do sp; let key ← string; sp; let values ← parens (sepBy1 sp string); return { key, values })
  return { prefix_, delimiter, extensions })))]

/-- `SP`. LENIENT: with a quirk, more than one. -/
def quotaSp [q : Quirks] : G Unit := if q.excessiveSpaceQuotaResource then (do let _ ← plus sp; pure ()) else sp

/-- `quota-resource = resource-name SP resource-usage SP resource-limit` (RFC 9208). -/
def quotaResource [Quirks] : G QuotaGet := do
  let resource ← named Spec.resourceNames .other
  quotaSp
  let usage ← number64
  quotaSp
  let limit ← number64
  return { resource, usage, limit }

/-- `response-data` without `"*" SP` and `CRLF`, except for status responses; see the comments below. -/
def data [q : Quirks] : G Data := choice [
  -- mailbox-data = "FLAGS" SP flag-list / "LIST" SP mailbox-list / "LSUB" SP mailbox-list /
  .flags <$> do lit b!"FLAGS "; flagList,
  (fun x => .list x.1 x.2.1 x.2.2) <$> do lit b!"LIST "; mailboxList,
  (fun x => .lsub x.1 x.2.1 x.2.2) <$> do lit b!"LSUB "; mailboxList,
  -- "SEARCH" *(SP nz-number) [SP search-sort-mod-seq] / (with a quirk a space may follow)
  do lit b!"SEARCH"; let (l, m) ← numbers; spIf q.trailingSpaceSearch; return .search l m,
  -- "SORT" *(SP nz-number) [SP search-sort-mod-seq] / "THREAD" [SP 1*thread-list] (RFC 5256) /
  do lit b!"SORT"; let (l, m) ← numbers; return .sort l m,
  .thread <$> do lit b!"THREAD"; optD [] (do sp; plus (threadList 8)),
  -- "STATUS" SP mailbox SP "(" [status-att-list] ")" / (with a quirk a space may follow)
  do lit b!"STATUS "; let m ← mailbox; sp; let l ← parens (sepBy0 sp statusAttVal); spIf q.trailingSpaceStatus; return .status m l,
  -- "METADATA" SP mailbox SP (entry-values / entry-list) (RFC 5464) / LENIENT: the entries are any strings
  onlyIf q.extMetadata do
    lit b!"METADATA "
    let m ← mailbox
    sp
    let r ← choice [.withValues <$> parens (sepBy1 sp (do let e ← astring; sp; let v ← imapValue; return ⟨e, v⟩)),
      .withoutValues <$> sepBy1 sp astring]
    return .metadata m r,
  -- "NAMESPACE" SP Namespace SP Namespace SP Namespace (RFC 2342) / number SP "EXISTS" / number SP "RECENT"
  onlyIf q.extNamespace do lit b!"NAMESPACE "; let p ← namespaces; sp; let o ← namespaces; sp; let s ← namespaces; return .namespace_ p o s,
  do let n ← number; lit b!" EXISTS"; return .exists_ n,
  do let n ← number; lit b!" RECENT"; return .recent n,
  -- "QUOTAROOT" SP mailbox *(SP quota-root-name) / "QUOTA" SP quota-root-name SP quota-list (RFC 9208)
  -- STRICT: the list of resources must not be empty
  do lit b!"QUOTAROOT "; let m ← mailbox; let l ← Star (do sp; astring); return .quotaRoot m l,
  do lit b!"QUOTA "; let r ← astring; sp; let l ← parens (sepBy1 sp quotaResource); return .quota r l,
  -- message-data = nz-number SP ("EXPUNGE" / ("FETCH" SP msg-att))
  do let n ← nzNumber; lit b!" EXPUNGE"; return .expunge n,
  do let n ← nzNumber; lit b!" FETCH "; let l ← msgAtt; return .fetch n l,
  -- "VANISHED" [SP "(EARLIER)"] SP known-uids (RFC 7162)
  onlyIf q.extCondstoreQresync do lit b!"VANISHED"; let e ← optD false (is b!" (EARLIER)" true); sp; let s ← sequenceSet; return .vanished e s,
  -- capability-data
  .capability <$> capabilityData,
  -- "ENABLED" *(SP capability) (RFC 5161)
  .enabled <$> do lit b!"ENABLED"; Star (do sp; named Spec.enableNames .other),
  -- "ID" SP id_params_list (RFC 2971)
  onlyIf q.extId (.id_ <$> do lit b!"ID "; idParams)]

/-- `response-data = "*" SP (resp-cond-state / resp-cond-bye / mailbox-data / message-data / capability-data) CRLF`. -/
def responseData [Quirks] : G Response := do
  lit b!"* "
  let r ← choice [
    do let k ← condition; let (c, t) ← respText; return .status (.untagged k c t),
    do lit b!"BYE "; let (c, t) ← respText; return .status (.bye c t),
    .data <$> data]
  crlf
  return r

/-- `response = *(continue-req / response-data) response-done`; here one of them. -/
def response [Quirks] : G Response := choice [.continue_ <$> continueReq, responseData, .status <$> responseTagged]

end Imap.Grammar.Server
