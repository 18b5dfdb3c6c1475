import Verif.Command
/-
Envelopes and body structures (imap-types/src/envelope.rs, imap-types/src/body.rs, imap-codec/src/envelope.rs,
imap-codec/src/body.rs).
-/
namespace Imap

/-! ### Envelopes -/

/-- `Address` (imap-types/src/envelope.rs:43-52). -/
structure Address where
  name : NString
  adl : NString
  mailbox : NString
  host : NString
  deriving DecidableEq, Repr

/-- The invariants of the components. -/
def Address.valid [Quirks] (a : Address) : Bool :=
  NString.valid a.name && NString.valid a.adl && NString.valid a.mailbox && NString.valid a.host

/-- `impl EncodeIntoContext for Address` (imap-codec/src/codec/encode.rs:1920-1934). -/
def Address.enc (a : Address) : List W :=
  .wr b!"(" :: encNString a.name ++ .wr b!" " :: encNString a.adl ++ .wr b!" " :: encNString a.mailbox ++
    .wr b!" " :: encNString a.host ++ [.wr b!")"]

/-- `Envelope` (imap-types/src/envelope.rs:14-25). -/
structure Envelope where
  date : NString
  subject : NString
  from_ : List Address
  sender : List Address
  replyTo : List Address
  to_ : List Address
  cc : List Address
  bcc : List Address
  inReplyTo : NString
  messageId : NString
  deriving DecidableEq, Repr

/-- The invariants of the components. -/
def Envelope.valid [Quirks] (e : Envelope) : Bool :=
  NString.valid e.date && NString.valid e.subject && e.from_.all Address.valid && e.sender.all Address.valid &&
    e.replyTo.all Address.valid && e.to_.all Address.valid && e.cc.all Address.valid && e.bcc.all Address.valid &&
    NString.valid e.inReplyTo && NString.valid e.messageId

/-- The addresses of a field: `List1OrNil(_, b"")` (imap-codec/src/codec/encode.rs:1901-1911). -/
def encAddresses (l : List Address) : List W := list1OrNil [] (l.map Address.enc)

/-- `impl EncodeIntoContext for Envelope` (imap-codec/src/codec/encode.rs:1894-1918). -/
def Envelope.enc (e : Envelope) : List W :=
  .wr b!"(" :: encNString e.date ++ .wr b!" " :: encNString e.subject ++ .wr b!" " :: encAddresses e.from_ ++
    .wr b!" " :: encAddresses e.sender ++ .wr b!" " :: encAddresses e.replyTo ++ .wr b!" " :: encAddresses e.to_ ++
    .wr b!" " :: encAddresses e.cc ++ .wr b!" " :: encAddresses e.bcc ++ .wr b!" " :: encNString e.inReplyTo ++
    .wr b!" " :: encNString e.messageId ++ [.wr b!")"]

section
variable [q : Quirks]

/-- The parenthesized part of `address` (imap-codec/src/envelope.rs:182-186). -/
def addressParen : P Address := do
  tag b!"("
  let name ← nstring
  sp
  let adl ← nstring
  sp
  let mailbox ← nstring
  sp
  let host ← nstring
  tag b!")"
  return ⟨name, adl, mailbox, host⟩

/-- `address` (imap-codec/src/envelope.rs:180-202), including quirk_spaces_between_addresses. -/
def address : P Address := if q.spacesBetweenAddresses then (do let _ ← (many0 sp : P (List Unit)); addressParen) else addressParen

/-- `env_from`, `env_sender`, `env_reply_to`, `env_to`, `env_cc`, `env_bcc` (imap-codec/src/envelope.rs:113-160): the code repeats the
same parser. -/
def envAddresses : P (List Address) := alt [do tag b!"("; let l ← many1 address; tag b!")"; return l, value [] nil]

/-- `envelope` (imap-codec/src/envelope.rs:33-93). -/
def envelope : P Envelope := do
  tag b!"("
  let date ← nstring
  sp
  let subject ← nstring
  sp
  let from_ ← envAddresses
  sp
  let sender ← envAddresses
  sp
  let replyTo ← envAddresses
  sp
  let to_ ← envAddresses
  sp
  let cc ← envAddresses
  sp
  let bcc ← envAddresses
  sp
  let inReplyTo ← nstring
  sp
  let messageId ← nstring
  tag b!")"
  return ⟨date, subject, from_, sender, replyTo, to_, cc, bcc, inReplyTo, messageId⟩

end

/-! ### Body extensions -/

/-- `BodyExtension` (imap-types/src/body.rs:333-340). -/
inductive BodyExtension where
  | nstring (s : NString)
  | number (n : Nat)
  | list (l : List BodyExtension)

/-- The invariants: numbers are `u32`, lists are not empty (`Vec1`). -/
def BodyExtension.valid [Quirks] : BodyExtension → Bool
  | .nstring s => NString.valid s
  | .number n => n < 4294967296
  | .list l => !l.isEmpty && go l
where
  go : List BodyExtension → Bool
    | [] => true
    | e :: l => e.valid && go l

/-- The nesting depth. -/
def BodyExtension.depth : BodyExtension → Nat
  | .list l => go l + 1
  | _ => 1
where
  go : List BodyExtension → Nat
    | [] => 0
    | e :: l => max e.depth (go l)

/-- `impl EncodeIntoContext for BodyExtension` (imap-codec/src/codec/encode.rs:2010-2022). -/
def BodyExtension.enc : BodyExtension → List W
  | .nstring s => encNString s
  | .number n => encNat n
  | .list l => .wr b!"(" :: join b!" " (go l) ++ [.wr b!")"]
where
  go : List BodyExtension → List (List W)
    | [] => []
    | e :: l => e.enc :: go l

/-- `body_extension_limited` (imap-codec/src/body.rs:416-440). The argument is `remaining_recursion`. -/
def bodyExtension [Quirks] : Nat → P BodyExtension
  | 0 => fun _ => .failure .recursionLimit
  | n + 1 =>
    alt [.nstring <$> nstring, .number <$> number,
      .list <$> (do tag b!"("; let l ← sepList1 sp (bodyExtension n); tag b!")"; return l)]

/-! ### Extension data -/

/-- `Vec<(IString, IString)>`. -/
abbrev Params := List (IString × IString)

/-- The invariants of the components. -/
def isParams [Quirks] (l : Params) : Bool := l.all fun x => x.1.valid && x.2.valid

/-- `List1AttributeValueOrNil` (imap-codec/src/codec/encode.rs:2104-2129). -/
def encParamList (l : Params) : List W := list1AttrOrNil (l.map fun x => (x.1.enc, x.2.enc))

/-- `Location` (imap-types/src/body.rs:321-327). -/
structure Location where
  location : NString
  extensions : List BodyExtension

/-- The invariants of the components. EXCLUSION: body extensions are nested at most eight deep. -/
def Location.valid [Quirks] (x : Location) : Bool := NString.valid x.location && x.extensions.all fun e => e.valid && e.depth ≤ 8

/-- `impl EncodeIntoContext for Location` (imap-codec/src/codec/encode.rs:1997-2008). -/
def Location.enc (x : Location) : List W := encNString x.location ++ x.extensions.flatMap fun e => .wr b!" " :: e.enc

/-- `Language` (imap-types/src/body.rs:308-315). -/
structure Language where
  language : List IString
  tail : Option Location

/-- A property of the value, if there is one. -/
def isOpt {α : Type} (f : α → Bool) : Option α → Bool
  | none => true
  | some a => f a

/-- The encoding of the value after a space, if there is one. -/
def encOpt {α : Type} (f : α → List W) : Option α → List W
  | none => []
  | some a => .wr b!" " :: f a

/-- The invariants of the components. -/
def Language.valid [Quirks] (x : Language) : Bool := x.language.all IString.valid && isOpt Location.valid x.tail

/-- `impl EncodeIntoContext for Language` (imap-codec/src/codec/encode.rs:1984-1995). -/
def Language.enc (x : Language) : List W := list1OrNil b!" " (x.language.map IString.enc) ++ encOpt Location.enc x.tail

/-- `Disposition` (imap-types/src/body.rs:294-302). -/
structure Disposition where
  disposition : Option (IString × Params)
  tail : Option Language

/-- The invariants of the components. -/
def Disposition.valid [Quirks] (x : Disposition) : Bool :=
  isOpt (fun d => d.1.valid && isParams d.2) x.disposition && isOpt Language.valid x.tail

/-- The disposition itself (imap-codec/src/codec/encode.rs:1964-1973). -/
def encDisposition : Option (IString × Params) → List W
  | some (s, ps) => .wr b!"(" :: s.enc ++ .wr b!" " :: encParamList ps ++ [.wr b!")"]
  | none => [.wr b!"NIL"]

/-- `impl EncodeIntoContext for Disposition` (imap-codec/src/codec/encode.rs:1962-1982). -/
def Disposition.enc (x : Disposition) : List W := encDisposition x.disposition ++ encOpt Language.enc x.tail

/-- `SinglePartExtensionData` (imap-types/src/body.rs:255-261). -/
structure SinglePartExt where
  md5 : NString
  tail : Option Disposition

/-- The invariants of the components. -/
def SinglePartExt.valid [Quirks] (x : SinglePartExt) : Bool := NString.valid x.md5 && isOpt Disposition.valid x.tail

/-- `impl EncodeIntoContext for SinglePartExtensionData` (imap-codec/src/codec/encode.rs:1936-1947). -/
def SinglePartExt.enc (x : SinglePartExt) : List W := encNString x.md5 ++ encOpt Disposition.enc x.tail

/-- `MultiPartExtensionData` (imap-types/src/body.rs:280-288). -/
structure MultiPartExt where
  parameterList : Params
  tail : Option Disposition

/-- The invariants of the components. -/
def MultiPartExt.valid [Quirks] (x : MultiPartExt) : Bool := isParams x.parameterList && isOpt Disposition.valid x.tail

/-- `impl EncodeIntoContext for MultiPartExtensionData` (imap-codec/src/codec/encode.rs:1949-1960). -/
def MultiPartExt.enc (x : MultiPartExt) : List W := encParamList x.parameterList ++ encOpt Disposition.enc x.tail

section
variable [q : Quirks]

/-- One parameter (imap-codec/src/body.rs:225-228). -/
def fldParam : P (IString × IString) := do
  let k ← string
  sp
  let v ← string
  return (k, v)

/-- `body_fld_param` (imap-codec/src/body.rs:219-237). -/
def bodyFldParam : P Params := alt [do tag b!"("; let l ← sepList0 sp fldParam; tag b!")"; return l, value [] nil]

/-- `body_fld_enc` (imap-codec/src/body.rs:272-281), including quirk_body_fld_enc_nil_to_empty. `IString::try_from("")` is the empty
quoted string (imap-types/src/core.rs:420-468). -/
def bodyFldEnc : P IString := if q.bodyFldEncNilToEmpty then (fun s => s.getD (.quoted [])) <$> nstring else string

/-- `body_fld_octets` (imap-codec/src/body.rs:292-307), including quirk_rectify_numbers. -/
def bodyFldOctets : P Nat := if q.rectifyNumbers then alt [number, do tag b!"-"; value 0 number] else number

/-- `body_fld_dsp` (imap-codec/src/body.rs:363-377). -/
def bodyFldDsp : P (Option (IString × Params)) :=
  alt [do tag b!"("; let s ← string; sp; let ps ← bodyFldParam; tag b!")"; return some (s, ps), value none nil]

/-- `body_fld_lang` (imap-codec/src/body.rs:380-388). -/
def bodyFldLang : P (List IString) :=
  alt [(fun s => s.toList) <$> nstring, do tag b!"("; let l ← sepList1 sp string; tag b!")"; return l]

/-- The location and what follows it (imap-codec/src/body.rs:335-344, 498-507). -/
def extLocation : P Location := do
  sp
  let location ← nstring
  let extensions ← (many0 (do sp; bodyExtension 8) : P (List BodyExtension))
  return ⟨location, extensions⟩

/-- The language and what follows it (imap-codec/src/body.rs:332-347, 495-510). -/
def extLanguage : P Language := do
  sp
  let language ← bodyFldLang
  let tail ← opt extLocation
  return ⟨language, tail⟩

/-- The disposition and what follows it (imap-codec/src/body.rs:329-350, 492-513). -/
def extDisposition : P Disposition := do
  sp
  let disposition ← bodyFldDsp
  let tail ← opt extLanguage
  return ⟨disposition, tail⟩

/-- `body_ext_1part` (imap-codec/src/body.rs:324-354). -/
def bodyExt1part : P SinglePartExt := do
  let md5 ← nstring
  let tail ← opt extDisposition
  return ⟨md5, tail⟩

/-- `body_ext_mpart` (imap-codec/src/body.rs:487-520). -/
def bodyExtMpart : P MultiPartExt := do
  let ps ← bodyFldParam
  let tail ← opt extDisposition
  return ⟨ps, tail⟩

end

/-! ### Body structures -/

/-- `BasicFields` (imap-types/src/body.rs:29-47). -/
structure BasicFields where
  parameterList : Params
  id : NString
  description : NString
  contentTransferEncoding : IString
  size : Nat

/-- The invariants of the components. -/
def BasicFields.valid [Quirks] (f : BasicFields) : Bool :=
  isParams f.parameterList && NString.valid f.id && NString.valid f.description && f.contentTransferEncoding.valid && f.size < 4294967296

/-- `impl EncodeIntoContext for BasicFields` (imap-codec/src/codec/encode.rs:1880-1892). -/
def BasicFields.enc (f : BasicFields) : List W :=
  encParamList f.parameterList ++ .wr b!" " :: encNString f.id ++ .wr b!" " :: encNString f.description ++
    .wr b!" " :: f.contentTransferEncoding.enc ++ [.wr b!" ", .wr (showNat f.size)]

/-- `SpecificFields` (imap-types/src/body.rs:54-166); the type parameter is the type of body structures. -/
inductive SpecificFields (B : Type) where
  | basic (type_ subtype : IString)
  | message (envelope : Envelope) (bodyStructure : B) (lines : Nat)
  | text (subtype : IString) (lines : Nat)

/-- `BodyStructure` (imap-types/src/body.rs:172-249). `Body { basic, specific }` (imap-types/src/body.rs:18-23) is inlined in
`Single`, and the three kinds of `SpecificFields` are constructors of their own. -/
inductive BodyStructure where
  | basic (fields : BasicFields) (type_ subtype : IString) (ext : Option SinglePartExt)
  | message (fields : BasicFields) (envelope : Envelope) (body : BodyStructure) (lines : Nat) (ext : Option SinglePartExt)
  | text (fields : BasicFields) (subtype : IString) (lines : Nat) (ext : Option SinglePartExt)
  | multi (bodies : List BodyStructure) (subtype : IString) (ext : Option MultiPartExt)

/-- `BodyStructure::Single { body: Body { basic, specific }, extension_data }`. -/
def BodyStructure.single (f : BasicFields) (ext : Option SinglePartExt) : SpecificFields BodyStructure → BodyStructure
  | .basic t s => .basic f t s ext
  | .message e b n => .message f e b n ext
  | .text s n => .text f s n ext

/-- The number of recursions that the parser needs: a part needs two, each multipart around it one more. A message starts anew. -/
def BodyStructure.need : BodyStructure → Nat
  | .multi l _ _ => go l + 1
  | _ => 2
where
  go : List BodyStructure → Nat
    | [] => 0
    | b :: l => max b.need (go l)

/-- The invariants of the components: numbers are `u32`, a multipart has at least one part (`Vec1`). EXCLUSION: the body of a message
needs at most seven recursions (that is, at most five levels of multiparts). -/
def BodyStructure.valid [Quirks] : BodyStructure → Bool
  | .basic f t s x => f.valid && t.valid && s.valid && isOpt SinglePartExt.valid x
  | .message f e b n x => f.valid && e.valid && b.valid && b.need ≤ 7 && n < 4294967296 && isOpt SinglePartExt.valid x
  | .text f s n x => f.valid && s.valid && n < 4294967296 && isOpt SinglePartExt.valid x
  | .multi l s x => !l.isEmpty && go l && s.valid && isOpt MultiPartExt.valid x
where
  go : List BodyStructure → Bool
    | [] => true
    | b :: l => b.valid && go l

/-- `impl EncodeIntoContext for BodyStructure` and `for Body` (imap-codec/src/codec/encode.rs:1803-1878). -/
def BodyStructure.enc : BodyStructure → List W
  | .basic f t s x => .wr b!"(" :: t.enc ++ .wr b!" " :: s.enc ++ .wr b!" " :: f.enc ++ encOpt SinglePartExt.enc x ++ [.wr b!")"]
  | .message f e b n x =>
    .wr b!"(" :: .wr b!"\"MESSAGE\" \"RFC822\" " :: f.enc ++ .wr b!" " :: e.enc ++ .wr b!" " :: b.enc ++
      .wr b!" " :: .wr (showNat n) :: encOpt SinglePartExt.enc x ++ [.wr b!")"]
  | .text f s n x =>
    .wr b!"(" :: .wr b!"\"TEXT\" " :: s.enc ++ .wr b!" " :: f.enc ++ .wr b!" " :: .wr (showNat n) ::
      encOpt SinglePartExt.enc x ++ [.wr b!")"]
  | .multi l s x => .wr b!"(" :: go l ++ .wr b!" " :: s.enc ++ encOpt MultiPartExt.enc x ++ [.wr b!")"]
where
  go : List BodyStructure → List W
    | [] => []
    | b :: l => b.enc ++ go l

section
variable [q : Quirks]

/-- `body_fields` (imap-codec/src/body.rs:185-212). -/
def bodyFields : P BasicFields := do
  let ps ← bodyFldParam
  sp
  let id ← nstring
  sp
  let desc ← nstring
  sp
  let enc ← bodyFldEnc
  sp
  let size ← bodyFldOctets
  return ⟨ps, id, desc, enc, size⟩

/-- `body_type_basic` (imap-codec/src/body.rs:94-109), with `media_basic` (imap-codec/src/body.rs:542-548). -/
def bodyTypeBasic {B : Type} : P (BasicFields × SpecificFields B) := do
  let t ← string
  sp
  let s ← string
  sp
  let f ← bodyFields
  return (f, .basic t s)

/-- `body_type_text` (imap-codec/src/body.rs:163-177), with `media_text` (imap-codec/src/body.rs:578-584). -/
def bodyTypeText {B : Type} : P (BasicFields × SpecificFields B) := do
  tagNC b!"\"TEXT\" "
  let s ← string
  sp
  let f ← bodyFields
  sp
  let n ← number
  return (f, .text s n)

/-- `body_type_msg_limited` (imap-codec/src/body.rs:119-157), with `media_message` (imap-codec/src/body.rs:569-571). The parser for the
nested body is an argument. The check of the recursion limit is dropped because the function is always called with limit 8
(imap-codec/src/body.rs:73). -/
def bodyTypeMsg {B : Type} (body : P B) : P (BasicFields × SpecificFields B) := do
  tagNC b!"\"MESSAGE\" \"RFC822\""
  sp
  let f ← bodyFields
  sp
  let e ← envelope
  sp
  let b ← body
  sp
  let n ← number
  return (f, .message e b n)

/-- `body_type_1part_limited` (imap-codec/src/body.rs:62-89). The parser for nested bodies is an argument. -/
def bodyType1part (n : Nat) (body : P BodyStructure) : P BodyStructure :=
  if n = 0 then fun _ => .failure .recursionLimit else do
    let x ← alt [bodyTypeMsg body, bodyTypeText, bodyTypeBasic]
    let ext ← opt (do sp; bodyExt1part)
    return .single x.1 ext x.2

/-- `body_type_mpart_limited` (imap-codec/src/body.rs:446-475). The parser for nested bodies is an argument. -/
def bodyTypeMpart (n : Nat) (body : P BodyStructure) : P BodyStructure :=
  if n = 0 then fun _ => .failure .recursionLimit else do
    let bs ← many1 body
    sp
    let s ← string
    let ext ← opt (do sp; bodyExtMpart)
    return .multi bs s ext

/-- One level of `body_limited` (imap-codec/src/body.rs:33-51): `msg` parses the body nested in a message, `part` the parts of a
multipart. -/
def bodyStep (n : Nat) (msg part : P BodyStructure) : P BodyStructure :=
  if n = 0 then fun _ => .failure .recursionLimit else do
    tag b!"("
    let b ← alt [bodyType1part (n - 1) msg, bodyTypeMpart (n - 1) part]
    tag b!")"
    return b

/-- `body_limited` (imap-codec/src/body.rs:33-51), with an additional bound `fuel` on the number of nested calls. It is needed because
the code bounds the number of nested calls by `remaining_recursions` only between two messages: for the body nested in a message, the
limit is reset to 7 (imap-codec/src/body.rs:73, 130). -/
def bodyFuel : Nat → Nat → P BodyStructure
  | 0, _ => fun _ => .incomplete
  | fuel + 1, n => bodyStep n (bodyFuel fuel 7) (bodyFuel fuel (n - 1))

/-- `body` (imap-codec/src/body.rs:27-31). Each nested call consumes at least one byte, so the length of the input bounds the number of
nested calls: see `body_eq`, which is the recursion of the code without fuel. -/
def body (n : Nat) : P BodyStructure := fun i => bodyFuel (i.length + 1) n i

end

end Imap
