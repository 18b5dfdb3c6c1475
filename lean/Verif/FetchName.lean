import Verif.Parts
/-
The items of a FETCH command: imap-types/src/fetch.rs, imap-codec/src/fetch.rs, imap-codec/src/extensions/binary.rs,
imap-codec/src/codec/encode.rs.
-/
namespace Imap

/-- `NonZeroU32` as a `Nat`. -/
abbrev NzU32 := Nat

/-- The type invariant of `Vec1<NonZeroU32>`, e.g. `Part` (imap-types/src/fetch.rs:462). -/
def isPart (p : List NzU32) : Bool := !p.isEmpty && p.all isNonZeroU32

/-- `Section` (imap-types/src/fetch.rs:438-459). -/
inductive Section where
  | part (p : List NzU32)
  | header (p : Option (List NzU32))
  | headerFields (p : Option (List NzU32)) (fields : List AString)
  | headerFieldsNot (p : Option (List NzU32)) (fields : List AString)
  | text (p : Option (List NzU32))
  | mime (p : List NzU32)
  deriving DecidableEq, Repr

/-- The type invariants of `Option<Part>`. -/
def isPartOpt : Option (List NzU32) → Bool
  | none => true
  | some p => isPart p

/-- The type invariants of `Vec1<AString>`. -/
def isAStrings [Quirks] (l : List AString) : Bool := !l.isEmpty && l.all AString.valid

/-- The type invariants of `Section`. -/
def Section.valid [Quirks] : Section → Bool
  | .part p => isPart p
  | .header p => isPartOpt p
  | .headerFields p fs => isPartOpt p && isAStrings fs
  | .headerFieldsNot p fs => isPartOpt p && isAStrings fs
  | .text p => isPartOpt p
  | .mime p => isPart p

/-- `NonZeroU32::encode_ctx` (imap-codec/src/codec/encode.rs:1223-1227). -/
def encNat (n : Nat) : List W := [.wr (showNat n)]

/-- `Part::encode_ctx` (imap-codec/src/codec/encode.rs:1217-1221). -/
def encPart (p : List NzU32) : List W := join b!"." (p.map encNat)

/-- The prefix of a section. -/
def encPartDot : Option (List NzU32) → List W
  | none => []
  | some p => encPart p ++ [.wr b!"."]

/-- `Section::encode_ctx` (imap-codec/src/codec/encode.rs:1169-1215). The dot between the part and the keyword is
written by `encPartDot`. -/
def Section.enc : Section → List W
  | .part p => encPart p
  | .header p => encPartDot p ++ [.wr b!"HEADER"]
  | .headerFields p fs => encPartDot p ++ [.wr b!"HEADER.FIELDS ("] ++ join b!" " (fs.map AString.enc) ++ [.wr b!")"]
  | .headerFieldsNot p fs => encPartDot p ++ [.wr b!"HEADER.FIELDS.NOT ("] ++ join b!" " (fs.map AString.enc) ++ [.wr b!")"]
  | .text p => encPartDot p ++ [.wr b!"TEXT"]
  | .mime p => encPart p ++ [.wr b!".MIME"]

/-- `PartSpecifier` (imap-types/src/fetch.rs:482-489), without `PartNumber`, which no parser returns. -/
inductive PartSpecifier where
  | header
  | headerFields (fields : List AString)
  | headerFieldsNot (fields : List AString)
  | mime
  | text
  deriving DecidableEq, Repr

/-- `header_list` (imap-codec/src/fetch.rs:339-344). -/
def headerList [Quirks] : P (List AString) := do
  tag b!"("
  let l ← sepList1 sp astring
  tag b!")"
  return l

/-- `section_msgtext` (imap-codec/src/fetch.rs:305-318). -/
def sectionMsgtext [Quirks] : P PartSpecifier :=
  alt [.headerFieldsNot <$> (do tagNC b!"HEADER.FIELDS.NOT"; sp; headerList),
    .headerFields <$> (do tagNC b!"HEADER.FIELDS"; sp; headerList),
    value .header (tagNC b!"HEADER"),
    value .text (tagNC b!"TEXT")]

/-- `section_part` (imap-codec/src/fetch.rs:324-326). -/
def sectionPart : P (List NzU32) := sepList1 (tag b!".") nzNumber

/-- `section_text` (imap-codec/src/fetch.rs:331-336). -/
def sectionText [Quirks] : P PartSpecifier := alt [sectionMsgtext, value .mime (tagNC b!"MIME")]

/-- The section without part numbers (imap-codec/src/fetch.rs:270-277); `none` is `unreachable!()`. -/
def Section.ofMsgtext : PartSpecifier → Option Section
  | .header => some (.header none)
  | .headerFields fs => some (.headerFields none fs)
  | .headerFieldsNot fs => some (.headerFieldsNot none fs)
  | .text => some (.text none)
  | .mime => none

/-- The section with part numbers (imap-codec/src/fetch.rs:278-297). -/
def Section.ofPart (p : List NzU32) : Option PartSpecifier → Section
  | none => .part p
  | some .header => .header (some p)
  | some (.headerFields fs) => .headerFields (some p) fs
  | some (.headerFieldsNot fs) => .headerFieldsNot (some p) fs
  | some .text => .text (some p)
  | some .mime => .mime p

/-- `section_spec` (imap-codec/src/fetch.rs:268-300). The panic `unreachable!()` is modelled as an error of `mapRes`, and is never
reached (theorem `sectionMsgtext_ofMsgtext`). -/
def sectionSpec [Quirks] : P Section :=
  alt [mapRes sectionMsgtext Section.ofMsgtext, do
    let p ← sectionPart
    let t ← opt (do tag b!"."; sectionText)
    return Section.ofPart p t]

/-- `section` (imap-codec/src/fetch.rs:263-265). -/
def «section» [Quirks] : P (Option Section) := do
  tag b!"["
  let s ← opt sectionSpec
  tag b!"]"
  return s

/-- `section_binary` (imap-codec/src/extensions/binary.rs:97-107). -/
def sectionBinary : P (List NzU32) := do
  tag b!"["
  let p ← opt sectionPart
  tag b!"]"
  return p.getD []

/-- `partial` (imap-codec/src/extensions/binary.rs:112-118), also inlined in `fetch_att`. -/
def partial_ : P (Nat × NzU32) := do
  tag b!"<"
  let a ← number
  tag b!"."
  let b ← nzNumber
  tag b!">"
  return (a, b)

/-- The type invariants of `(u32, NonZeroU32)`. -/
def isPartial : Option (Nat × NzU32) → Bool
  | none => true
  | some (a, b) => a < 4294967296 && isNonZeroU32 b

/-- `MessageDataItemName` (imap-types/src/fetch.rs:91-247). -/
inductive MessageDataItemName where
  | body
  | bodyExt (section_ : Option Section) (partial_ : Option (Nat × NzU32)) (peek : Bool)
  | bodyStructure | envelope | flags | internalDate
  | rfc822 | rfc822Header | rfc822Size | rfc822Text | uid
  | binary (section_ : List NzU32) (partial_ : Option (Nat × NzU32)) (peek : Bool)
  | binarySize (section_ : List NzU32)
  | modSeq
  deriving DecidableEq, Repr

/-- The type invariants of `Option<Section>`. -/
def isSectionOpt [Quirks] : Option Section → Bool
  | none => true
  | some s => s.valid

/-- The type invariants of `MessageDataItemName`. -/
def MessageDataItemName.valid [q : Quirks] : MessageDataItemName → Bool
  | .bodyExt s p _ => isSectionOpt s && isPartial p
  | .binary s p _ => s.all isNonZeroU32 && isPartial p
  | .binarySize s => s.all isNonZeroU32
  | .modSeq => q.extCondstoreQresync
  | _ => true

/-- The partial suffix (imap-codec/src/codec/encode.rs:1117-1119, 1146-1152). -/
def encPartial : Option (Nat × NzU32) → List W
  | none => []
  | some (a, b) => [.wr b!"<", .wr (showNat a), .wr b!".", .wr (showNat b), .wr b!">"]

/-- The optional section between brackets (imap-codec/src/codec/encode.rs:1113-1116). -/
def encSectionOpt : Option Section → List W
  | none => []
  | some s => s.enc

/-- `MessageDataItemName::encode_ctx` (imap-codec/src/codec/encode.rs:1099-1167). -/
def MessageDataItemName.enc : MessageDataItemName → List W
  | .body => [.wr b!"BODY"]
  | .bodyExt s p peek =>
    [.wr (if peek then b!"BODY.PEEK[" else b!"BODY[")] ++ encSectionOpt s ++ [.wr b!"]"] ++ encPartial p
  | .bodyStructure => [.wr b!"BODYSTRUCTURE"]
  | .envelope => [.wr b!"ENVELOPE"]
  | .flags => [.wr b!"FLAGS"]
  | .internalDate => [.wr b!"INTERNALDATE"]
  | .rfc822 => [.wr b!"RFC822"]
  | .rfc822Header => [.wr b!"RFC822.HEADER"]
  | .rfc822Size => [.wr b!"RFC822.SIZE"]
  | .rfc822Text => [.wr b!"RFC822.TEXT"]
  | .uid => [.wr b!"UID"]
  | .binary s p peek =>
    [.wr b!"BINARY", .wr (if peek then b!".PEEK" else []), .wr b!"["] ++ encPart s ++ [.wr b!"]"] ++ encPartial p
  | .binarySize s => [.wr b!"BINARY.SIZE", .wr b!"["] ++ encPart s ++ [.wr b!"]"]
  | .modSeq => [.wr b!"MODSEQ"]

/-- `fetch_att` (imap-codec/src/fetch.rs:43-119). -/
def fetchAtt [Quirks] : P MessageDataItemName :=
  alt [value .envelope (tagNC b!"ENVELOPE"),
    value .flags (tagNC b!"FLAGS"),
    value .internalDate (tagNC b!"INTERNALDATE"),
    value .bodyStructure (tagNC b!"BODYSTRUCTURE"),
    do tagNC b!"BODY.PEEK"; let s ← «section»; let p ← opt partial_; return .bodyExt s p true,
    do tagNC b!"BODY"; let s ← «section»; let p ← opt partial_; return .bodyExt s p false,
    do tagNC b!"BINARY.PEEK"; let s ← sectionBinary; let p ← opt partial_; return .binary s p true,
    do tagNC b!"BINARY"; let s ← sectionBinary; let p ← opt partial_; return .binary s p false,
    do tagNC b!"BINARY.SIZE"; let s ← sectionBinary; return .binarySize s,
    value .body (tagNC b!"BODY"),
    value .uid (tagNC b!"UID"),
    value .rfc822Header (tagNC b!"RFC822.HEADER"),
    value .rfc822Size (tagNC b!"RFC822.SIZE"),
    value .rfc822Text (tagNC b!"RFC822.TEXT"),
    value .rfc822 (tagNC b!"RFC822"),
    gate Quirks.extCondstoreQresync (value .modSeq (tagNC b!"MODSEQ"))]

/-- `Macro` (imap-types/src/fetch.rs:30-37). -/
inductive Macro where
  | fast | all | full
  deriving DecidableEq, Repr

/-- `Macro::expand` (imap-types/src/fetch.rs:40-48). -/
def Macro.expand : Macro → List MessageDataItemName
  | .all => [.flags, .internalDate, .rfc822Size, .envelope]
  | .fast => [.flags, .internalDate, .rfc822Size]
  | .full => [.flags, .internalDate, .rfc822Size, .envelope, .body]

/-- `MacroOrMessageDataItemNames` (imap-types/src/fetch.rs:68-71). -/
inductive MacroOrNames where
  | macro_ (m : Macro)
  | names (l : List MessageDataItemName)
  deriving DecidableEq, Repr

/-- The type invariants of `MacroOrMessageDataItemNames`. -/
def MacroOrNames.valid [Quirks] : MacroOrNames → Bool
  | .macro_ _ => true
  | .names l => l.all MessageDataItemName.valid

/-- `MacroOrMessageDataItemNames::encode_ctx` (imap-codec/src/codec/encode.rs:1076-1091). -/
def MacroOrNames.enc : MacroOrNames → List W
  | .macro_ .all => [.wr b!"ALL"]
  | .macro_ .fast => [.wr b!"FAST"]
  | .macro_ .full => [.wr b!"FULL"]
  | .names [x] => x.enc
  | .names l => [.wr b!"("] ++ join b!" " (l.map MessageDataItemName.enc) ++ [.wr b!")"]

/-- The argument of FETCH (imap-codec/src/command.rs:591-611). -/
def macroOrNames [Quirks] : P MacroOrNames :=
  alt [value (.macro_ .all) (tagNC b!"ALL"), value (.macro_ .fast) (tagNC b!"FAST"), value (.macro_ .full) (tagNC b!"FULL"),
    (fun x => .names [x]) <$> fetchAtt,
    .names <$> (do tag b!"("; let l ← sepList0 sp fetchAtt; tag b!")"; return l)]

end Imap
