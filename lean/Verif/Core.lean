import Verif.Nom
import Verif.Enc
/-
The core types of imap-types (imap-types/src/core.rs, imap-types/src/extensions/{utf8,binary}.rs) with their encoders
(imap-codec/src/codec/encode.rs) and parsers (imap-codec/src/core.rs, imap-codec/src/extensions/{utf8,binary}.rs).

Strings (`&str`, `Cow<str>`) are modelled by their UTF-8 bytes. Types with a validating constructor (`Atom`, `Quoted`, ...) are
modelled as `Bytes` together with a Boolean predicate: the condition that the validating constructor checks.
-/
namespace Imap

/-! ### Helpers -/

/-- `str::replace(char, &str)`. -/
def replace1 (a : UInt8) (to s : Bytes) : Bytes := s.flatMap fun b => if b = a then to else [b]

/-- `str::replace(&str, &str)` for a pattern of two bytes: non-overlapping matches from left to right. -/
def replace2 (a b : UInt8) (to : Bytes) : Bytes → Bytes
  | [] => []
  | [x] => [x]
  | x :: y :: s => if x = a && y = b then to ++ replace2 a b to s else x :: replace2 a b to (y :: s)

/-- `escape_quoted` (imap-types/src/utils.rs:112-124). -/
def escapeQuoted (s : Bytes) : Bytes := replace1 34 b!"\\\"" (replace1 92 b!"\\\\" s)

/-- `unescape_quoted` (imap-types/src/utils.rs:126-138). -/
def unescapeQuoted (s : Bytes) : Bytes := replace2 92 34 b!"\"" (replace2 92 92 b!"\\" s)

/-- The states of a UTF-8 validator (RFC 3629, section 4): start of a character, one/two/three continuation bytes missing,
and the states after the lead bytes E0, ED, F0, F4, which restrict the next byte. -/
inductive Utf8 where
  | s0 | c1 | c2 | c3 | e0 | ed | f0 | f4
  deriving DecidableEq, Repr

/-- One step of the UTF-8 validator. -/
def Utf8.step : Utf8 → UInt8 → Option Utf8
  | .s0, b =>
    if b < 0x80 then some .s0
    else if 0xc2 ≤ b && b ≤ 0xdf then some .c1
    else if b == 0xe0 then some .e0
    else if b == 0xed then some .ed
    else if 0xe1 ≤ b && b ≤ 0xef then some .c2
    else if b == 0xf0 then some .f0
    else if 0xf1 ≤ b && b ≤ 0xf3 then some .c3
    else if b == 0xf4 then some .f4
    else none
  | .c1, b => if 0x80 ≤ b && b ≤ 0xbf then some .s0 else none
  | .c2, b => if 0x80 ≤ b && b ≤ 0xbf then some .c1 else none
  | .c3, b => if 0x80 ≤ b && b ≤ 0xbf then some .c2 else none
  | .e0, b => if 0xa0 ≤ b && b ≤ 0xbf then some .c1 else none
  | .ed, b => if 0x80 ≤ b && b ≤ 0x9f then some .c1 else none
  | .f0, b => if 0x90 ≤ b && b ≤ 0xbf then some .c2 else none
  | .f4, b => if 0x80 ≤ b && b ≤ 0x8f then some .c2 else none

/-- The UTF-8 validator, started in a state. -/
def Utf8.run : Utf8 → Bytes → Bool
  | s, [] => s == .s0
  | s, b :: bs =>
    match s.step b with
    | some s' => s'.run bs
    | none => false

/-- `str::from_utf8` succeeds. -/
def isUtf8 (bs : Bytes) : Bool := Utf8.s0.run bs

/-- The base64 alphabet (RFC 4648, section 4; crate `base64`, `general_purpose::STANDARD`). -/
def b64Char (n : Nat) : UInt8 :=
  if n < 26 then UInt8.ofNat (65 + n)
  else if n < 52 then UInt8.ofNat (71 + n)
  else if n < 62 then UInt8.ofNat (n - 4)
  else if n = 62 then 43
  else 47

/-- Inverse of `b64Char`. -/
def b64Val (b : UInt8) : Option Nat :=
  if 65 ≤ b && b ≤ 90 then some (b.toNat - 65)
  else if 97 ≤ b && b ≤ 122 then some (b.toNat - 71)
  else if 48 ≤ b && b ≤ 57 then some (b.toNat + 4)
  else if b == 43 then some 62
  else if b == 47 then some 63
  else none

/-- `STANDARD.encode` of crate `base64`. -/
def b64Encode : Bytes → Bytes
  | [] => []
  | [a] => [b64Char (a.toNat / 4), b64Char (a.toNat % 4 * 16), 61, 61]
  | [a, b] =>
    [b64Char (a.toNat / 4), b64Char (a.toNat % 4 * 16 + b.toNat / 16), b64Char (b.toNat % 16 * 4), 61]
  | a :: b :: c :: r =>
    b64Char (a.toNat / 4) :: b64Char (a.toNat % 4 * 16 + b.toNat / 16) ::
      b64Char (b.toNat % 16 * 4 + c.toNat / 64) :: b64Char (c.toNat % 64) :: b64Encode r

/-- `STANDARD.decode` of crate `base64`: padding is required and canonical, and trailing bits must be zero. -/
def b64Decode : Bytes → Option Bytes
  | [] => some []
  | w :: x :: y :: z :: r =>
    if y == 61 && z == 61 && r.isEmpty then do
      let w ← b64Val w
      let x ← b64Val x
      if x % 16 = 0 then some [UInt8.ofNat (w * 4 + x / 16)] else none
    else if z == 61 && r.isEmpty then do
      let w ← b64Val w
      let x ← b64Val x
      let y ← b64Val y
      if y % 4 = 0 then some [UInt8.ofNat (w * 4 + x / 16), UInt8.ofNat (x % 16 * 16 + y / 4)] else none
    else do
      let w ← b64Val w
      let x ← b64Val x
      let y ← b64Val y
      let z ← b64Val z
      let r ← b64Decode r
      some (UInt8.ofNat (w * 4 + x / 16) :: UInt8.ofNat (x % 16 * 16 + y / 4) ::
        UInt8.ofNat (y % 4 * 64 + z) :: r)
  | _ => none

/-- `is_base64_char` (imap-codec/src/core.rs:277-279). -/
def isBase64Char (b : UInt8) : Bool :=
  (65 ≤ b && b ≤ 90) || (97 ≤ b && b ≤ 122) || isDigit b || b == 43 || b == 47

/-! ### Types -/

/-- The check of `Atom::validate` (imap-types/src/core.rs:121-138). -/
def isAtom (s : Bytes) : Bool := !s.isEmpty && s.all isAtomChar

/-- The check of `AtomExt::validate` (imap-types/src/core.rs:271-288). -/
def isAtomExt (s : Bytes) : Bool := !s.isEmpty && s.all isAStringChar

/-- The check of `Quoted::validate` (imap-types/src/core.rs:771-783). -/
def isQuoted (s : Bytes) : Bool := s.all isTextChar

/-- The check of `Text::validate` (imap-types/src/core.rs:1248-1264). -/
def isText (s : Bytes) : Bool := !s.isEmpty && s.all isTextChar

/-- `is_tag_char` of `Tag::validate` (imap-types/src/core.rs:1069-1088): astring-char except `+`. -/
def isTagChar (b : UInt8) : Bool := isAStringChar b && b != 43

/-- The check of `Tag::validate` (imap-types/src/core.rs:1069-1088). -/
def isTagStr (s : Bytes) : Bool := !s.isEmpty && s.all isTagChar

/-- The check of `QuotedChar::validate` (imap-types/src/core.rs:1362-1373). -/
def isQuotedChar (b : UInt8) : Bool := isTextChar b

/-- `Literal` (imap-types/src/core.rs:518-527). -/
structure Literal where
  data : Bytes
  mode : Mode
  deriving DecidableEq, Repr

/-- `IString` (imap-types/src/core.rs:393-402). -/
inductive IString where
  | literal (l : Literal)
  | quoted (s : Bytes)
  | quotedUtf8 (s : Bytes)
  deriving DecidableEq, Repr

/-- `NString` (imap-types/src/core.rs:880-884). -/
abbrev NString := Option IString

/-- `AString` (imap-types/src/core.rs:945-949). -/
inductive AString where
  | atom (s : Bytes)
  | string (s : IString)
  deriving DecidableEq, Repr

/-- `Charset` (imap-types/src/core.rs:1435-1438). -/
inductive Charset where
  | atom (s : Bytes)
  | quoted (s : Bytes)
  deriving DecidableEq, Repr

/-- `Literal8` (imap-types/src/extensions/binary.rs:30-33). -/
structure Literal8 where
  data : Bytes
  mode : Mode
  deriving DecidableEq, Repr

/-- `LiteralOrLiteral8` (imap-types/src/extensions/binary.rs:21-24). -/
inductive LiteralOrLiteral8 where
  | literal (l : Literal)
  | literal8 (l : Literal8)
  deriving DecidableEq, Repr

/-- `NString8` (imap-types/src/core.rs:1515-1518). -/
inductive NString8 where
  | nstring (s : NString)
  | literal8 (l : Literal8)
  deriving DecidableEq, Repr

/-- The check of `Literal::validate` (imap-types/src/core.rs:566-578).
EXCLUSION: the length must fit in a `u32` (the parser of literals reads the length as `u32`). -/
def Literal.valid (l : Literal) : Bool := l.data.all isChar8 && l.data.length < 4294967296

/-- The type invariants of `IString`; `QuotedUtf8` holds a `str`.
EXCLUSION: a `QuotedUtf8` that could be a `Quoted`: it is encoded exactly like the `Quoted`, so that it cannot be told apart. -/
def IString.valid [q : Quirks] : IString → Bool
  | .literal l => l.valid
  | .quoted s => isQuoted s
  | .quotedUtf8 s => q.extUtf8 && isUtf8 s && !isQuoted s

/-- The type invariants of `NString`. -/
def NString.valid [Quirks] : NString → Bool
  | none => true
  | some s => s.valid

/-- The type invariants of `AString`. -/
def AString.valid [Quirks] : AString → Bool
  | .atom s => isAtomExt s
  | .string s => s.valid

/-- The type invariants of `Charset`. -/
def Charset.valid : Charset → Bool
  | .atom s => isAtom s
  | .quoted s => isQuoted s

/-- `Literal8` has no invariants. EXCLUSION: the length must fit in a `u32`. -/
def Literal8.valid (l : Literal8) : Bool := l.data.length < 4294967296

/-- The type invariants of `LiteralOrLiteral8`. -/
def LiteralOrLiteral8.valid : LiteralOrLiteral8 → Bool
  | .literal l => l.valid
  | .literal8 l => l.valid

/-- The type invariants of `NString8`. -/
def NString8.valid [Quirks] : NString8 → Bool
  | .nstring s => s.valid
  | .literal8 l => l.valid

/-! ### Encoders -/

/-- `Literal::encode_ctx` (imap-codec/src/codec/encode.rs:801-814). -/
def Literal.enc (l : Literal) : List W :=
  match l.mode with
  | .sync => [.wr (b!"{" ++ showNat l.data.length ++ b!"}\r\n"), .line, .wr l.data, .lit l.mode]
  | .nonSync => [.wr (b!"{" ++ showNat l.data.length ++ b!"+}\r\n"), .line, .wr l.data, .lit l.mode]

/-- `Quoted::encode_ctx` (imap-codec/src/codec/encode.rs:816-820). -/
def encQuoted (s : Bytes) : List W := [.wr (b!"\"" ++ escapeQuoted s ++ b!"\"")]

/-- `IString::encode_ctx` (imap-codec/src/codec/encode.rs:790-799) and `QuotedUtf8::encode_ctx`
(imap-codec/src/extensions/utf8.rs:20-24). -/
def IString.enc : IString → List W
  | .literal l => l.enc
  | .quoted s => encQuoted s
  | .quotedUtf8 s => encQuoted s

/-- `NString::encode_ctx` (imap-codec/src/codec/encode.rs:1785-1792). -/
def encNString : NString → List W
  | some s => s.enc
  | none => [.wr b!"NIL"]

/-- `AString::encode_ctx` (imap-codec/src/codec/encode.rs:769-776) and `AtomExt::encode_ctx` (784-788). -/
def AString.enc : AString → List W
  | .atom s => [.wr s]
  | .string s => s.enc

/-- `Charset::encode_ctx` (imap-codec/src/codec/encode.rs:898-905). -/
def Charset.enc : Charset → List W
  | .atom s => [.wr s]
  | .quoted s => encQuoted s

/-- `Literal8::encode_ctx` (imap-codec/src/extensions/binary.rs:81-94). -/
def Literal8.enc (l : Literal8) : List W :=
  match l.mode with
  | .sync => [.wr (b!"~{" ++ showNat l.data.length ++ b!"}\r\n"), .line, .wr l.data, .lit l.mode]
  | .nonSync => [.wr (b!"~{" ++ showNat l.data.length ++ b!"+}\r\n"), .line, .wr l.data, .lit l.mode]

/-- `LiteralOrLiteral8::encode_ctx` (imap-codec/src/extensions/binary.rs:72-79). -/
def LiteralOrLiteral8.enc : LiteralOrLiteral8 → List W
  | .literal l => l.enc
  | .literal8 l => l.enc

/-- `NString8::encode_ctx` (imap-codec/src/codec/encode.rs:1794-1801). -/
def NString8.enc : NString8 → List W
  | .nstring s => encNString s
  | .literal8 l => l.enc

/-! ### Parsers -/

/-- `number` (imap-codec/src/core.rs:38-47). -/
def number : P Nat := mapRes (takeWhile1 isDigit) fun ds => if decVal ds < 4294967296 then some (decVal ds) else none

/-- `number64` (imap-codec/src/core.rs:49-63). -/
def number64 : P Nat :=
  mapRes (takeWhile1 isDigit) fun ds => if decVal ds < 18446744073709551616 then some (decVal ds) else none

/-- `nz_number` (imap-codec/src/core.rs:65-70). -/
def nzNumber : P Nat := mapRes number fun n => if n = 0 then none else some n

/-- `quoted` (imap-codec/src/core.rs:86-109). -/
def quoted : P Bytes := do
  dquote
  let s ← escaped isAnyTextCharExceptQuotedSpecials
  dquote
  return unescapeQuoted s

/-- `quoted_utf8` (imap-codec/src/extensions/utf8.rs:26-54). -/
def quotedUtf8 : P Bytes := do
  dquote
  let s ← mapRes (escaped fun b => !isQuotedSpecials b) fun s => if isUtf8 s then some s else none
  dquote
  return unescapeQuoted s

/-- `quoted_char` (imap-codec/src/core.rs:111-132). -/
def quotedChar : P UInt8 :=
  alt [satisfy isAnyTextCharExceptQuotedSpecials, do tag b!"\\"; satisfy isQuotedSpecials]

/-- The literal prefix, common to `literal` and `literal8` (imap-codec/src/core.rs:155-167). -/
def literalHdr [Quirks] (start : Bytes) : P (Nat × Mode) := do
  tag start
  let n ← number
  let plus ← opt (char 43)
  tag b!"}"
  crlf
  return (n, if plus.isSome then .nonSync else .sync)

/-- The literal data (imap-codec/src/core.rs:169-182): when nothing follows the prefix, then the caller is told that a
continuation request could be required. -/
def literalData (n : Nat) (m : Mode) : P Bytes := fun i =>
  if i.isEmpty then .failure (.literal none n m) else take n i

/-- `literal` (imap-codec/src/core.rs:138-196). -/
def literal [Quirks] : P Literal := do
  let (n, m) ← literalHdr b!"{"
  let d ← literalData n m
  if d.all isChar8 then return ⟨d, m⟩ else fun _ => .failure .literalContainsNull

/-- `literal8` (imap-codec/src/extensions/binary.rs:25-70). -/
def literal8 [Quirks] : P Literal8 := do
  let (n, m) ← literalHdr b!"~{"
  let d ← literalData n m
  return ⟨d, m⟩

/-- `string` (imap-codec/src/core.rs:74-82). -/
def string [Quirks] : P IString :=
  alt [.quoted <$> quoted, gate Quirks.extUtf8 (.quotedUtf8 <$> quotedUtf8), .literal <$> literal]

/-- `astring` (imap-codec/src/core.rs:200-215). -/
def astring [Quirks] : P AString := alt [.atom <$> takeWhile1 isAStringChar, .string <$> string]

/-- `atom` (imap-codec/src/core.rs:217-232). -/
def atom : P Bytes := takeWhile1 isAtomChar

/-- `nil` (imap-codec/src/core.rs:244-248). -/
def nil : P Unit := tagNC b!"NIL"

/-- `nstring` (imap-codec/src/core.rs:236-242). -/
def nstring [Quirks] : P NString := alt [some <$> string, value none nil]

/-- `text` (imap-codec/src/core.rs:252-260). -/
def text : P Bytes := takeWhile1 isTextChar

/-- `base64` (imap-codec/src/core.rs:264-274). -/
def base64 : P Bytes :=
  mapRes (recognize (do
    let _ ← takeWhile isBase64Char
    opt (alt [tag b!"==", tag b!"="]))) b64Decode

/-- `charset` (imap-codec/src/core.rs:285-290). -/
def charset : P Charset := alt [.atom <$> atom, .quoted <$> quoted]

/-- `tag_imap` (imap-codec/src/core.rs:294-302). -/
def tagImap : P Bytes := takeWhile1 isTagChar

end Imap
