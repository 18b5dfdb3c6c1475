import Verif.Codec
import Verif.Utils
import Verif.Fragmentizer

/-!
# `Debug` printing of messages that hold secrets

`Secret<T>` hides its content from `Debug`. This file models the `Debug` implementations through which a secret can be reached: the ones of LOGIN and AUTHENTICATE,
of SASL data, of the results of `Fragmentizer::decode_message`, and of encoded messages.
-/

namespace Imap

/-- What a `Debug` implementation hands to the formatter: text, or a call of `debug_tuple`, `debug_struct` or `debug_list`, with the documents of the parts. The
formatter lays it out for `{:?}` or `{:#?}`. -/
inductive Doc where
  | text (s : Bytes)
  | tuple (name : Bytes) (args : List Doc)
  | struct (name : Bytes) (fields : List (Bytes × Doc))
  | list (items : List Doc)

/-- The layout of `{:?}` (`DebugTuple`, `DebugStruct` and `DebugList` of the standard library, without `#`). -/
def Doc.show : Doc → Bytes
  | .text s => s
  | .tuple name args => name ++ b!"(" ++ shows args ++ b!")"
  | .struct name fields => name ++ b!" { " ++ showFields fields ++ b!" }"
  | .list items => b!"[" ++ shows items ++ b!"]"
where
  shows : List Doc → Bytes
    | [] => []
    | [d] => d.show
    | d :: l => d.show ++ b!", " ++ shows l
  showFields : List (Bytes × Doc) → Bytes
    | [] => []
    | [(n, d)] => n ++ b!": " ++ d.show
    | (n, d) :: l => n ++ b!": " ++ d.show ++ b!", " ++ showFields l

/-- What the printed text depends on besides the value. -/
structure DebugEnv where
  /-- Whether the crate is compiled with `debug_assertions`. -/
  debugAssertions : Bool
  /-- `Debug for str`. It is left open: it escapes according to tables of Unicode. -/
  str : Bytes → Bytes
  /-- The derived `Debug` of the commands without secrets. It is left open. -/
  otherBody : CommandBody → Doc
  /-- The derived `Debug` of the parser in the Fragmentizer. It is left open. -/
  parser : Option Frag.Parser → Doc

variable (env : DebugEnv)

/-- `Debug for Secret` (imap-types/src/secret.rs:38-48), given the document of the content. -/
def Doc.secret (inner : Doc) : Doc := if env.debugAssertions then inner else .text b!"/* REDACTED */"

/-- `Debug for [u8]`, which is the one of `Vec<u8>`, `VecDeque<u8>` and `Cow<[u8]>`. -/
def Doc.ofBytes (d : Bytes) : Doc := .list (d.map fun b => .text (showNat b.toNat))

/-- `Debug for Tag` (imap-types/src/core.rs:1063-1067). -/
def Doc.ofTag (t : Bytes) : Doc := .text (b!"Tag(" ++ env.str t ++ b!")")

/-- The derived `Debug for LiteralMode` (imap-types/src/core.rs:726-732). -/
def Doc.ofMode : Mode → Doc
  | .sync => .text b!"Sync"
  | .nonSync => .text b!"NonSync"

/-- `Debug for Literal` (imap-types/src/core.rs:545-564). -/
def Doc.ofLiteral (l : Literal) : Doc :=
  .struct b!"Literal" [(b!"data", .text (b!"b\"" ++ escapeByteString l.data ++ b!"\"")), (b!"mode", .ofMode l.mode)]

/-- `Debug for IString` (imap-types/src/core.rs:392-402), `Quoted` (imap-types/src/core.rs:765-769) and `QuotedUtf8`
(imap-types/src/extensions/utf8.rs:44-48). -/
def Doc.ofIString : IString → Doc
  | .literal l => .tuple b!"Literal" [.ofLiteral l]
  | .quoted s => .tuple b!"Quoted" [.text (b!"Quoted(" ++ env.str s ++ b!")")]
  | .quotedUtf8 s => .tuple b!"QuotedUtf8" [.text (b!"QuotedUtf8(" ++ env.str s ++ b!")")]

/-- `Debug for AString` (imap-types/src/core.rs:944-949) and `AtomExt` (imap-types/src/core.rs:265-269). -/
def Doc.ofAString : AString → Doc
  | .atom s => .tuple b!"Atom" [.text (b!"AtomExt(" ++ env.str s ++ b!")")]
  | .string s => .tuple b!"String" [.ofIString env s]

/-- `Debug for AuthMechanism` (imap-types/src/auth.rs:24-141) and `Atom` (imap-types/src/core.rs:115-119). -/
def Doc.ofMechanism : AuthMechanism → Doc
  | .plain => .text b!"Plain"
  | .login => .text b!"Login"
  | .oAuthBearer => .text b!"OAuthBearer"
  | .xOAuth2 => .text b!"XOAuth2"
  | .scramSha1 => .text b!"ScramSha1"
  | .scramSha1Plus => .text b!"ScramSha1Plus"
  | .scramSha256 => .text b!"ScramSha256"
  | .scramSha256Plus => .text b!"ScramSha256Plus"
  | .scramSha3_512 => .text b!"ScramSha3_512"
  | .scramSha3_512Plus => .text b!"ScramSha3_512Plus"
  | .other s => .tuple b!"Other" [.tuple b!"AuthMechanismOther" [.text (b!"Atom(" ++ env.str s ++ b!")")]]

/-- The derived `Debug for Option`. -/
def Doc.ofOption {α : Type} (f : α → Doc) : Option α → Doc
  | none => .text b!"None"
  | some a => .tuple b!"Some" [f a]

/-- The derived `Debug for CommandBody` (imap-types/src/command.rs:70-1546). LOGIN is at imap-types/src/command.rs:318-323, AUTHENTICATE at
imap-types/src/command.rs:256-278. The other commands hold no `Secret`; they are left open. -/
def Doc.ofBody : CommandBody → Doc
  | .login u p => .struct b!"Login" [(b!"username", .ofAString env u), (b!"password", .secret env (.ofAString env p))]
  | .authenticate m r =>
    .struct b!"Authenticate" [(b!"mechanism", .ofMechanism env m), (b!"initial_response", .ofOption (fun d => .secret env (.ofBytes d)) r)]
  | c => env.otherBody c

/-- The derived `Debug for Command` (imap-types/src/command.rs:42-48). -/
def Doc.ofCommand (c : Command) : Doc := .struct b!"Command" [(b!"tag", .ofTag env c.tag), (b!"body", .ofBody env c.body)]

/-- The derived `Debug for AuthenticateData` (imap-types/src/auth.rs:210-219). -/
def Doc.ofAuthenticateData : AuthenticateData → Doc
  | .continue_ d => .tuple b!"Continue" [.secret env (.ofBytes d)]
  | .cancel => .text b!"Cancel"

/-- The derived `Debug for CommandDecodeError` (imap-codec/src/codec/decode.rs:157-175). A panic prints no result; it does not happen (C05). -/
def Doc.ofCommandError {α : Type} : Outcome α → Doc
  | .incomplete => .text b!"Incomplete"
  | .literalFound t n m =>
    .struct b!"LiteralFound" [(b!"tag", .ofTag env (t.getD [])), (b!"length", .text (showNat n)), (b!"mode", .ofMode (m.getD .sync))]
  | .failed => .text b!"Failed"
  | _ => .text []

/-- The derived `Debug for DecodeMessageError` (imap-codec/src/fragmentizer.rs:582-597), in the derived `Debug for Result`, given the documents of messages and errors. -/
def Doc.ofDecoded {ε μ : Type} (e : ε → Doc) (m : μ → Doc) : Frag.Decoded ε μ → Doc
  | .ok v => .tuple b!"Ok" [m v]
  | .decodingFailure err => .tuple b!"Err" [.tuple b!"DecodingFailure" [e err]]
  | .decodingRemainder v r => .tuple b!"Err" [.struct b!"DecodingRemainder" [(b!"message", m v), (b!"remainder", .secret env (.ofBytes r))]]
  | .messageTooLong b => .tuple b!"Err" [.struct b!"MessageTooLong" [(b!"initial", .secret env (.ofBytes b))]]
  | .messagePoisoned b => .tuple b!"Err" [.struct b!"MessagePoisoned" [(b!"discarded", .secret env (.ofBytes b))]]

/-- The derived `Debug for Fragment` (imap-codec/src/codec/encode.rs:157-164). -/
def Doc.ofFragment : Fragment → Doc
  | .line d => .struct b!"Line" [(b!"data", .ofBytes d)]
  | .literal d m => .struct b!"Literal" [(b!"data", .ofBytes d), (b!"mode", .ofMode m)]

/-- The derived `Debug for Encoded` (imap-codec/src/codec/encode.rs:127-130). -/
def Doc.ofEncoded (l : List Fragment) : Doc := .struct b!"Encoded" [(b!"items", .list (l.map .ofFragment))]

/-- The derived `Debug for Fragmentizer` (imap-codec/src/fragmentizer.rs:63-81). -/
def Doc.ofFragmentizer (s : Frag.State) : Doc :=
  .struct b!"Fragmentizer" [(b!"unparsed_buffer", .ofBytes s.unparsed), (b!"max_message_size", .ofOption (fun n => .text (showNat n)) s.maxSize),
    (b!"max_message_size_exceeded", .text (if s.exceeded then b!"true" else b!"false")),
    (b!"message_poisoned", .text (if s.poisoned then b!"true" else b!"false")), (b!"message_buffer", .ofBytes s.buffer), (b!"parser", env.parser s.parser)]

end Imap
