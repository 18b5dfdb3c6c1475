import Verif.Response
/-
The public interface: the five codecs with their `encode` and `decode` (imap-codec/src/codec/decode.rs:290-400,
imap-codec/src/codec/encode.rs:232-254).
-/
namespace Imap

/-- The five codecs (imap-codec/src/lib.rs, imap-codec/src/codec.rs). -/
inductive Codec where
  | greeting | command | authenticateData | response | idleDone
  deriving DecidableEq, Repr

/-- `Decoder::Message` (imap-codec/src/codec/decode.rs:302, 319, 346, 369, 388). -/
abbrev Codec.Message : Codec → Type
  | .greeting => Greeting
  | .command => Command
  | .authenticateData => AuthenticateData
  | .response => Response
  | .idleDone => Unit

/-- The result of `Decoder::decode`: `Ok((rem, message))` or one of the error types (imap-codec/src/codec/decode.rs:138-289).
The literal signal carries a tag and a mode only for commands; `panicked` is the `expect` in the decoder of commands. -/
inductive Outcome (α : Type) where
  | ok (rem : Bytes) (message : α)
  | incomplete
  | literalFound (tag : Option Bytes) (length : Nat) (mode : Option Mode)
  | failed
  | panicked
  deriving DecidableEq, Repr

/-- `decode` of GreetingCodec, AuthenticateDataCodec and IdleDoneCodec (imap-codec/src/codec/decode.rs:301-315, 368-384, 386-400). -/
def outcomePlain {α : Type} : Res α → Outcome α
  | .ok rem m => .ok rem m
  | .incomplete => .incomplete
  | .failure _ => .failed
  | .error => .failed

/-- `decode` of CommandCodec (imap-codec/src/codec/decode.rs:317-343). -/
def outcomeCommand {α : Type} : Res α → Outcome α
  | .ok rem m => .ok rem m
  | .incomplete => .incomplete
  | .failure (.literal (some tag) length mode) => .literalFound (some tag) length (some mode)
  | .failure (.literal none _ _) => .panicked
  | .failure _ => .failed
  | .error => .failed

/-- `decode` of ResponseCodec (imap-codec/src/codec/decode.rs:345-366). Only failures carry the literal signal
(imap-codec/src/core.rs:170, imap-codec/src/extensions/binary.rs:49). -/
def outcomeResponse {α : Type} : Res α → Outcome α
  | .ok rem m => .ok rem m
  | .incomplete => .incomplete
  | .failure (.literal _ length _) => .literalFound none length none
  | .failure _ => .failed
  | .error => .failed

/-- `Decoder::decode` (imap-codec/src/codec/decode.rs:301-400). -/
def Codec.decode [Quirks] : (k : Codec) → Bytes → Outcome k.Message
  | .greeting, x => outcomePlain (Imap.greeting x)
  | .command, x => outcomeCommand (Imap.command x)
  | .authenticateData, x => outcomePlain (Imap.authenticateData x)
  | .response, x => outcomeResponse (Imap.response x)
  | .idleDone, x => outcomePlain (Imap.idleDone x)

/-- The calls of `encode_ctx` (imap-codec/src/codec/encode.rs:256-258). -/
def Codec.enc [Quirks] : (k : Codec) → k.Message → List W
  | .greeting, m => Greeting.enc m
  | .command, m => Command.enc m
  | .authenticateData, m => AuthenticateData.enc m
  | .response, m => Response.enc m
  | .idleDone, _ => encIdleDone

/-- `Encoder::encode` (imap-codec/src/codec/encode.rs:232-254): the fragments that the iterator over `Encoded` yields. -/
def Codec.encode [Quirks] (k : Codec) (m : k.Message) : List Fragment := fragments (k.enc m)

end Imap
