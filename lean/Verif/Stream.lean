import Verif.Codec
set_option maxRecDepth 10000
/-! # Decoding a stream without the Fragmentizer

The way to use a `Decoder` that its documentation describes (imap-codec/src/codec/decode.rs:1-10, and the documentation of the
errors, 138-289): keep a buffer; when a message is decoded, handle it and go on with the remainder; when the decoder returns `Incomplete`,
read more bytes; when it returns `LiteralFound`, answer the announcement and read more bytes; when it returns `Failed`, stop. -/
namespace Imap.Stream
variable [Quirks]

/-- What the loop does while it reads. -/
inductive Event (k : Codec) where
  /-- a message was decoded -/
  | message (m : k.Message)
  /-- a literal was announced -/
  | literal (tag : Option Bytes) (length : Nat) (mode : Option Mode)

/-- How the loop ends. -/
inductive End where
  /-- there is no more chunk; the bytes that are left in the buffer -/
  | exhausted (buffer : Bytes)
  /-- the decoder failed; the bytes in the buffer and the chunks that were not read -/
  | failed (buffer : Bytes) (unread : List Bytes)
  /-- the decoder panicked -/
  | panicked
  deriving DecidableEq, Repr

/-- Decode and handle messages until the decoder wants more bytes, fails or panics (imap-codec/src/codec/decode.rs:1-10). The number of
rounds is bounded by `fuel`; `loop` gives one round per byte and one more. -/
def decodeAll (k : Codec) : (fuel : Nat) → Bytes → List (Event k) × Bytes × Outcome k.Message
  | 0, buffer => ([], buffer, k.decode buffer)
  | fuel + 1, buffer =>
    match k.decode buffer with
    | .ok rem m => let r := decodeAll k fuel rem; (.message m :: r.1, r.2)
    | o => ([], buffer, o)

/-- The loop of a reader, see the top of this file. The chunks are what `read` returns, one after the other. -/
def loop (k : Codec) (buffer : Bytes) : List Bytes → List (Event k) × End
  | [] =>
    match decodeAll k (buffer.length + 1) buffer with
    | (evs, buffer, .failed) => (evs, .failed buffer [])
    | (evs, _, .panicked) => (evs, .panicked)
    | (evs, buffer, .literalFound tag n mode) => (evs ++ [.literal tag n mode], .exhausted buffer)
    | (evs, buffer, _) => (evs, .exhausted buffer)
  | c :: chunks =>
    match decodeAll k (buffer.length + 1) buffer with
    | (evs, buffer, .failed) => (evs, .failed buffer (c :: chunks))
    | (evs, _, .panicked) => (evs, .panicked)
    | (evs, buffer, .literalFound tag n mode) => let r := loop k (buffer ++ c) chunks; (evs ++ .literal tag n mode :: r.1, r.2)
    | (evs, buffer, _) => let r := loop k (buffer ++ c) chunks; (evs ++ r.1, r.2)

/-- The messages among the events. -/
def messages {k : Codec} (evs : List (Event k)) : List k.Message :=
  evs.filterMap fun | .message m => some m | .literal .. => none

end Imap.Stream
