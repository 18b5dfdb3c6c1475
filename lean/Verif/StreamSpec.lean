import Verif.Stream
/-! # Specification: the messages that are in a string of bytes, in terms of `decode` on the whole string -/
namespace Imap.Stream
variable [Quirks]

/-- `Reads k bytes ms rest`: decoding `bytes` again and again gives the messages `ms` and then `rest`, which does not start with
a complete message. -/
inductive Reads (k : Codec) : Bytes → List k.Message → Bytes → Prop where
  | stop {bytes} : (∀ rem m, k.decode bytes ≠ .ok rem m) → Reads k bytes [] bytes
  | next {bytes rem m ms rest} : k.decode bytes = .ok rem m → Reads k rem ms rest → Reads k bytes (m :: ms) rest

end Imap.Stream
