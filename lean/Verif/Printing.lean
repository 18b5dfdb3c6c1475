import Verif.Types
/-
Conversions between values and text that are not parts of the codec: `Display`, `AsRef<str>`, `TryFrom<&str>` and `FromStr` in imap-types.

Only the conversions that are not in `Verif/Types.lean` and not used by the encoder are modelled here. As in `Verif/Types.lean`, a string is
modelled by its bytes.
-/
set_option maxRecDepth 10000
namespace Imap

/-- `TryFrom<&str> for CapabilityEnable` (imap-types/src/extensions/enable.rs:56-62). -/
def CapabilityEnable.tryFrom [Quirks] (v : Bytes) : Made ValidationError CapabilityEnable := do return .ofAtom (← Atom.tryFrom v)

/-- `TryFrom<&[u8]>`, `TryFrom<&str>` etc. for `Resource` (imap-types/src/extensions/quota.rs:191-195, macro at
imap-types/src/core.rs:64-76). -/
def Resource.tryFrom (v : Bytes) : Made ValidationError Resource := do return .ofAtom (← Atom.tryFrom v)

/-- `TryFrom<&[u8]>`, `TryFrom<&str>` etc. for `Capability` (imap-types/src/response.rs:1171-1174, macro at
imap-types/src/core.rs:64-76). -/
def Capability.tryFrom [Quirks] (v : Bytes) : Made ValidationError Capability := do return .ofAtom (← Atom.tryFrom v)

/-- `Atom::try_from` followed by `From<Atom> for SortAlgorithm` (imap-types/src/extensions/sort.rs:21-28). -/
def SortAlgorithm.tryFrom (v : Bytes) : Made ValidationError SortAlgorithm := do return .ofAtom (← Atom.tryFrom v)

/-- `Atom::try_from` followed by `From<Atom> for ThreadingAlgorithm` (imap-types/src/extensions/thread.rs:148-156). -/
def ThreadingAlgorithm.tryFrom (v : Bytes) : Made ValidationError ThreadingAlgorithm := do return .ofAtom (← Atom.tryFrom v)

/-- `TryFrom<&str> for AttributeFlag` (imap-types/src/extensions/condstore_qresync.rs:44-54): two backslashes are the prefix of a system
flag. -/
def AttributeFlag.tryFrom (v : Bytes) : Made ValidationError AttributeFlag :=
  match v with
  | 92 :: 92 :: v => do return .system (← Atom.tryFrom v)
  | _ => do return .keyword (← Atom.tryFrom v)

/-- `CompressionAlgorithm` (imap-types/src/extensions/compress.rs:41-43). -/
inductive CompressionAlgorithm where
  | deflate
  deriving DecidableEq, Repr

/-- `Display for CompressionAlgorithm` and `AsRef<str> for CompressionAlgorithm` (imap-types/src/extensions/compress.rs:45-51, 86-92). -/
def CompressionAlgorithm.name : CompressionAlgorithm → Bytes
  | .deflate => b!"DEFLATE"

/-- `TryFrom<&str>`, `TryFrom<&[u8]>` and `TryFrom<Atom>` for `CompressionAlgorithm` (imap-types/src/extensions/compress.rs:53-84). -/
def CompressionAlgorithm.tryFrom (v : Bytes) : Made ValidationError CompressionAlgorithm :=
  if lowerAll v = b!"deflate" then .ok .deflate else .err .invalid

/-- `Display for Flag` (imap-types/src/flag.rs:81-93), which its encoder uses. -/
def Flag.text (f : Flag) : Bytes := bytes f.enc

/-- A byte in hexadecimal with two digits in lowercase, as printed by `{:02x}`. -/
def hex2 (b : UInt8) : Bytes :=
  let digit (n : UInt8) : UInt8 := if n < 10 then 48 + n else 87 + n
  [digit (b / 16), digit (b % 16)]

/-- `Display for ValidationError` and `ValidationErrorKind` (imap-types/src/error.rs:15-31). -/
def ValidationError.text (e : ValidationError) : Bytes :=
  b!"Validation failed: " ++ match e with
  | .empty => b!"Must not be empty"
  | .notEnough min => b!"Must have at least " ++ showNat min ++ b!" elements"
  | .invalid => b!"Invalid value"
  | .invalidByteAt byte at_ => b!"Invalid byte b'\\x" ++ hex2 byte ++ b!"' at index " ++ showNat at_

end Imap
