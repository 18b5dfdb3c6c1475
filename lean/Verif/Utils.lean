import Verif.Core
/-
Functions of imap-types/src/utils.rs that the codecs do not use.
-/
namespace Imap

/-- A hexadecimal digit in lowercase, as `format!("{:x}")` writes it. -/
def hexDigit (n : Nat) : UInt8 := if n < 10 then UInt8.ofNat (48 + n) else UInt8.ofNat (87 + n)

/-- `format!("\\x{byte:02x}")` (imap-types/src/utils.rs:15). -/
def hexEscape (b : UInt8) : Bytes := [92, 120, hexDigit (b.toNat / 16), hexDigit (b.toNat % 16)]

/-- The `match` of `escape_byte_string` (imap-types/src/utils.rs:14-29). The result, a `String` of ASCII characters, is modelled by
its bytes. -/
def escapeByte (b : UInt8) : Bytes :=
  if b ≤ 0x08 then hexEscape b
  else if b = 0x09 then b!"\\t"
  else if b = 0x0a then b!"\\n"
  else if b = 0x0b then hexEscape b
  else if b = 0x0c then hexEscape b
  else if b = 0x0d then b!"\\r"
  else if b ≤ 0x1f then hexEscape b
  else if b ≤ 0x21 then [b]
  else if b = 0x22 then b!"\\\""
  else if b ≤ 0x5b then [b]
  else if b = 0x5c then b!"\\\\"
  else if b ≤ 0x7e then [b]
  else hexEscape b

/-- `escape_byte_string` (imap-types/src/utils.rs:6-32). -/
def escapeByteString (bs : Bytes) : Bytes := (bs.map escapeByte).flatten

end Imap
