import Verif.Bytes
/-
Byte classes of imap-types (imap-types/src/utils.rs:34-118) and the validators of the string types
(imap-types/src/core.rs).
-/
namespace Imap

/-- `is_char` (imap-types/src/utils.rs:38-40). -/
def isChar (b : UInt8) : Bool := 0x01 ≤ b && b ≤ 0x7f

/-- `is_ctl` (imap-types/src/utils.rs:45-47). -/
def isCtl (b : UInt8) : Bool := b ≤ 0x1f || b == 0x7f

/-- `is_quoted_specials` (imap-types/src/utils.rs:54-56). -/
def isQuotedSpecials (b : UInt8) : Bool := b == 34 || b == 92

/-- `is_list_wildcards` (imap-types/src/utils.rs:81-83): `%` or `*`. -/
def isListWildcards (b : UInt8) : Bool := b == 37 || b == 42

/-- `is_resp_specials` (imap-types/src/utils.rs:87-89): `]`. -/
def isRespSpecials (b : UInt8) : Bool := b == 93

/-- `is_atom_specials` (imap-types/src/utils.rs:69-78): `(`, `)`, `{`, SP, CTL, list-wildcards,
quoted-specials, resp-specials. -/
def isAtomSpecials (b : UInt8) : Bool :=
  b == 40 || b == 41 || b == 123 || b == 32 || isCtl b || isListWildcards b || isQuotedSpecials b ||
    isRespSpecials b

/-- `is_atom_char` (imap-types/src/utils.rs:64-66). -/
def isAtomChar (b : UInt8) : Bool := isChar b && !isAtomSpecials b

/-- `is_astring_char` (imap-types/src/utils.rs:59-61). -/
def isAStringChar (b : UInt8) : Bool := isAtomChar b || isRespSpecials b

/-- `is_char8` (imap-types/src/utils.rs:95-97). -/
def isChar8 (b : UInt8) : Bool := b != 0

/-- `is_text_char` (imap-types/src/utils.rs:102-104). -/
def isTextChar (b : UInt8) : Bool :=
  (0x01 ≤ b && b ≤ 0x09) || (0x0b ≤ b && b ≤ 0x0c) || (0x0e ≤ b && b ≤ 0x7f)

/-- `is_list_char` (imap-types/src/utils.rs:107-109). -/
def isListChar (b : UInt8) : Bool := isAtomChar b || isListWildcards b || isRespSpecials b

/-- `is_any_text_char_except_quoted_specials` (imap-types/src/utils.rs:49-51). -/
def isAnyTextCharExceptQuotedSpecials (b : UInt8) : Bool := isTextChar b && !isQuotedSpecials b

end Imap
