import Verif.WellFormed
import Verif.Types
/-
Specification: values that have a textual form.
-/
namespace Imap.Spec

open Imap

/-- `print` and `parse` are the two directions of a textual form of the values.
`accepted` are the texts that can be parsed, and `valid` are the values that can be printed and parsed back. -/
structure TextForm {α : Type} (accepted : Bytes → Prop) (valid : α → Prop) (print : α → Bytes)
    (parse : Bytes → Made ValidationError α) : Prop where
  /-- What has been printed can be parsed, and it is the same value. -/
  back : ∀ v, valid v → parse (print v) = .ok v
  /-- These texts, and no others, can be parsed. -/
  accepts : ∀ s, (∃ v, parse s = .ok v) ↔ accepted s
  /-- All other texts are an error. -/
  rejects : ∀ s, ¬ accepted s → ∃ e, parse s = .err e
  /-- A parsed value is valid, and prints as the text it was parsed from, up to letter case. -/
  faithful : ∀ s v, parse s = .ok v → valid v ∧ lowerAll (print v) = lowerAll s

/-- The names of system flags in searches for modification sequences (RFC 7162, section 3.1.5), without the backslashes. -/
def attributeFlagNames : List (Bytes × AttributeFlag) :=
  [(b!"seen", .seen), (b!"answered", .answered), (b!"flagged", .flagged), (b!"deleted", .deleted), (b!"draft", .draft)]

/-- An atom, or an atom after the prefix of system flags. -/
def IsFlagText (mark : Bytes) (s : Bytes) : Prop := IsAtom s ∨ ∃ a, IsAtom a ∧ s = mark ++ a

/-- The text of this error contains the position and the byte in hexadecimal. -/
def ErrorTextAt (text : Bytes) (b : UInt8) (i : Nat) : Prop :=
  ∃ h l : UInt8, text = b!"Validation failed: Invalid byte b'\\x" ++ [h, l] ++ b!"' at index " ++ showNat i ∧
    h ∈ b!"0123456789abcdef" ∧ l ∈ b!"0123456789abcdef" ∧
    (b!"0123456789abcdef").idxOf h * 16 + (b!"0123456789abcdef").idxOf l = b.toNat

end Imap.Spec
