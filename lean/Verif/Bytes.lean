/-
Byte strings and byte classes shared by all parts of the model.
-/

open Lean in
/-- `b!"text"` is the list of UTF-8 bytes of the literal; it models Rust's byte string literals `b"text"`. -/
macro:max "b!" s:str : term => do
  let bs := s.getString.toUTF8.toList
  let els : Array (TSyntax `term) := (bs.map fun b => ⟨Syntax.mkNumLit (toString b.toNat)⟩).toArray
  `(([ $els,* ] : List UInt8))

namespace Imap

/-- Byte strings (Rust `&[u8]`, `Vec<u8>`, `Cow<[u8]>`, and the UTF-8 bytes of `&str`). -/
abbrev Bytes := List UInt8

/-- Lift a check of all 256 bytes to a statement about every byte. -/
theorem forall_byte {P : UInt8 → Prop} [DecidablePred P]
    (h : ∀ i : Fin 256, P (UInt8.ofFin i)) : ∀ b, P b := fun b => by
  have := h b.toFin
  simpa using this

/-- `LiteralMode` (imap-types/src/core.rs:727-736): synchronizing `{n}` or non-synchronizing `{n+}`. -/
inductive Mode where
  | sync
  | nonSync
  deriving DecidableEq, Repr

/-- ASCII digit (`b'0'..=b'9'`). -/
def isDigit (b : UInt8) : Bool := 48 ≤ b && b ≤ 57

/-- Value of one digit byte (`byte - b'0'`). -/
def digitVal (b : UInt8) : Nat := b.toNat - 48

/-- Value of a string of ASCII digits read left to right. -/
def decVal (ds : Bytes) : Nat := ds.foldl (fun n d => n * 10 + digitVal d) 0

end Imap
