import Verif.Bytes
/-
Specification: byte string literals of Rust (The Rust Reference, "Byte string literals").
-/
namespace Imap.Spec

open Imap

/-- The value of a hexadecimal digit. -/
def hexValue (b : UInt8) : Option Nat :=
  if 48 ≤ b ∧ b ≤ 57 then some (b.toNat - 48)
  else if 97 ≤ b ∧ b ≤ 102 then some (b.toNat - 87)
  else if 65 ≤ b ∧ b ≤ 70 then some (b.toNat - 55)
  else none

/-- The rest of a byte string literal, after the opening quote: the bytes that it denotes, and the source code after the closing quote. A
backslash starts one of the escapes `\n`, `\r`, `\t`, `\\`, `\0`, `\'`, `\"` and `\xHH`. (A backslash at the end of a line is not modelled.)
Otherwise a character of ASCII except CR stands for itself. -/
def byteString : Bytes → Option (Bytes × Bytes)
  | [] => none
  | 34 :: r => some ([], r)
  | 92 :: 120 :: a :: b :: r =>
    match hexValue a, hexValue b with
    | some h, some l => (byteString r).map fun x => (UInt8.ofNat (16 * h + l) :: x.1, x.2)
    | _, _ => none
  | 92 :: 110 :: r => (byteString r).map fun x => (10 :: x.1, x.2)
  | 92 :: 114 :: r => (byteString r).map fun x => (13 :: x.1, x.2)
  | 92 :: 116 :: r => (byteString r).map fun x => (9 :: x.1, x.2)
  | 92 :: 92 :: r => (byteString r).map fun x => (92 :: x.1, x.2)
  | 92 :: 48 :: r => (byteString r).map fun x => (0 :: x.1, x.2)
  | 92 :: 39 :: r => (byteString r).map fun x => (39 :: x.1, x.2)
  | 92 :: 34 :: r => (byteString r).map fun x => (34 :: x.1, x.2)
  | c :: r => if c ≠ 92 ∧ c ≠ 13 ∧ c < 128 then (byteString r).map fun x => (c :: x.1, x.2) else none

end Imap.Spec
