import Verif.Bytes
/-
Specification for C24: base64 according to RFC 4648, section 4.
-/
namespace Imap.Spec

/-- The alphabet (RFC 4648, table 1). -/
def base64Alphabet : Bytes := b!"ABCDEFGHIJKLMNOPQRSTUVWXYZabcdefghijklmnopqrstuvwxyz0123456789+/"

/-- The bits of a byte, the most significant one first. -/
def bitsOf (b : UInt8) : List Bool := [7, 6, 5, 4, 3, 2, 1, 0].map fun i => b.toNat.testBit i

/-- The number with the given bits, the most significant one first. -/
def ofBits (l : List Bool) : Nat := l.foldl (fun n b => 2 * n + b.toNat) 0

/-- Groups of six bits; zeros are added to the last one. -/
def sextets : List Bool → List (List Bool)
  | [] => []
  | a :: b :: c :: d :: e :: f :: r => [a, b, c, d, e, f] :: sextets r
  | r => [(r ++ List.replicate 6 false).take 6]

/-- One character for each six bits. -/
def base64Chars (data : Bytes) : Bytes := (sextets (data.flatMap bitsOf)).map fun g => base64Alphabet.getD (ofBits g) 0

/-- The text, filled up with `=` to a multiple of four characters. -/
def base64 (data : Bytes) : Bytes :=
  base64Chars data ++ List.replicate ((4 - (base64Chars data).length % 4) % 4) 61

end Imap.Spec
