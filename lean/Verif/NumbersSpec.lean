import Verif.Codec
/-!
Specification of decimal numbers, for C31.
-/
namespace Imap.Spec

/-- The digits `0` to `9`. -/
def Digit (b : UInt8) : Prop := 48 ≤ b.toNat ∧ b.toNat ≤ 57
  deriving Decidable

/-- A numeral: at least one digit. -/
def Numeral (ds : Bytes) : Prop := ds ≠ [] ∧ ∀ b ∈ ds, Digit b

/-- The value of a numeral in positional notation: the first digit counts for the highest power of ten. -/
def value : Bytes → Nat
  | [] => 0
  | d :: ds => (d.toNat - 48) * 10 ^ ds.length + value ds

/-- What follows the number is there and is not a digit. -/
def NextIsNoDigit (rest : Bytes) : Prop := ∃ b r, rest = b :: r ∧ ¬ Digit b

end Imap.Spec
