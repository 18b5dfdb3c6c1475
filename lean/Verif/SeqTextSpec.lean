import Verif.SeqText
import Verif.SeqSpec
import Verif.NumbersSpec
/-!
Specification of the textual form of sequence sets, for C39.
-/
namespace Imap.Spec

/-- The text of a message number as RFC 3501 writes it (`nz-number`): a numeral without leading zero whose value fits
into a `u32`, or `*`. -/
inductive RfcNum : Bytes → SeqOrUid → Prop
  | star : RfcNum b!"*" .asterisk
  | num {ds n} : Numeral ds → ds.head? ≠ some 48 → value ds = n → n < 2 ^ 32 → RfcNum ds (.value n)

/-- The texts of a message number that are accepted: besides those of the RFC, a numeral may follow a plus sign, and then
it may have leading zeros. -/
inductive TextNum : Bytes → SeqOrUid → Prop
  | rfc {t a} : RfcNum t a → TextNum t a
  | plus {ds n} : Numeral ds → value ds = n → 1 ≤ n → n < 2 ^ 32 → TextNum (43 :: ds) (.value n)

/-- The texts of a message number that the wire decoders accept: besides those of the RFC, a numeral may have leading
zeros. -/
inductive WireNum : Bytes → SeqOrUid → Prop
  | star : WireNum b!"*" .asterisk
  | num {ds n} : Numeral ds → value ds = n → 1 ≤ n → n < 2 ^ 32 → WireNum ds (.value n)

/-- One element: a number, or two numbers with a colon between. -/
inductive TextElem (N : Bytes → SeqOrUid → Prop) : Bytes → Sequence → Prop
  | single {t a} : N t a → TextElem N t (.single a)
  | range {t u a b} : N t a → N u b → TextElem N (t ++ 58 :: u) (.range a b)

/-- A set: elements with commas between, at least one. -/
inductive TextSet (N : Bytes → SeqOrUid → Prop) : Bytes → SequenceSet → Prop
  | one {t q} : TextElem N t q → TextSet N t [q]
  | more {t q u s} : TextElem N t q → TextSet N u s → TextSet N (t ++ 44 :: u) (q :: s)

/-- What follows the set on the wire is there and does not continue it. -/
def NextEndsSet (rest : Bytes) : Prop := ∃ b r, rest = b :: r ∧ ¬ Digit b ∧ b ≠ 58 ∧ b ≠ 44

end Imap.Spec
