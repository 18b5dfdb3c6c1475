import Verif.Sequence
/-!
Specification of sequence sets (RFC 3501, `seq-number`, `seq-range`, `sequence-set`), independent of the algorithms.
-/
namespace Imap

/-- `*` stands for the largest number in use. -/
def SeqOrUid.Is (largest : Nat) : SeqOrUid → Nat → Prop
  | .value v, n => n = v
  | .asterisk, n => n = largest

/-- A single denotes its number; a range denotes all numbers between its two ends, in whichever order they are
written. -/
def Sequence.Denotes (largest : Nat) : Sequence → Nat → Prop
  | .single a, n => a.Is largest n
  | .range a b, n => ∃ x y, a.Is largest x ∧ b.Is largest y ∧ ((x ≤ n ∧ n ≤ y) ∨ (y ≤ n ∧ n ≤ x))

/-- A set denotes the union of its elements. -/
def SequenceSet.Denotes (largest : Nat) (s : SequenceSet) (n : Nat) : Prop := ∃ q ∈ s, q.Denotes largest n

/-- The plain numbers written in an element. -/
def Sequence.Mentions : Sequence → Nat → Prop
  | .single a, n => a = .value n
  | .range a b, n => a = .value n ∨ b = .value n

/-- `*` occurs in the element. -/
def Sequence.HasStar : Sequence → Prop
  | .single a => a = .asterisk
  | .range a b => a = .asterisk ∨ b = .asterisk

/-- The numbers from x to y, counting up or down. -/
def countFromTo (x y : Nat) : List Nat :=
  if x ≤ y then List.range' x (y - x + 1) else (List.range' y (x - y + 1)).reverse

/-- The expansion of one element, in the order in which it is written. -/
def Sequence.expansion (largest : Nat) : Sequence → List Nat
  | .single (.value v) => [v]
  | .single .asterisk => [largest]
  | .range (.value x) (.value y) => countFromTo x y
  | .range (.value x) .asterisk => countFromTo x largest
  | .range .asterisk (.value y) => countFromTo largest y
  | .range .asterisk .asterisk => [largest]

/-- The iterator `it` enumerates exactly the list `L`: however many elements are requested, it delivers the
elements of `L` and then stops. -/
def SeqIter.Yields (it : SeqIter) (L : List Nat) : Prop := ∀ fuel, it.take fuel = L.take fuel

end Imap
