import Verif.Sequence
/-
Model of the rest of imap-types/src/sequence.rs: parsing a sequence set from a string and comparing sequences.

Simplifications: a `&str` is its UTF-8 bytes. The separators and all accepted characters are ASCII, so splitting the
bytes is splitting the characters. Every `ValidationError` is `none`.
-/
namespace Imap

/-- `str::split` by an ASCII character: the pieces between the separators, at least one (Rust standard library). -/
def splitBy (sep : UInt8) : Bytes → List Bytes
  | [] => [[]]
  | b :: bs =>
    if b = sep then [] :: splitBy sep bs
    else
      match splitBy sep bs with
      | [] => [[b]]
      | p :: ps => (b :: p) :: ps

/-- The digit loop of `u32::from_str` (Rust standard library) with the accumulator `acc`: it fails at the first
character that is no digit and at the first overflow. -/
def u32Loop (acc : Nat) : Bytes → Option Nat
  | [] => some acc
  | b :: bs =>
    if isDigit b ∧ acc * 10 ≤ u32Max ∧ acc * 10 + digitVal b ≤ u32Max then u32Loop (acc * 10 + digitVal b) bs else none

/-- `u32::from_str` (Rust standard library): an optional `+` and then digits; `""`, `"+"` and `"-"` are rejected. -/
def u32FromStr : Bytes → Option Nat
  | [] => none
  | b :: bs => if b = 43 then (if bs.isEmpty then none else u32Loop 0 bs) else u32Loop 0 (b :: bs)

/-- `NonZeroU32::from_str` (Rust standard library). -/
def nzFromStr (s : Bytes) : Option Nat :=
  match u32FromStr s with
  | some 0 => none
  | r => r

/-- `FromStr for SeqOrUid` and `TryFrom<&str>` (imap-types/src/sequence.rs:423-450). -/
def SeqOrUid.fromStr (s : Bytes) : Option SeqOrUid :=
  if s = b!"*" then some .asterisk
  else if s.head? = some 48 then none
  else (nzFromStr s).map .value

/-- `FromStr for Sequence` and `TryFrom<&str>` (imap-types/src/sequence.rs:287-316). -/
def Sequence.fromStr (s : Bytes) : Option Sequence :=
  match splitBy 58 s with
  | [] => none
  | [_] => do return .single (← SeqOrUid.fromStr s)
  | [x, y] => do return .range (← SeqOrUid.fromStr x) (← SeqOrUid.fromStr y)
  | _ => none

/-- The loop of `FromStr for SequenceSet` (imap-types/src/sequence.rs:196-198). -/
def sequencesFromStr : List Bytes → Option (List Sequence)
  | [] => some []
  | s :: ss => do return (← Sequence.fromStr s) :: (← sequencesFromStr ss)

/-- `FromStr for SequenceSet` and `TryFrom<&str>` (imap-types/src/sequence.rs:182-204). -/
def SequenceSet.fromStr (s : Bytes) : Option SequenceSet := do
  let results ← sequencesFromStr (splitBy 44 s)
  if results.isEmpty then none else return results

/-- `Ord::cmp for SeqOrUid` (imap-types/src/sequence.rs:336-345). -/
def SeqOrUid.cmp : SeqOrUid → SeqOrUid → Ordering
  | .value a, .value b => compare a b
  | .asterisk, .asterisk => .eq
  | _, .asterisk => .lt
  | .asterisk, _ => .gt

/-- `Ord::min`: the first argument if they are equal (Rust standard library). -/
def SeqOrUid.min (a b : SeqOrUid) : SeqOrUid := if b.cmp a = .lt then b else a

/-- `Ord::max`: the second argument if they are equal (Rust standard library). -/
def SeqOrUid.max (a b : SeqOrUid) : SeqOrUid := if b.cmp a = .lt then a else b

/-- `PartialOrd for Sequence` (imap-types/src/sequence.rs:234-273). -/
def Sequence.partialCmp : Sequence → Sequence → Option Ordering
  | .single a, .single b => some (a.cmp b)
  | .single a, .range b1 b2 =>
    if a.cmp (b1.min b2) = .lt then some .lt
    else if a.cmp (b1.max b2) = .gt then some .gt
    else none
  | .range a1 a2, .single b =>
    if b.cmp (a1.min a2) = .lt then some .gt
    else if b.cmp (a1.max a2) = .gt then some .lt
    else none
  | .range a1 a2, .range b1 b2 =>
    if (a1.max a2).cmp b1 = .lt ∧ (a1.max a2).cmp b2 = .lt then some .lt
    else if (a1.min a2).cmp b1 = .gt ∧ (a1.min a2).cmp b2 = .gt then some .gt
    else none

end Imap
