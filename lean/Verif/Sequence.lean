import Verif.Bytes
/-
Model of imap-types/src/sequence.rs: sequence sets, normalization, iteration, conversion from ranges.

Simplifications: `NonZeroU32`/`u32` values are `Nat` with the explicit bound `u32Max`; `VecDeque`/`Vec` are
lists; a `HashSet` is a duplicate-free list whose iteration order is a parameter.
-/
namespace Imap

/-- `u32::MAX`. -/
def u32Max : Nat := 4294967295

/-- `SeqOrUid` (imap-types/src/sequence.rs:322-325). -/
inductive SeqOrUid where
  | value (n : Nat)
  | asterisk
  deriving DecidableEq, Repr

/-- `Sequence` (imap-types/src/sequence.rs:209-212). -/
inductive Sequence where
  | single (a : SeqOrUid)
  | range (a b : SeqOrUid)
  deriving DecidableEq, Repr

/-- `SequenceSet` (imap-types/src/sequence.rs:36): a non-empty vector (`Vec1`); non-emptiness is `SequenceSet.wf`. -/
abbrev SequenceSet := List Sequence

/-- The type `NonZeroU32`. -/
def isNonZeroU32 (n : Nat) : Bool := 1 ≤ n && n ≤ u32Max

/-- The values representable by `SeqOrUid`. -/
def SeqOrUid.wf : SeqOrUid → Bool
  | .value n => isNonZeroU32 n
  | .asterisk => true

/-- The values representable by `Sequence`. -/
def Sequence.wf : Sequence → Bool
  | .single a => a.wf
  | .range a b => a.wf && b.wf

/-- The values representable by `SequenceSet`. -/
def SequenceSet.wf (s : SequenceSet) : Bool := !s.isEmpty && s.all Sequence.wf

/-- `SeqOrUid::to_non_zero_u32` (imap-types/src/sequence.rs:327-334). -/
def SeqOrUid.toNZ : SeqOrUid → Nat
  | .value n => n
  | .asterisk => u32Max

/-- `NonZeroU32::saturating_add(1)`. -/
def satSucc (n : Nat) : Nat := if n < u32Max then n + 1 else u32Max

/-- `impl Ord for SeqOrUid` (imap-types/src/sequence.rs:336-345): `a > b`. -/
def SeqOrUid.gt : SeqOrUid → SeqOrUid → Bool
  | .value a, .value b => b < a
  | .asterisk, .asterisk => false
  | _, .asterisk => false
  | .asterisk, _ => true

/-- `From<NonZeroU32> for SeqOrUid` (imap-types/src/sequence.rs:353-361). -/
def SeqOrUid.ofNZ (n : Nat) : SeqOrUid := if n = u32Max then .asterisk else .value n

/-- `Sequence::normalize` (imap-types/src/sequence.rs:216-231). -/
def Sequence.normalize : Sequence → Sequence
  | .range a b => if a = b then .single a else if a.gt b then .range b a else .range a b
  | s => s

/-- Stable insertion of `x` into a list sorted by `key`. -/
def insertByKey {α : Type} (key : α → Nat) (x : α) : List α → List α
  | [] => [x]
  | y :: ys => if key x ≤ key y then x :: y :: ys else y :: insertByKey key x ys

/-- Stable sorting by `key`: `sort_by_key` of the Rust standard library (stable). -/
def sortByKey {α : Type} (key : α → Nat) : List α → List α
  | [] => []
  | x :: xs => insertByKey key x (sortByKey key xs)

/-- The half-open range pushed for one normalized element (imap-types/src/sequence.rs:45-55). -/
def Sequence.toHalfOpen : Sequence → Nat × Nat
  | .single a => (a.toNZ, satSucc a.toNZ)
  | .range a b => (a.toNZ, satSucc b.toNZ)

/-- The singles collected in the hash set (imap-types/src/sequence.rs:47), as a duplicate-free list. -/
def singlesOf : List Sequence → List Nat
  | [] => []
  | .single a :: s => if a.toNZ ∈ singlesOf s then singlesOf s else a.toNZ :: singlesOf s
  | .range _ _ :: s => singlesOf s

/-- The inner loop body for one single and one range (imap-types/src/sequence.rs:61-69): the updated range and
whether the single is removed. -/
def absorb (single : Nat) (r : Nat × Nat) : (Nat × Nat) × Bool :=
  if single = max r.1 2 - 1 then ((single, r.2), true)
  else if single = r.2 then ((r.1, single), true)
  else if r.1 ≤ single ∧ single < r.2 then (r, true)
  else (r, false)

/-- The outer loop (imap-types/src/sequence.rs:59-71) over the singles in the order `order`. State: the ranges and
the remaining singles. -/
def absorbAll (order : List Nat) (st : List (Nat × Nat) × List Nat) : List (Nat × Nat) × List Nat :=
  order.foldl (fun st single =>
    (st.1.map fun r => (absorb single r).1,
     if st.1.any fun r => (absorb single r).2 then st.2.filter (· ≠ single) else st.2)) st

/-- The merge loop of `merge_ranges` (imap-types/src/sequence.rs:790-797); `last` is the last pushed range. -/
def mergeLoop (last : Nat × Nat) : List (Nat × Nat) → List (Nat × Nat)
  | [] => [last]
  | r :: rs =>
    if r.1 ≤ last.2 then mergeLoop (last.1, max last.2 r.2) rs
    else last :: mergeLoop r rs

/-- `merge_ranges` after sorting (imap-types/src/sequence.rs:780-800). -/
def mergeSorted : List (Nat × Nat) → List (Nat × Nat)
  | [] => []
  | r :: rs => mergeLoop r rs

/-- The sequence pushed for one merged range (imap-types/src/sequence.rs:78-90). -/
def ofHalfOpen (r : Nat × Nat) : Sequence :=
  if r.1 = r.2 ∨ satSucc r.1 = r.2 then .single (.ofNZ r.1)
  else if r.2 = u32Max then .range (.ofNZ r.1) .asterisk
  else .range (.ofNZ r.1) (.ofNZ (max r.2 2 - 1))

/-- The sort key of the final sort (imap-types/src/sequence.rs:100-103). -/
def Sequence.key : Sequence → Nat
  | .single a => a.toNZ
  | .range a _ => a.toNZ

/-- `SequenceSet::normalize` (imap-types/src/sequence.rs:39-106). `order` is the iteration order of the hash set
of singles, `sort` is `sort_unstable_by_key(|r| r.start)`. -/
def SequenceSet.normalizeWith (order : List Nat) (sort : List (Nat × Nat) → List (Nat × Nat)) (s : SequenceSet) :
    SequenceSet :=
  let n := s.map Sequence.normalize
  let st := absorbAll order (n.map Sequence.toHalfOpen, singlesOf n)
  let merged := mergeSorted (sort st.1)
  let singles := st.2.filter fun single => !merged.any fun r => r.1 ≤ single ∧ single < r.2
  sortByKey Sequence.key (merged.map ofHalfOpen ++ singles.map fun n => .single (.ofNZ n))

/-- `SequenceSet::normalize` with one particular iteration order and sorting algorithm. -/
def SequenceSet.normalize (s : SequenceSet) : SequenceSet :=
  s.normalizeWith (singlesOf (s.map Sequence.normalize)) (sortByKey Prod.fst)

/-! ### Iteration -/

/-- `SeqOrUid::expand` (imap-types/src/sequence.rs:675-680). -/
def SeqOrUid.expand (largest : Nat) : SeqOrUid → Nat
  | .value n => n
  | .asterisk => largest

/-- `simplify` (imap-types/src/sequence.rs:736-755). -/
def simplify (s : SequenceSet) (largest : Nat) (sort : Bool) : List (Nat × Nat) :=
  s.map fun
    | .single a => (a.expand largest, a.expand largest)
    | .range a b =>
      let a := a.expand largest
      let b := b.expand largest
      if sort then if a ≤ b then (a, b) else (b, a) else (a, b)

/-- Insertion for the lexicographic order of pairs. -/
def insertPair (x : Nat × Nat) : List (Nat × Nat) → List (Nat × Nat)
  | [] => [x]
  | y :: ys => if x.1 < y.1 ∨ (x.1 = y.1 ∧ x.2 ≤ y.2) then x :: y :: ys else y :: insertPair x ys

/-- `tmp.sort()` on pairs (imap-types/src/sequence.rs:759-761). -/
def sortPairs : List (Nat × Nat) → List (Nat × Nat)
  | [] => []
  | x :: xs => insertPair x (sortPairs xs)

/-- The loop of `cleanup` (imap-types/src/sequence.rs:767-775); `last` is the top of the stack. -/
def cleanupLoop (last : Nat × Nat) : List (Nat × Nat) → List (Nat × Nat)
  | [] => [last]
  | (x, y) :: rest =>
    if last.1 ≤ x ∧ x ≤ satSucc last.2 then cleanupLoop (last.1, max last.2 y) rest
    else last :: cleanupLoop (x, y) rest

/-- `cleanup` (imap-types/src/sequence.rs:757-778). The `unwrap` of line 765 fails on the empty list, which a
`SequenceSet` never is. -/
def cleanup (remaining : List (Nat × Nat)) : List (Nat × Nat) :=
  match sortPairs remaining with
  | [] => []
  | r :: rs => cleanupLoop r rs

/-- `Sorting` (imap-types/src/sequence.rs:716-719): the remaining inclusive range, `none` when exhausted. -/
inductive Sorting where
  | ascending (r : Option (Nat × Nat))
  | descending (r : Option (Nat × Nat))

/-- `Sorting::next` (imap-types/src/sequence.rs:724-729), with `RangeInclusive`'s `next`/`next_back`. -/
def Sorting.next : Sorting → Option (Nat × Sorting)
  | .ascending none => none
  | .ascending (some (a, b)) => if a < b then some (a, .ascending (some (a + 1, b))) else if a = b then some (a, .ascending none) else none
  | .descending none => none
  | .descending (some (a, b)) => if a < b then some (b, .descending (some (a, b - 1))) else if a = b then some (b, .descending none) else none

/-- `SequenceSetIter` (imap-types/src/sequence.rs:685-688). -/
structure SeqIter where
  ranges : List (Nat × Nat)
  active : Option Sorting

/-- `SequenceSetIter::next` (imap-types/src/sequence.rs:693-713). The outer `loop` is unrolled: an
exhausted active range is dropped and the next range is taken from the queue. `NonZeroU32::new(next).unwrap()` would fail
for 0. -/
def SeqIter.next (it : SeqIter) : Option (Nat × SeqIter) :=
  match it.active.bind Sorting.next with
  | some (n, s) => some (n, { it with active := some s })
  | none => go it.ranges
where
  /-- The part of the loop without an active range. -/
  go : List (Nat × Nat) → Option (Nat × SeqIter)
    | [] => none
    | (a, b) :: rest =>
      let s := if a ≤ b then Sorting.ascending (some (a, b)) else Sorting.descending (some (b, a))
      match s.next with
      | some (n, s) => some (n, ⟨rest, some s⟩)
      | none => go rest

/-- Collect the first `fuel` elements of an iterator. -/
def SeqIter.take : Nat → SeqIter → List Nat
  | 0, _ => []
  | fuel + 1, it =>
    match it.next with
    | none => []
    | some (n, it) => n :: it.take fuel

/-- `SequenceSet::iter` (imap-types/src/sequence.rs:632-640). -/
def SequenceSet.iter (s : SequenceSet) (largest : Nat) : SeqIter :=
  ⟨cleanup (simplify s largest true), none⟩

/-- `SequenceSet::iter_naive` (imap-types/src/sequence.rs:664-671). -/
def SequenceSet.iterNaive (s : SequenceSet) (largest : Nat) : SeqIter :=
  ⟨simplify s largest false, none⟩

/-! ### Conversions -/

/-- Primitive integer types of `impl_try_from_num!` (imap-types/src/sequence.rs:363-421): the range of values. -/
structure IntTy where
  min : Int
  max : Int

/-- `saturating_sub(1)` of an integer type. -/
def IntTy.satPred (t : IntTy) (x : Int) : Int := if t.min < x then x - 1 else t.min

/-- `TryFrom<$num> for SeqOrUid` (imap-types/src/sequence.rs:395-408). -/
def SeqOrUid.ofInt (x : Int) : Option SeqOrUid :=
  if 1 ≤ x ∧ x ≤ u32Max then some (.value x.toNat) else none

/-- `TryFrom<RangeFrom<$num>> for Sequence` (imap-types/src/sequence.rs:498-507). -/
def Sequence.ofRangeFrom (start : Int) : Option Sequence := do
  return .range (← SeqOrUid.ofInt start) .asterisk

/-- `TryFrom<RangeTo<$num>> for Sequence` (imap-types/src/sequence.rs:509-518). -/
def Sequence.ofRangeTo (t : IntTy) (stop : Int) : Option Sequence := do
  return .range (.ofNZ 1) (← SeqOrUid.ofInt (t.satPred stop))

/-- `TryFrom<RangeToInclusive<$num>> for Sequence` (imap-types/src/sequence.rs:520-529). -/
def Sequence.ofRangeToInclusive (stop : Int) : Option Sequence := do
  return .range (.ofNZ 1) (← SeqOrUid.ofInt stop)

/-- `TryFrom<Range<$num>> for Sequence` (imap-types/src/sequence.rs:531-540). -/
def Sequence.ofRange (t : IntTy) (start stop : Int) : Option Sequence := do
  return .range (← SeqOrUid.ofInt start) (← SeqOrUid.ofInt (t.satPred stop))

/-- `TryFrom<RangeInclusive<$num>> for Sequence` (imap-types/src/sequence.rs:542-551). -/
def Sequence.ofRangeInclusive (start stop : Int) : Option Sequence := do
  return .range (← SeqOrUid.ofInt start) (← SeqOrUid.ofInt stop)

/-- `From<RangeFrom<NonZeroU32>> for Sequence` (imap-types/src/sequence.rs:572-576). -/
def Sequence.ofNZRangeFrom (start : Nat) : Sequence := .range (.ofNZ start) .asterisk

/-- `TryFrom<Range<NonZeroU32>> for Sequence` (imap-types/src/sequence.rs:592-601). The start of the range is not used. -/
def Sequence.ofNZRange (_start stop : Nat) : Option Sequence := do
  return .range (.ofNZ 1) (← SeqOrUid.ofInt (stop - 1 : Nat))

/-- `TryFrom<RangeTo<NonZeroU32>> for Sequence` (imap-types/src/sequence.rs:578-584). -/
def Sequence.ofNZRangeTo (stop : Nat) : Option Sequence := Sequence.ofNZRange 1 stop

/-- `From<RangeInclusive<NonZeroU32>> for Sequence` (imap-types/src/sequence.rs:603-607). -/
def Sequence.ofNZRangeInclusive (start stop : Nat) : Sequence := .range (.ofNZ start) (.ofNZ stop)

/-- `From<RangeToInclusive<NonZeroU32>> for Sequence` (imap-types/src/sequence.rs:586-590). -/
def Sequence.ofNZRangeToInclusive (stop : Nat) : Sequence := Sequence.ofNZRangeInclusive 1 stop

/-- `From<RangeFull> for Sequence` (imap-types/src/sequence.rs:566-570). -/
def Sequence.ofRangeFull : Sequence := Sequence.ofNZRangeFrom 1

end Imap
