import Verif.Bytes
/-
The encoding context (imap-codec/src/codec/encode.rs:127-230) and the helpers that write lists
(imap-codec/src/codec/encode.rs:2056-2130).

An encoder of the code is a sequence of calls on `EncodeContext` (`write_all`/`write!`, `push_line`, `push_literal`);
the model represents that sequence as a `List W`.
-/
namespace Imap

/-- One call on `EncodeContext`: `write_all` (or `write!`), `push_line`, `push_literal`
(imap-codec/src/codec/encode.rs:179-190, 221-230). -/
inductive W where
  | wr (bs : Bytes)
  | line
  | lit (mode : Mode)
  deriving DecidableEq, Repr

/-- `Fragment` (imap-codec/src/codec/encode.rs:158-164). -/
inductive Fragment where
  | line (data : Bytes)
  | literal (data : Bytes) (mode : Mode)
  deriving DecidableEq, Repr

/-- The data of a fragment. -/
def Fragment.data : Fragment → Bytes
  | .line d => d
  | .literal d _ => d

/-- `EncodeContext` (imap-codec/src/codec/encode.rs:169-172). -/
structure Ctx where
  accumulator : Bytes
  items : List Fragment

/-- `write`, `push_line`, `push_literal` (imap-codec/src/codec/encode.rs:179-190, 222-225). -/
def Ctx.step (c : Ctx) : W → Ctx
  | .wr bs => { c with accumulator := c.accumulator ++ bs }
  | .line => { accumulator := [], items := c.items ++ [.line c.accumulator] }
  | .lit m => { accumulator := [], items := c.items ++ [.literal c.accumulator m] }

/-- `into_items` (imap-codec/src/codec/encode.rs:192-203). -/
def Ctx.intoItems (c : Ctx) : List Fragment :=
  if c.accumulator.isEmpty then c.items else c.items ++ [.line c.accumulator]

/-- `Encoder::encode` (imap-codec/src/codec/encode.rs:237-244), given the calls made by `encode_ctx`. -/
def fragments (ws : List W) : List Fragment := (ws.foldl Ctx.step ⟨[], []⟩).intoItems

/-- `Encoded::dump` (imap-codec/src/codec/encode.rs:134-145). -/
def dump (fs : List Fragment) : Bytes := fs.flatMap Fragment.data

/-- The bytes written, irrespective of the fragments. -/
def bytes : List W → Bytes
  | [] => []
  | .wr bs :: ws => bs ++ bytes ws
  | .line :: ws => bytes ws
  | .lit _ :: ws => bytes ws

/-- `join_serializable` (imap-codec/src/codec/encode.rs:2065-2080): the elements with `sep` between each two. -/
def join (sep : Bytes) : List (List W) → List W
  | [] => []
  | x :: xs => x ++ xs.flatMap fun y => .wr sep :: y

/-- `List1OrNil` (imap-codec/src/codec/encode.rs:2082-2102). -/
def list1OrNil (sep : Bytes) : List (List W) → List W
  | [] => [.wr b!"NIL"]
  | xs => [.wr b!"("] ++ join sep xs ++ [.wr b!")"]

/-- `List1AttributeValueOrNil` (imap-codec/src/codec/encode.rs:2104-2129). -/
def list1AttrOrNil (xs : List (List W × List W)) : List W :=
  list1OrNil b!" " (xs.map fun x => x.1 ++ [.wr b!" "] ++ x.2)

/-- Decimal digits of a number, without leading zeros (`to_string`, `write!("{n}")`). -/
def showNat (n : Nat) : Bytes :=
  if n < 10 then [UInt8.ofNat (48 + n)] else showNat (n / 10) ++ [UInt8.ofNat (48 + n % 10)]
termination_by n
decreasing_by omega

/-! ### Lemmas -/

@[simp] theorem bytes_nil : bytes [] = [] := rfl
@[simp] theorem bytes_wr (bs : Bytes) (ws : List W) : bytes (.wr bs :: ws) = bs ++ bytes ws := rfl
@[simp] theorem bytes_line (ws : List W) : bytes (.line :: ws) = bytes ws := rfl
@[simp] theorem bytes_lit (m : Mode) (ws : List W) : bytes (.lit m :: ws) = bytes ws := rfl

@[simp] theorem bytes_append (xs ys : List W) : bytes (xs ++ ys) = bytes xs ++ bytes ys := by
  induction xs with
  | nil => rfl
  | cons x xs ih => cases x <;> simp [ih]

theorem bytes_flatMap {α : Type} (f : α → List W) (l : List α) :
    bytes (l.flatMap f) = l.flatMap fun x => bytes (f x) := by
  induction l with
  | nil => rfl
  | cons x l ih => simp [ih]

theorem dump_append (a b : List Fragment) : dump (a ++ b) = dump a ++ dump b := by
  simp [dump]

/-- The fragments contain exactly the bytes that were written. -/
theorem dump_fragments (ws : List W) : dump (fragments ws) = bytes ws := by
  have key : ∀ (ws : List W) (c : Ctx), dump ((ws.foldl Ctx.step c).intoItems) = dump c.items ++ c.accumulator ++ bytes ws := by
    intro ws
    induction ws with
    | nil =>
      intro c
      simp only [List.foldl_nil, bytes_nil, List.append_nil, Ctx.intoItems]
      obtain ⟨acc, items⟩ := c
      cases acc with
      | nil => simp
      | cons b bs => simp [dump_append]; simp [dump, Fragment.data]
    | cons w ws ih =>
      intro c
      rw [List.foldl_cons, ih]
      cases w <;> simp [Ctx.step, dump_append] <;> simp [dump, Fragment.data]
  exact (key ws ⟨[], []⟩).trans (by simp [dump])

theorem isDigit_ofNat (d : Nat) (h : d < 10) : isDigit (UInt8.ofNat (48 + d)) = true := by
  have : ∀ d : Fin 10, isDigit (UInt8.ofNat (48 + d.1)) = true := by decide
  exact this ⟨d, h⟩

theorem digitVal_ofNat (d : Nat) (h : d < 10) : digitVal (UInt8.ofNat (48 + d)) = d := by
  have : ∀ d : Fin 10, digitVal (UInt8.ofNat (48 + d.1)) = d := by decide
  exact this ⟨d, h⟩

theorem showNat_ne_nil (n : Nat) : showNat n ≠ [] := by
  unfold showNat
  split <;> simp

theorem showNat_digits (n : Nat) : (showNat n).all isDigit = true := by
  induction n using Nat.strongRecOn with
  | ind n ih =>
    unfold showNat
    split
    · next h => simp only [List.all_cons, isDigit_ofNat n h, List.all_nil, Bool.and_true]
    · next h =>
      simp only [List.all_append, List.all_cons, List.all_nil, Bool.and_true, Bool.and_eq_true]
      exact ⟨ih (n / 10) (by omega), isDigit_ofNat _ (by omega)⟩

theorem decVal_append_one (ds : Bytes) (d : UInt8) : decVal (ds ++ [d]) = decVal ds * 10 + digitVal d := by
  simp [decVal]

theorem decVal_showNat (n : Nat) : decVal (showNat n) = n := by
  induction n using Nat.strongRecOn with
  | ind n ih =>
    unfold showNat
    split
    · next h => simp only [decVal, List.foldl_cons, List.foldl_nil, digitVal_ofNat n h]; omega
    · next h =>
      rw [decVal_append_one, ih (n / 10) (by omega), digitVal_ofNat _ (by omega)]
      omega

end Imap
