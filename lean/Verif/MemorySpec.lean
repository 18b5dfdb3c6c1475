import Verif.Serde
/-!
Specification for C62: how large a value of the data model of serde is.
-/
namespace Imap.Serde

open Imap

mutual

/-- The size of a value: the number of values in it, and the bytes of all strings and of all names of fields. -/
def Value.size : Value → Nat
  | .str s => s.length + 1
  | .array l => sizeItems l + 1
  | .object l => sizeEntries l + 1
  | _ => 1

/-- The size of the elements of an array. -/
def sizeItems : List Value → Nat
  | [] => 0
  | v :: l => v.size + sizeItems l

/-- The size of the fields of an object. -/
def sizeEntries : List (Bytes × Value) → Nat
  | [] => 0
  | (n, v) :: l => n.length + v.size + sizeEntries l

end

end Imap.Serde
