import Verif.Codec
/-
The derived implementations of `Serialize` and `Deserialize` (feature `serde` of imap-types) for the five kinds of messages and
all types in them.

The data format is left open: a serializer produces a `Value`, a deserializer consumes one. This is the data model of the self-describing
formats, such as JSON. What `derive` generates is modelled by a few combinators (`newtype`, `record`, `enum`, ...), after the documentation
and the source of serde_derive 1.0; the sources of serde are not part of the repository.

SIMPLIFICATIONS:
* What `chrono` makes of a date is a value of its own kind (`Value.date` and `Value.dateTime`), not the text that it writes.
* Strings are byte strings that are UTF-8.
* A unit variant is also deserialized from an empty map as its content in some formats; here, the content of a unit variant is null or missing.
* The tag of an enum is a string; some formats also have numbers for it.
* The errors of deserializers are not distinguished.
* All features of imap-types are enabled, as in the rest of the model.
-/
set_option maxRecDepth 10000

namespace Imap.Serde

open Imap

/-- The values of a self-describing format. `other` is a number that is negative or not an integer. -/
inductive Value where
  | null
  | bool (b : Bool)
  | nat (n : Nat)
  | other
  | str (s : Bytes)
  | date (d : NaiveDate)
  | dateTime (t : DateTime)
  | array (l : List Value)
  | object (l : List (Bytes × Value))

mutual

/-- How deep arrays and objects are nested. -/
def Value.depth : Value → Nat
  | .array l => depthItems l + 1
  | .object l => depthEntries l + 1
  | _ => 0

/-- The maximal depth. -/
def depthItems : List Value → Nat
  | [] => 0
  | v :: l => max v.depth (depthItems l)

/-- The maximal depth. -/
def depthEntries : List (Bytes × Value) → Nat
  | [] => 0
  | (_, v) :: l => max v.depth (depthEntries l)

end

/-- `Serialize` and `Deserialize` of a type. `missing` is the value of a field of the type that is missing; only a field of the type
`Option` can be missing. -/
structure S (α : Type) where
  ser : α → Value
  de : Value → Option α
  missing : Option α := none

/-- The deserialization of a field that may be missing. -/
def S.read {α : Type} (s : S α) : Option Value → Option α
  | none => s.missing
  | some v => s.de v

/-! ### The implementations of serde for types of the standard library -/

/-- `bool`. -/
def bool : S Bool where
  ser := .bool
  de
    | .bool b => some b
    | _ => none

/-- The unsigned integers from `lo` to `hi`: `u8`, `u32`, `u64`, `NonZeroU32` and `NonZeroU64`. -/
def uint (lo hi : Nat) : S Nat where
  ser := .nat
  de
    | .nat n => if lo ≤ n ∧ n ≤ hi then some n else none
    | _ => none

def u32 : S Nat := uint 0 4294967295
def u64 : S Nat := uint 0 18446744073709551615
def nz32 : S Nat := uint 1 4294967295
def nz64 : S Nat := uint 1 18446744073709551615

/-- `String` and `Cow<str>`. -/
def string : S Bytes where
  ser := .str
  de
    | .str s => if isUtf8 s then some s else none
    | _ => none

/-- The unit type and unit structs. -/
def unit : S Unit where
  ser _ := .null
  de
    | .null => some ()
    | _ => none

/-- `Option`: `None` is null. -/
def opt {α : Type} (s : S α) : S (Option α) where
  ser
    | none => .null
    | some a => s.ser a
  de
    | .null => some none
    | v => (s.de v).map some
  missing := some none

/-- `Vec` and `Cow<[_]>`. -/
def list {α : Type} (s : S α) : S (List α) where
  ser l := .array (l.map s.ser)
  de
    | .array l => l.mapM s.de
    | _ => none

/-- Pairs. -/
def pair {α β : Type} (s : S α) (t : S β) : S (α × β) where
  ser x := .array [s.ser x.1, t.ser x.2]
  de
    | .array [v, w] => do
      let a ← s.de v
      let b ← t.de w
      return (a, b)
    | _ => none

/-- `u8`. -/
def u8 : S UInt8 where
  ser b := .nat b.toNat
  de
    | .nat n => if n < 256 then some (UInt8.ofNat n) else none
    | _ => none

/-- `Vec<u8>` and `Cow<[u8]>`: an array of numbers. -/
def bytes : S Bytes := list u8

/-! ### What `derive` generates -/

/-- A newtype struct, or a struct `α` whose fields are the components of `β`. -/
def S.newtype {α β : Type} (s : S β) (mk : β → α) (inner : α → β) : S α where
  ser a := s.ser (inner a)
  de v := (s.de v).map mk

/-- `serde(try_from = ...)`, when the serialized form is the one of the inner type. -/
def S.tryFrom {α : Type} (s : S α) (check : α → Bool) : S α where
  ser := s.ser
  de v := (s.de v).filter check

/-- The fields of a struct. -/
structure Fields (β : Type) where
  names : List Bytes
  ser : β → List Value
  de : List (Option Value) → Option β

/-- A struct with one field. -/
def Fields.one {α : Type} (n : Bytes) (s : S α) : Fields α where
  names := [n]
  ser a := [s.ser a]
  de
    | [v] => s.read v
    | _ => none

/-- A struct with a further field. -/
def Fields.cons {α β : Type} (n : Bytes) (s : S α) (fs : Fields β) : Fields (α × β) where
  names := n :: fs.names
  ser x := s.ser x.1 :: fs.ser x.2
  de
    | v :: vs => do
      let a ← s.read v
      let b ← fs.de vs
      return (a, b)
    | [] => none

/-- The values of an object with the given name: it is an error if there are several. -/
def find (l : List (Bytes × Value)) (n : Bytes) : Option (Option Value) :=
  match l.filter (fun x => x.1 == n) with
  | [] => some none
  | [x] => some (some x.2)
  | _ => none

/-- The values of the fields with the given names: in an object in any order (unknown fields are ignored), or in an array in the order of
the fields. -/
def collect (names : List Bytes) : Value → Option (List (Option Value))
  | .object l => names.mapM (find l)
  | .array l => if l.length = names.length then some (l.map some) else none
  | _ => none

/-- A struct. -/
def record {β : Type} (fs : Fields β) : S β where
  ser b := .object (fs.names.zip (fs.ser b))
  de v := (collect fs.names v).bind fs.de

/-- A variant of an enum: its name, and the deserialization of its content. -/
structure Variant (α : Type) where
  name : Bytes
  de : Option Value → Option α

/-- A unit variant. -/
def Variant.unit {α : Type} (n : Bytes) (a : α) : Variant α where
  name := n
  de
    | none => some a
    | some .null => some a
    | _ => none

/-- A newtype, tuple or struct variant. -/
def Variant.of {α β : Type} (n : Bytes) (s : S β) (mk : β → α) : Variant α where
  name := n
  de c := (s.read c).map mk

/-- An adjacently tagged value (`serde(tag = "type", content = "content")`). -/
def tagged : Bytes × Option Value → Value
  | (n, none) => .object [(b!"type", .str n)]
  | (n, some c) => .object [(b!"type", .str n), (b!"content", c)]

/-- The deserialization of an adjacently tagged enum: the variant is found by its name. -/
def untag {α : Type} (vs : List (Variant α)) (v : Value) : Option α :=
  match collect [b!"type", b!"content"] v with
  | some [some (.str n), c] => (vs.find? (fun x => x.name == n)).bind fun x => x.de c
  | _ => none

/-- An adjacently tagged enum. -/
def enum {α : Type} (ser : α → Bytes × Option Value) (vs : List (Variant α)) : S α where
  ser a := tagged (ser a)
  de := untag vs

/-- An enum of unit variants with the default representation: the name, or an object from the name to null. -/
def names {α : Type} (ser : α → Bytes) (vs : List (Bytes × α)) : S α where
  ser a := .str (ser a)
  de
    | .str n | .object [(n, .null)] => (vs.find? (fun x => x.1 == n)).map (·.2)
    | _ => none

end Imap.Serde
