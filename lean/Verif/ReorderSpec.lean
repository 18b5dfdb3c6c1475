import Verif.Serde
import Verif.Codec
/-!
Specification for C63: values that differ in the order of fields only.
-/
namespace Imap.Serde

open Imap

/-- `w` is `v`, but in one object somewhere in it, two adjacent fields are swapped. -/
inductive Step : Value → Value → Prop
  | swap (a x y b) : Step (.object (a ++ x :: y :: b)) (.object (a ++ y :: x :: b))
  | item {v w} (a b) (h : Step v w) : Step (.array (a ++ v :: b)) (.array (a ++ w :: b))
  | field {v w} (a n b) (h : Step v w) : Step (.object (a ++ (n, v) :: b)) (.object (a ++ (n, w) :: b))

/-- `w` is `v`, but the fields of the objects in it are in any other order. -/
inductive Reorder : Value → Value → Prop
  | refl (v) : Reorder v v
  | step {u v w} (h : Reorder u v) (s : Step v w) : Reorder u w

end Imap.Serde

namespace Imap

/-- The names of the fields of the outermost object of a message: of the structs `Greeting` (imap-types/src/response.rs:51-57) and `Command`
(imap-types/src/command.rs:40-48), and of the adjacently tagged enums `AuthenticateData` (imap-types/src/auth.rs:208-211) and `Response`
(imap-types/src/response.rs:117-136). `IdleDone` is not an object. -/
def Codec.fields : Codec → List Bytes
  | .greeting => [b!"kind", b!"code", b!"text"]
  | .command => [b!"tag", b!"body"]
  | .authenticateData | .response => [b!"type", b!"content"]
  | .idleDone => []

end Imap
