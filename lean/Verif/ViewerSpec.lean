import Verif.Viewer
/-
What a viewer of a stream of messages should print (C53), independent of its loop and of the Fragmentizer.
-/
namespace Imap

open Frag

/-- The message of a kind whose encoding is exactly `m`, if `m` is not too long and there is one. -/
def whole [Quirks] (k : Codec) (max : Nat) (m : Bytes) : Option k.Message :=
  if m.length ≤ max then
    match k.decode m with
    | .ok [] x => some x
    | _ => none
  else none

/-- What should be printed for the bytes of a message after the greeting. -/
def shownResponse [Quirks] (max : Nat) (m : Bytes) : ViewerEntry :=
  match whole .response max m with
  | some r => .response r
  | none => .badResponse

/-- What should be printed for the bytes of a sequence of messages: the first one that is a greeting is the greeting, and all messages
after it are responses. -/
def shown [Quirks] (max : Nat) : List Bytes → List ViewerEntry
  | [] => []
  | m :: ms =>
    match whole .greeting max m with
    | some g => .greeting g :: ms.map (shownResponse max)
    | none => .badGreeting :: shown max ms

/-- The bytes of a message: lines that announce a literal are followed by the literal, and the last line announces nothing. -/
def IsMessage (m : Bytes) : Prop := ∃ infos, Message 0 m infos

/-- The bytes of a part of a message that is not complete. -/
def IsUnfinished (m : Bytes) : Prop := ∃ infos, Unfinished 0 m infos

end Imap
