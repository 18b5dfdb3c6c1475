import Verif.WellFormed
import Verif.FragSpec
/-
Specification: what the Fragmentizer must report when it reads encoded messages (C16).
-/
namespace Imap

/-- The free text at the end of a message. Commands have none. -/
def Codec.trailingText : (k : Codec) → k.Message → Option Bytes
  | .greeting, g => some (Greeting.text g)
  | .response, .status (.untagged _ _ t) => some t
  | .response, .status (.tagged _ _ _ t) => some t
  | .response, .status (.bye _ t) => some t
  | .response, .continue_ (.basic _ t) => some t
  | _, _ => none

namespace Frag

/-- The announcement in a line before the fragments `rest`. -/
def announced : List Fragment → Option Ann
  | .literal d m :: _ => some ⟨m, d.length⟩
  | _ => none

/-- The report expected for a fragment that starts at `start` and is followed by `rest`. -/
def infoOf (start : Nat) (f : Fragment) (rest : List Fragment) : Info :=
  match f with
  | .line d => .line start (start + d.length) (announced rest) .crlf
  | .literal d _ => .literal start (start + d.length)

/-- The observations expected for the fragments of one message, of which the bytes `pre` were seen already: each fragment is reported
with its bytes, its kind, the length and mode of the literal after it, and CRLF as its ending, and the message is complete after
the last one only. -/
def eventsOf (pre : Bytes) : List Fragment → List Event
  | [] => []
  | f :: rest =>
    { info := infoOf pre.length f rest, fragment := f.data, complete := rest.isEmpty, message := pre ++ f.data,
      exceeded := false, poisoned := false } :: eventsOf (pre ++ f.data) rest

end Frag

open Frag

/-- A message of some kind. -/
abbrev AnyMessage := (k : Codec) × k.Message

/-- The fragments of a message of some kind. -/
def AnyMessage.encode [Quirks] (x : AnyMessage) : List Fragment := x.1.encode x.2

/-- The bytes sent for a sequence of messages. -/
def stream [Quirks] (ms : List AnyMessage) : Bytes := ms.flatMap fun x => dump x.encode

/-- A message without line breaks in its lines, whose literals are shorter than 4 GiB, and whose free text, if it has one, does not
end with something that looks like the announcement of a literal. -/
structure Transmissible [Quirks] (x : AnyMessage) : Prop where
  unbroken : Unbroken x.1 x.2
  fits : ∀ d mode, .literal d mode ∈ x.encode → d.length < 2 ^ 32
  text : ∀ t ∈ x.1.trailingText x.2, ∀ a, ¬ Announces (t ++ b!"\r\n") a

/-- A codec as the argument of `decode_message`. -/
def Codec.decoder [Quirks] (k : Codec) (bs : Bytes) : Except (Outcome k.Message) (Bytes × k.Message) :=
  match k.decode bs with
  | .ok rem m => .ok (rem, m)
  | o => .error o

end Imap
