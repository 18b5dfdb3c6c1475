import Verif.Fragmentizer
/-
Specification of how an IMAP byte stream is cut into lines, literals and messages, independent of the
Fragmentizer's state machine, and the histories over which the Fragmentizer properties quantify.
-/
namespace Imap.Frag

/-- A line: exactly one LF, and it is the last byte. -/
def IsLine (l : Bytes) : Prop := ∃ body, l = body ++ b!"\n" ∧ (10 : UInt8) ∉ body

/-- The `+` of a non-synchronizing literal announcement. -/
def modeBytes : Mode → Bytes
  | .sync => []
  | .nonSync => b!"+"

/-- The bytes of a line ending. -/
def endingBytes : Ending → Bytes
  | .lf => b!"\n"
  | .crlf => b!"\r\n"

/-- The line ends with a literal announcement `{` digits [`+`] `}` followed by LF or CRLF, whose value
fits 32 bits. -/
def Announces (l : Bytes) (a : Ann) : Prop :=
  ∃ pre digits ending,
    l = pre ++ b!"{" ++ digits ++ modeBytes a.mode ++ b!"}" ++ endingBytes ending ∧
    digits ≠ [] ∧ (∀ d ∈ digits, isDigit d) ∧ decVal digits = a.length ∧ a.length < 2^32

/-- The ending of a line: CRLF if the LF is preceded by CR. -/
def EndsWith (l : Bytes) : Ending → Prop
  | .crlf => ∃ pre, l = pre ++ b!"\r\n"
  | .lf => ¬ ∃ pre, l = pre ++ b!"\r\n"

/-- `Message start bytes infos`: `bytes` is one complete message whose fragments, numbered from `start`, are
`infos`: lines that announce a literal are followed by a literal of exactly the announced length, and the
message ends with the first line that announces nothing. -/
inductive Message : Nat → Bytes → List Info → Prop where
  | last {start l ending} : IsLine l → (∀ a, ¬ Announces l a) → EndsWith l ending →
      Message start l [.line start (start + l.length) none ending]
  | more {start l a ending lit rest infos} : IsLine l → Announces l a → EndsWith l ending →
      lit.length = a.length → Message (start + l.length + lit.length) rest infos →
      Message start (l ++ lit ++ rest)
        (.line start (start + l.length) (some a) ending ::
         .literal (start + l.length) (start + l.length + lit.length) :: infos)

/-- `Unfinished start bytes infos`: `bytes` is a proper, not yet complete part of a message, of which the
fragments `infos` are complete. -/
inductive Unfinished : Nat → Bytes → List Info → Prop where
  /-- the current line has no LF yet -/
  | inLine {start l} : (10 : UInt8) ∉ l → Unfinished start l []
  /-- the current literal was not reported yet -/
  | inLiteral {start l a ending lit} : IsLine l → Announces l a → EndsWith l ending →
      lit.length ≤ a.length →
      Unfinished start (l ++ lit) [.line start (start + l.length) (some a) ending]
  /-- some line and literal are complete already -/
  | more {start l a ending lit rest infos} : IsLine l → Announces l a → EndsWith l ending →
      lit.length = a.length → Unfinished (start + l.length + lit.length) rest infos →
      Unfinished start (l ++ lit ++ rest)
        (.line start (start + l.length) (some a) ending ::
         .literal (start + l.length) (start + l.length + lit.length) :: infos)

/-- The calls a user can make. -/
inductive Op where
  | enqueue (bs : Bytes)
  | progress
  | poison
  | skip

/-- What a user can observe when `progress` returns a fragment. -/
structure Event where
  info : Info
  /-- `fragment_bytes(info)` -/
  fragment : Bytes
  /-- `is_message_complete()` -/
  complete : Bool
  /-- `message_bytes()` -/
  message : Bytes
  /-- `is_max_message_size_exceeded()` -/
  exceeded : Bool
  /-- `is_message_poisoned()` -/
  poisoned : Bool
  deriving DecidableEq, Repr

/-- The observations in state `s` after `progress` returned `info`. -/
def State.observe (s : State) (info : Info) : Event :=
  { info, fragment := s.fragmentBytes info, complete := s.complete, message := s.buffer,
    exceeded := s.exceeded, poisoned := s.poisoned }

/-- Execute one call. -/
def State.exec (s : State) : Op → State × List Event
  | .enqueue bs => (s.enqueue bs, [])
  | .progress =>
    match s.progress with
    | (s', some info) => (s', [s'.observe info])
    | (s', none) => (s', [])
  | .poison => (s.poison, [])
  | .skip => (s.skip, [])

/-- Execute a history of calls; returns the final state and all observations. -/
def State.run (s : State) : List Op → State × List Event
  | [] => (s, [])
  | op :: ops =>
    let r := s.exec op
    let r' := r.1.run ops
    (r'.1, r.2 ++ r'.2)

/-- All bytes enqueued in a history. -/
def enqueued : List Op → Bytes
  | [] => []
  | .enqueue bs :: ops => bs ++ enqueued ops
  | _ :: ops => enqueued ops

/-- A history of only `enqueue_bytes` and `progress` calls. -/
def Plain (ops : List Op) : Prop := ∀ op ∈ ops, (∃ bs, op = .enqueue bs) ∨ op = .progress

/-- A history without `skip_message`. -/
def NoSkip (ops : List Op) : Prop := Op.skip ∉ ops

/-- The history with all `poison_message` calls removed. -/
def dropPoison (ops : List Op) : List Op := ops.filter fun | .poison => false | _ => true

/-- `progress` has nothing more to report. -/
def Drained (s : State) : Prop := s.progress.2 = none

end Imap.Frag
