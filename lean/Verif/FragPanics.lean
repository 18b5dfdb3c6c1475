import Verif.FragSpec
/-
The functions of the Fragmentizer that can panic, with the panic: the slice in `fragment_bytes`, and `drain` and the subtraction in
`dequeue_parsed_bytes`. `Fragmentizer.lean` models the same functions without panics. Overflows of `usize` counters are not modelled.
-/
namespace Imap.Frag

/-- `FragmentInfo::Line { start, end, .. } => (start, end)` and so on (imap-codec/src/fragmentizer.rs:173-176). -/
def Info.bounds : Info → Nat × Nat
  | .line start stop _ _ => (start, stop)
  | .literal start stop => (start, stop)

/-- `fragment_bytes` (imap-codec/src/fragmentizer.rs:172-180); `none` is the panic of `&self.message_buffer[start..end]` when
`start > end` or `end > len`. -/
def State.fragmentBytes? (s : State) (info : Info) : Option Bytes :=
  let start := min info.bounds.1 s.buffer.length
  let stop := min info.bounds.2 s.buffer.length
  if start ≤ stop ∧ stop ≤ s.buffer.length then some ((s.buffer.take stop).drop start) else none

/-- `dequeue_parsed_bytes` (imap-codec/src/fragmentizer.rs:284-303); `none` is the panic of `drain(..count)` when there are not so many
bytes, or of `size as usize - self.message_buffer.len()` when it overflows (with debug assertions; without them it is wrong as well). -/
def State.dequeue? (s : State) (count : Nat) : Option State :=
  if s.unparsed.length < count then none
  else
    match s.maxSize with
    | some size => if size < s.buffer.length then none else some (s.dequeue count)
    | none => some (s.dequeue count)

/-- `LiteralParser::parse` (imap-codec/src/fragmentizer.rs:505-524); `none` is an overflow of `self.remaining -= parsed_byte_count`. -/
def LiteralParser.parse? (p : LiteralParser) (bs : Bytes) : Option (LiteralParser × Nat × Option Info) :=
  if bs.length < p.remaining then
    if p.remaining < bs.length then none else some (⟨p.start, p.stop + bs.length, p.remaining - bs.length⟩, bs.length, none)
  else
    some (⟨p.start, p.stop + p.remaining, 0⟩, p.remaining, some (.literal p.start (p.stop + p.remaining)))

/-- The dispatch at imap-codec/src/fragmentizer.rs:137-140. -/
def Parser.parse? (p : Parser) (bs : Bytes) : Option (Parser × Nat × Option Info) :=
  match p with
  | .line p => let r := p.parse bs; some (.line r.1, r.2)
  | .literal p => (p.parse? bs).map fun r => (.literal r.1, r.2)

/-- The part of `progress` after a parser was selected (imap-codec/src/fragmentizer.rs:136-161). -/
def State.progressWith? (s : State) (p : Parser) : Option (State × Option Info) :=
  (p.parse? s.unparsed).bind fun r =>
    (State.dequeue? { s with parser := some r.1 } r.2.1).map fun s' =>
      match r.2.2 with
      | some info => ({ s' with parser := nextParser info }, some info)
      | none => (s', none)

/-- `Fragmentizer::progress` (imap-codec/src/fragmentizer.rs:120-162). -/
def State.progress? (s : State) : Option (State × Option Info) :=
  match s.parser with
  | some p => s.progressWith? p
  | none => s.startMessage.progressWith? (.line (.new 0))

end Imap.Frag
