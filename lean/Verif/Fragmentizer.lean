import Verif.Chars
/-
Model of imap-codec/src/fragmentizer.rs (all non-test code, lines 1-616).

Simplifications:
* `VecDeque<u8>`/`Vec<u8>` are lists; `usize` indices are `Nat` (no overflow of `usize`).
* `u32` values are `Nat`; the overflow checks of the code are explicit.
* `decode_message` takes the decoder as a function argument.
-/
namespace Imap.Frag

/-- `LiteralAnnouncement` (fragmentizer.rs:565-570). -/
structure Ann where
  mode : Mode
  length : Nat
  deriving DecidableEq, Repr

/-- `LineEnding` (fragmentizer.rs:574-579). -/
inductive Ending where
  | lf
  | crlf
  deriving DecidableEq, Repr

/-- `FragmentInfo` (fragmentizer.rs:532-551). -/
inductive Info where
  | line (start stop : Nat) (ann : Option Ann) (ending : Ending)
  | literal (start stop : Nat)
  deriving DecidableEq, Repr

/-- `LatestByte` (fragmentizer.rs:468-483). -/
inductive Latest where
  | other
  | opening
  | digit (length : Nat)
  | plus (length : Nat)
  | closing (ann : Ann)
  | cr (ann : Option Ann)
  deriving DecidableEq, Repr

/-- `length.checked_mul(10).and_then(|x| x.checked_add(digit))` on `u32` (fragmentizer.rs:408). -/
def checkedPush (length digit : Nat) : Option Nat :=
  if length * 10 < 2^32 then
    if length * 10 + digit < 2^32 then some (length * 10 + digit) else none
  else none

/-- One iteration of the loop body of `LineParser::parse` (fragmentizer.rs:338-453): the new
`latest_byte` and, if the byte completes a line, its announcement and ending. -/
def lineStep (latest : Latest) (b : UInt8) : Latest × Option (Option Ann × Ending) :=
  match latest with
  | .other =>
    if b = 13 then (.cr none, none)
    else if b = 10 then (.other, some (none, .lf))
    else if b = 123 then (.opening, none)
    else (.other, none)
  | .opening =>
    if b = 13 then (.cr none, none)
    else if b = 10 then (.other, some (none, .lf))
    else if b = 123 then (.opening, none)
    else if isDigit b then (.digit (digitVal b), none)
    else (.other, none)
  | .plus length =>
    if b = 13 then (.cr none, none)
    else if b = 10 then (.other, some (none, .lf))
    else if b = 123 then (.opening, none)
    else if b = 125 then (.closing ⟨.nonSync, length⟩, none)
    else (.other, none)
  | .digit length =>
    if b = 13 then (.cr none, none)
    else if b = 10 then (.other, some (none, .lf))
    else if b = 123 then (.opening, none)
    else if isDigit b then
      match checkedPush length (digitVal b) with
      | none => (.other, none)
      | some length => (.digit length, none)
    else if b = 43 then (.plus length, none)
    else if b = 125 then (.closing ⟨.sync, length⟩, none)
    else (.other, none)
  | .closing ann =>
    if b = 13 then (.cr (some ann), none)
    else if b = 10 then (.other, some (some ann, .lf))
    else if b = 123 then (.opening, none)
    else (.other, none)
  | .cr ann =>
    if b = 13 then (.cr none, none)
    else if b = 10 then (.other, some (ann, .crlf))
    else if b = 123 then (.opening, none)
    else (.other, none)

/-- `LineParser` (fragmentizer.rs:315-322). -/
structure LineParser where
  start : Nat
  stop : Nat
  latest : Latest
  deriving DecidableEq, Repr

/-- `LineParser::new` (fragmentizer.rs:325-331). -/
def LineParser.new (start : Nat) : LineParser := ⟨start, start, .other⟩

/-- `LineParser::parse` (fragmentizer.rs:333-463): returns the updated parser, the number of parsed
bytes and the completed line, if any. -/
def LineParser.parse (p : LineParser) : Bytes → LineParser × Nat × Option Info
  | [] => (p, 0, none)
  | b :: bs =>
    let p' : LineParser := ⟨p.start, p.stop + 1, (lineStep p.latest b).1⟩
    match (lineStep p.latest b).2 with
    | some (ann, ending) => (p', 1, some (.line p.start (p.stop + 1) ann ending))
    | none =>
      let r := LineParser.parse p' bs
      (r.1, r.2.1 + 1, r.2.2)

/-- `LiteralParser` (fragmentizer.rs:487-494). -/
structure LiteralParser where
  start : Nat
  stop : Nat
  remaining : Nat
  deriving DecidableEq, Repr

/-- `LiteralParser::new` (fragmentizer.rs:497-503). -/
def LiteralParser.new (start length : Nat) : LiteralParser := ⟨start, start, length⟩

/-- `LiteralParser::parse` (fragmentizer.rs:505-524). -/
def LiteralParser.parse (p : LiteralParser) (bs : Bytes) : LiteralParser × Nat × Option Info :=
  if bs.length < p.remaining then
    (⟨p.start, p.stop + bs.length, p.remaining - bs.length⟩, bs.length, none)
  else
    (⟨p.start, p.stop + p.remaining, 0⟩, p.remaining, some (.literal p.start (p.stop + p.remaining)))

/-- `Parser` (fragmentizer.rs:308-311). -/
inductive Parser where
  | line (p : LineParser)
  | literal (p : LiteralParser)
  deriving DecidableEq, Repr

/-- The dispatch at fragmentizer.rs:137-140. -/
def Parser.parse (p : Parser) (bs : Bytes) : Parser × Nat × Option Info :=
  match p with
  | .line p => let r := p.parse bs; (.line r.1, r.2)
  | .literal p => let r := p.parse bs; (.literal r.1, r.2)

/-- `Fragmentizer` (fragmentizer.rs:64-80). -/
structure State where
  unparsed : Bytes
  maxSize : Option Nat
  exceeded : Bool
  poisoned : Bool
  buffer : Bytes
  parser : Option Parser
  deriving DecidableEq, Repr

/-- `Fragmentizer::new` and `without_max_message_size` (fragmentizer.rs:86-112). -/
def State.init (maxSize : Option Nat) : State :=
  { unparsed := [], maxSize, exceeded := false, poisoned := false, buffer := [],
    parser := some (.line (.new 0)) }

/-- `dequeue_parsed_bytes` (fragmentizer.rs:284-303). The subtraction at line 289-290 is `Nat` subtraction here;
`size_limit` proves that it never underflows. -/
def State.dequeue (s : State) (count : Nat) : State :=
  match s.maxSize with
  | some size =>
    if size - s.buffer.length < count then
      { s with
        unparsed := s.unparsed.drop count
        buffer := s.buffer ++ (s.unparsed.take count).take (size - s.buffer.length)
        exceeded := true }
    else
      { s with
        unparsed := s.unparsed.drop count
        buffer := s.buffer ++ s.unparsed.take count }
  | none =>
    { s with
      unparsed := s.unparsed.drop count
      buffer := s.buffer ++ s.unparsed.take count }

/-- The reset of the per-message state (fragmentizer.rs:128-132, and `skip_message` 220-225). -/
def State.startMessage (s : State) : State :=
  { s with exceeded := false, poisoned := false, buffer := [], parser := some (.line (.new 0)) }

/-- The parser that follows a fragment (fragmentizer.rs:144-158). -/
def nextParser : Info → Option Parser
  | .line _ _ none _ => none
  | .line _ stop (some ann) _ => some (.literal (.new stop ann.length))
  | .literal _ stop => some (.line (.new stop))

/-- The part of `progress` after a parser was selected (fragmentizer.rs:136-161). -/
def State.progressWith (s : State) (p : Parser) : State × Option Info :=
  let r := p.parse s.unparsed
  let s' := { s with parser := some r.1 }.dequeue r.2.1
  match r.2.2 with
  | some info => ({ s' with parser := nextParser info }, some info)
  | none => (s', none)

/-- `Fragmentizer::progress` (fragmentizer.rs:120-162). -/
def State.progress (s : State) : State × Option Info :=
  match s.parser with
  | some p => s.progressWith p
  | none => s.startMessage.progressWith (.line (.new 0))

/-- `enqueue_bytes` (fragmentizer.rs:167-169). -/
def State.enqueue (s : State) (bs : Bytes) : State := { s with unparsed := s.unparsed ++ bs }

/-- `fragment_bytes` (fragmentizer.rs:172-180). SIMPLIFIED: for `start > end`, where the code panics, this is empty. `State.fragmentBytes?` in
`FragPanics.lean` has the panic, and `C70_fragment_bytes` proves that they agree on every fragment that `progress` returns. -/
def State.fragmentBytes (s : State) (info : Info) : Bytes :=
  let (start, stop) := match info with
    | .line start stop _ _ => (start, stop)
    | .literal start stop => (start, stop)
  let start := min start s.buffer.length
  let stop := min stop s.buffer.length
  (s.buffer.take stop).drop start

/-- `is_message_complete` (fragmentizer.rs:187-189). -/
def State.complete (s : State) : Bool := s.parser.isNone

/-- `skip_message` (fragmentizer.rs:220-225). -/
def State.skip (s : State) : State := s.startMessage

/-- `poison_message` (fragmentizer.rs:234-236). -/
def State.poison (s : State) : State := { s with poisoned := true }

/-- `Tag::validate` (imap-types/src/core.rs:1070-1088). -/
def isTag (bs : Bytes) : Bool := !bs.isEmpty && bs.all fun b => isAStringChar b && b != 43

/-- The loop of `parse_tag` (fragmentizer.rs:600-611): the bytes before the first SP, unless LF or the
end comes first. -/
def beforeSpace : Bytes → Option Bytes
  | [] => none
  | b :: bs => if b = 32 then some [] else if b = 10 then none else (beforeSpace bs).map (b :: ·)

/-- `parse_tag` (fragmentizer.rs:599-614). -/
def parseTag (bs : Bytes) : Option Bytes :=
  match beforeSpace bs with
  | none => none
  | some t => if isTag t then some t else none

/-- `decode_tag` (fragmentizer.rs:244-246). -/
def State.decodeTag (s : State) : Option Bytes := parseTag s.buffer

/-- Result of `decode_message`: `Result<Message, DecodeMessageError>` (fragmentizer.rs:583-597). -/
inductive Decoded (ε μ : Type) where
  | ok (message : μ)
  | decodingFailure (err : ε)
  | decodingRemainder (message : μ) (remainder : Bytes)
  | messageTooLong (initial : Bytes)
  | messagePoisoned (discarded : Bytes)

/-- `decode_message` (fragmentizer.rs:253-282), for an arbitrary decoder. -/
def State.decodeMessage {ε μ : Type} (decode : Bytes → Except ε (Bytes × μ)) (s : State) : Decoded ε μ :=
  if s.exceeded then .messageTooLong s.buffer
  else if s.poisoned then .messagePoisoned s.buffer
  else match decode s.buffer with
    | .error e => .decodingFailure e
    | .ok (rem, m) => if rem.isEmpty then .ok m else .decodingRemainder m rem

end Imap.Frag
