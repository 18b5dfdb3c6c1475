import Verif.FragSpec
/-
Specification for C41: when the quoted strings of a line are closed at its end. The rules of IMAP (RFC 3501, section 4.3) demand it:
a quoted string contains no CR and no LF.

Specification for C42, C43 and C45: the messages of a reader that, unlike the Fragmentizer, does not see the line breaks in quoted strings.
-/
namespace Imap.Spec

/-- The position in a line with respect to quoted strings: outside, inside, or inside and just after a backslash. -/
inductive Quote where
  | out
  | within
  | escape
  deriving DecidableEq, Repr

/-- The position after one more byte. -/
def Quote.step : Quote → UInt8 → Quote
  | .out, b => if b = 34 then .within else .out
  | .within, b => if b = 34 then .out else if b = 92 then .escape else .within
  | .escape, _ => .within

/-- All quoted strings of the line are closed at its end. -/
def QuotesClosed (line : Bytes) : Prop := line.foldl Quote.step .out = .out

instance (line : Bytes) : Decidable (QuotesClosed line) := inferInstanceAs (Decidable (_ = _))

/-- In all the lines that are listed, quoted strings are closed at the end. The byte positions of the lines refer to `bytes`. -/
def LinesClosed (bytes : Bytes) (infos : List Frag.Info) : Prop :=
  ∀ start stop ann ending, Frag.Info.line start stop ann ending ∈ infos → QuotesClosed ((bytes.take stop).drop start)

/-- A line of a reader that knows quoted strings: it ends with the first LF that is not in a quoted string. -/
def IsQuotedLine (l : Bytes) : Prop :=
  ∃ body, l = body ++ b!"\n" ∧ QuotesClosed body ∧ ∀ u v, body = u ++ b!"\n" ++ v → ¬ QuotesClosed u

/-- One complete message of such a reader: lines that announce a literal are followed by a literal of exactly the announced length, and
the message ends with the first line that announces nothing. -/
inductive QuotedMessage : Bytes → Prop where
  | last {l} : IsQuotedLine l → (∀ a, ¬ Frag.Announces l a) → QuotedMessage l
  | more {l a lit rest} : IsQuotedLine l → Frag.Announces l a → lit.length = a.length → QuotedMessage rest →
      QuotedMessage (l ++ lit ++ rest)

/-- The beginning of a message of such a reader, which is not complete. The second argument is the announcement at the end of these
bytes: the literal that is to follow. -/
inductive QuotedUnfinished : Bytes → Option Frag.Ann → Prop where
  /-- the current line is not complete -/
  | inLine {l} : (∀ u v, l = u ++ b!"\n" ++ v → ¬ QuotesClosed u) → QuotedUnfinished l none
  /-- a literal was announced, and it has not begun -/
  | announced {l a} : IsQuotedLine l → Frag.Announces l a → QuotedUnfinished l (some a)
  /-- the current literal has begun, and nothing follows it -/
  | inLiteral {l a lit} : IsQuotedLine l → Frag.Announces l a → lit ≠ [] → lit.length ≤ a.length → QuotedUnfinished (l ++ lit) none
  /-- some line and literal are complete already -/
  | more {l a lit rest o} : IsQuotedLine l → Frag.Announces l a → lit.length = a.length → rest ≠ [] → QuotedUnfinished rest o →
      QuotedUnfinished (l ++ lit ++ rest) o

/-- For C45. The input is the beginning of a command continuation request whose CRLF has not arrived. -/
def OpenContinuation (x : Bytes) : Prop := ∃ t, x = b!"+ " ++ t ∧ ¬ b!"\r\n" <:+: t

end Imap.Spec
