import Verif.FragSpec
/-
What the work of a Fragmentizer is, for property C64: how often the bytes that were enqueued are looked at.
-/
namespace Imap.Frag

/-- The number of iterations of the loop of `LineParser::parse` (fragmentizer.rs:338-459): it looks at one byte after the other
and stops after the byte that completes the line. -/
def LineParser.looks (lt : Latest) : Bytes → Nat
  | [] => 0
  | b :: bs =>
    match lineStep lt b with
    | (_, some _) => 1
    | (lt', none) => 1 + LineParser.looks lt' bs

/-- The number of bytes a `progress` looks at (fragmentizer.rs:120-162). `LiteralParser::parse` (fragmentizer.rs:505-524)
uses only the number of bytes, not the bytes. -/
def State.looks (s : State) : Nat :=
  match s.parser with
  | some (.line p) => LineParser.looks p.latest s.unparsed
  | some (.literal _) => 0
  | none => LineParser.looks .other s.unparsed

/-- The number of bytes looked at during a history. -/
def State.work (s : State) : List Op → Nat
  | [] => 0
  | .progress :: ops => s.looks + (s.exec .progress).1.work ops
  | op :: ops => (s.exec op).1.work ops

end Imap.Frag
