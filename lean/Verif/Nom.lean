import Verif.Chars
/-
The parser combinators used by imap-codec: nom 7 (`nom::bytes::streaming`, `nom::character::streaming`,
`nom::combinator`, `nom::multi`, `nom::sequence`, `nom::branch::alt`) and `abnf_core::streaming`. These crates are
dependencies (not in /repo); their semantics as modelled here are part of the trusted base (DESIGN.md).

Simplifications:
* Sequencing (`tuple`, `preceded`, `delimited`, `terminated`, `?`) is monadic `bind`.
* The `Needed` argument of `Incomplete` and the kind of recoverable errors are dropped; the kind of `Failure`s is kept.
-/
namespace Imap

/-- The build configuration: the quirks of imap-codec (imap-codec/Cargo.toml:25-67) and the features that add a part of
IMAP (imap-codec/Cargo.toml:74-82, imap-types/Cargo.toml:20-28). They are compile-time features: each may be on or off. -/
class Quirks where
  crlfRelaxed : Bool
  idEmptyToNil : Bool
  missingText : Bool
  rectifyNumbers : Bool
  excessiveSpaceQuotaResource : Bool
  spacesBetweenAddresses : Bool
  trailingSpaceStatus : Bool
  trailingSpaceCapability : Bool
  trailingSpaceId : Bool
  trailingSpaceSearch : Bool
  emptyContinueReq : Bool
  bodyFldEncNilToEmpty : Bool
  alwaysNormalizeSequenceSets : Bool
  starttls : Bool
  extCondstoreQresync : Bool
  extId : Bool
  extLoginReferrals : Bool
  extMailboxReferrals : Bool
  extMetadata : Bool
  extNamespace : Bool
  extUtf8 : Bool

/-- The quirks that are on by default (imap-codec/Cargo.toml:18-41), with every part of IMAP. -/
def Quirks.default : Quirks :=
  { crlfRelaxed := false, idEmptyToNil := false, missingText := true, rectifyNumbers := true,
    excessiveSpaceQuotaResource := true, spacesBetweenAddresses := true, trailingSpaceStatus := true,
    trailingSpaceCapability := true, trailingSpaceId := true, trailingSpaceSearch := true, emptyContinueReq := true,
    bodyFldEncNilToEmpty := true, alwaysNormalizeSequenceSets := true, starttls := true, extCondstoreQresync := true,
    extId := true, extLoginReferrals := true, extMailboxReferrals := true, extMetadata := true, extNamespace := true, extUtf8 := true }

/-- The default features (imap-codec/Cargo.toml:18-41): the parts of IMAP that have a feature are left out. -/
def Quirks.bare : Quirks :=
  { Quirks.default with
    starttls := false, extCondstoreQresync := false, extId := false, extLoginReferrals := false, extMailboxReferrals := false,
    extMetadata := false, extNamespace := false, extUtf8 := false }

/-- The builds with every part of IMAP, whatever the quirks. -/
class Complete [q : Quirks] : Prop where
  starttls : q.starttls = true
  extCondstoreQresync : q.extCondstoreQresync = true
  extId : q.extId = true
  extLoginReferrals : q.extLoginReferrals = true
  extMailboxReferrals : q.extMailboxReferrals = true
  extMetadata : q.extMetadata = true
  extNamespace : q.extNamespace = true
  extUtf8 : q.extUtf8 = true

/-- The kinds of unrecoverable failures: `IMAPErrorKind` (imap-codec/src/codec/decode.rs:48-61). The kinds that
only occur in recoverable errors are dropped. -/
inductive Fail where
  | literal (tag : Option Bytes) (length : Nat) (mode : Mode)
  | literalContainsNull
  | recursionLimit
  | badDateTime
  | verify
  deriving DecidableEq, Repr

/-- `IMAPResult` (imap-codec/src/codec/decode.rs:36): `Ok((rem, v))`, `Err(Incomplete)`, `Err(Error)`, `Err(Failure)`. -/
inductive Res (α : Type) where
  | ok (rem : Bytes) (v : α)
  | incomplete
  | error
  | failure (k : Fail)
  deriving Repr, DecidableEq

/-- Parsers. -/
abbrev P (α : Type) : Type := Bytes → Res α

namespace Res

/-- Sequencing of results. -/
def andThen {α β : Type} (r : Res α) (f : α → P β) : Res β :=
  match r with
  | .ok rem v => f v rem
  | .incomplete => .incomplete
  | .error => .error
  | .failure k => .failure k

end Res

instance : Monad P where
  pure a := fun i => .ok i a
  bind p f := fun i => (p i).andThen f
  map f p := fun i => (p i).andThen fun v i => .ok i (f v)

variable {α β : Type}

/-- The parser that always fails recoverably. -/
def P.fail : P α := fun _ => .error

/-- A parser that is compiled only with a feature, `#[cfg(feature = "...")]`: `if b then p else P.fail` (theorem `gate_eq`). Where the
feature is off it always fails recoverably: as an alternative of `alt` that is the same as not being there (theorem `alt_gate_off`). It is
written such that it computes if `p` fails, whatever `b` is. -/
def gate (b : Bool) (p : P α) : P α := fun i =>
  match p i with
  | .error => .error
  | r => if b then r else .error

/-- `tag` (streaming). -/
def tag : Bytes → P Unit
  | [], i => .ok i ()
  | _ :: _, [] => .incomplete
  | t :: ts, b :: bs => if t = b then tag ts bs else .error

/-- ASCII lower case of a byte. -/
def lower (b : UInt8) : UInt8 := if 65 ≤ b && b ≤ 90 then b + 32 else b

/-- ASCII upper case of a byte. -/
def upper (b : UInt8) : UInt8 := if 97 ≤ b && b ≤ 122 then b - 32 else b

/-- `tag_no_case` (streaming). -/
def tagNC : Bytes → P Unit
  | [], i => .ok i ()
  | _ :: _, [] => .incomplete
  | t :: ts, b :: bs => if lower t = lower b then tagNC ts bs else .error

/-- `char` (streaming). -/
def char (c : UInt8) : P Unit
  | [] => .incomplete
  | b :: bs => if b = c then .ok bs () else .error

/-- `take_while` (streaming). -/
def takeWhile (f : UInt8 → Bool) : P Bytes
  | [] => .incomplete
  | b :: bs =>
    if f b then (takeWhile f bs).andThen fun v i => .ok i (b :: v) else .ok (b :: bs) []

/-- `take_while1` (streaming), `digit1`. -/
def takeWhile1 (f : UInt8 → Bool) : P Bytes
  | [] => .incomplete
  | b :: bs => if f b then takeWhile f (b :: bs) else .error

/-- `take_while_m_n(1, 1, f)` and `one_of` (streaming): one byte. -/
def satisfy (f : UInt8 → Bool) : P UInt8
  | [] => .incomplete
  | b :: bs => if f b then .ok bs b else .error

/-- `take_while_m_n(n, n, f)` (streaming): exactly `n` bytes. -/
def takeExactly (f : UInt8 → Bool) : Nat → P Bytes
  | 0, i => .ok i []
  | _ + 1, [] => .incomplete
  | n + 1, b :: bs => if f b then (takeExactly f n bs).andThen fun v i => .ok i (b :: v) else .error

/-- `take_while_m_n(1, 2, f)` (streaming): two matching bytes, or one that is followed by a byte that does not
match. -/
def take1or2 (f : UInt8 → Bool) : P Bytes
  | [] => .incomplete
  | [b] => if f b then .incomplete else .error
  | b :: c :: r => if f b then (if f c then .ok r [b, c] else .ok (c :: r) [b]) else .error

/-- `take` (streaming). -/
def take (n : Nat) : P Bytes := fun i => if i.length < n then .incomplete else .ok (i.drop n) (i.take n)

/-- `opt`. -/
def opt (p : P α) : P (Option α) := fun i =>
  match p i with
  | .ok r v => .ok r (some v)
  | .error => .ok i none
  | .incomplete => .incomplete
  | .failure k => .failure k

/-- `alt`, for two alternatives. -/
def orElse (p q : P α) : P α := fun i =>
  match p i with
  | .error => q i
  | r => r

/-- `alt`. -/
def alt : List (P α) → P α
  | [] => P.fail
  | p :: ps => orElse p (alt ps)

/-- `map_res` with a function that may fail; also `verify`. -/
def mapRes (p : P α) (f : α → Option β) : P β := fun i =>
  match p i with
  | .ok r v =>
    match f v with
    | some w => .ok r w
    | none => .error
  | .incomplete => .incomplete
  | .error => .error
  | .failure k => .failure k

/-- `peek`. -/
def peek (p : P α) : P α := fun i => (p i).andThen fun v _ => .ok i v

/-- `recognize`: the consumed bytes. -/
def recognize (p : P α) : P Bytes := fun i => (p i).andThen fun _ r => .ok r (i.take (i.length - r.length))

/-- `many0`. A success without progress is an error. -/
def many0 (p : P α) (i : Bytes) : Res (List α) :=
  match p i with
  | .ok r v =>
    if r.length < i.length then (many0 p r).andThen fun vs i => .ok i (v :: vs) else .error
  | .error => .ok i []
  | .incomplete => .incomplete
  | .failure k => .failure k
termination_by i.length

/-- `many1`. -/
def many1 (p : P α) : P (List α) := do
  let v ← p
  let vs ← (many0 p : P (List α))
  return v :: vs

/-- `many_m_n(2, usize::MAX, p)`: like `many0`, but the first two must succeed. Progress is checked each time. -/
def many2 (p : P α) : P (List α) := fun i =>
  match many0 p i with
  | .ok r vs => if 2 ≤ vs.length then .ok r vs else .error
  | r => r

/-- `separated_list1`. The separators used in imap-codec always consume input (so that the check for progress of the separator
and the one of `many0` agree). -/
def sepList1 (sep : P Unit) (p : P α) : P (List α) := do
  let v ← p
  let vs ← (many0 (do sep; p) : P (List α))
  return v :: vs

/-- `separated_list0`. -/
def sepList0 (sep : P Unit) (p : P α) : P (List α) := fun i =>
  match p i with
  | .ok r v => (many0 (do sep; p) r).andThen fun vs i => .ok i (v :: vs)
  | .error => .ok i []
  | .incomplete => .incomplete
  | .failure k => .failure k

/-- `value(v, p)`. -/
def value (v : β) (p : P α) : P β := do
  let _ ← p
  return v

/-- `escaped(take_while1(normal), '\\', one_of("\\\""))` (streaming): the (still escaped) bytes up to the first byte that is neither
normal nor a backslash. -/
def escaped (normal : UInt8 → Bool) : P Bytes
  | [] => .incomplete
  | [b] => if normal b || b == 92 then .incomplete else .ok [b] []
  | b :: c :: cs =>
    if normal b then (escaped normal (c :: cs)).andThen fun v i => .ok i (b :: v)
    else if b == 92 then
      if isQuotedSpecials c then (escaped normal cs).andThen fun v i => .ok i (b :: c :: v)
      else .error
    else .ok (b :: c :: cs) []

/-- `abnf_core::streaming::sp`. -/
def sp : P Unit := char 32

/-- `abnf_core::streaming::dquote`. -/
def dquote : P Unit := char 34

/-- `abnf_core::streaming::crlf`, or `crlf_relaxed` with quirk_crlf_relaxed. -/
def crlf [q : Quirks] : P Unit :=
  if q.crlfRelaxed then do
    let _ ← opt (char 13)
    char 10
  else tag [13, 10]

end Imap
