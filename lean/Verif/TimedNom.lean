import Verif.Codec
/-
Parsers that count what they do, for property C65. `T` is like `P` (Verif/Nom.lean) with a counter. What is counted is the work of the
parsers of nom: one for each call of a basic parser (`tag`, `char`, `take_while1`, ...) and one for each byte that it looks at, and one for
each round of a loop. The conversions of what was parsed (`map`, `map_res`) are not counted. The definitions follow those in Verif/Nom.lean,
and Verif/TimedErase.lean proves that they give the same results.
-/
namespace Imap.Timed

/-- Parsers with a counter. -/
structure T (α : Type) where
  run : Bytes → Res α × Nat

variable {α β : Type}

/-- The result. -/
def T.res (t : T α) (x : Bytes) : Res α := (t.run x).1

/-- The counter. -/
def T.cost (t : T α) (x : Bytes) : Nat := (t.run x).2

/-- A basic parser: `p` with the number of bytes that it looks at. -/
def prim (p : P α) (looks : Bytes → Nat) : T α := ⟨fun x => (p x, looks x + 1)⟩

/-- Sequencing: the second parser runs on what the first left, if it succeeded. -/
def T.andThen (t : T α) (f : α → T β) : T β := ⟨fun x =>
  match t.run x with
  | (.ok r v, n) => let w := (f v).run r; (w.1, n + w.2)
  | (.incomplete, n) => (.incomplete, n)
  | (.error, n) => (.error, n)
  | (.failure k, n) => (.failure k, n)⟩

instance : Monad T where
  pure a := ⟨fun x => (.ok x a, 0)⟩
  bind := T.andThen
  map f t := t.andThen fun v => ⟨fun x => (.ok x (f v), 0)⟩

/-- `Err(Failure(k))`. -/
def failWith (k : Fail) : T α := prim (fun _ => .failure k) fun _ => 0

/-- The parser that always fails recoverably: what is left of an `alt` without alternatives. -/
def fail : T α := ⟨fun _ => (.error, 0)⟩

/-- A parser that is compiled only with a feature. -/
def gate (b : Bool) (t : T α) : T α := if b then t else fail

/-- The number of bytes that a comparison with `pat` looks at: up to the first difference. -/
def looksTag (same : UInt8 → UInt8 → Bool) : Bytes → Bytes → Nat
  | [], _ => 0
  | _ :: _, [] => 0
  | t :: ts, b :: bs => if same t b then looksTag same ts bs + 1 else 1

/-- `tag` (streaming). -/
def tag (pat : Bytes) : T Unit := prim (Imap.tag pat) (looksTag (fun t b => t == b) pat)

/-- `tag_no_case` (streaming). -/
def tagNC (pat : Bytes) : T Unit := prim (Imap.tagNC pat) (looksTag (fun t b => lower t == lower b) pat)

/-- `char` (streaming). -/
def char (c : UInt8) : T Unit := prim (Imap.char c) fun _ => 1

/-- The number of bytes up to and with the first one that is not accepted. -/
def looksWhile (f : UInt8 → Bool) : Bytes → Nat
  | [] => 0
  | b :: bs => if f b then looksWhile f bs + 1 else 1

/-- `take_while` (streaming). -/
def takeWhile (f : UInt8 → Bool) : T Bytes := prim (Imap.takeWhile f) (looksWhile f)

/-- `take_while1` (streaming), `digit1`. -/
def takeWhile1 (f : UInt8 → Bool) : T Bytes := prim (Imap.takeWhile1 f) (looksWhile f)

/-- `take_while_m_n(1, 1, f)` and `one_of` (streaming). -/
def satisfy (f : UInt8 → Bool) : T UInt8 := prim (Imap.satisfy f) fun _ => 1

/-- `take_while_m_n(n, n, f)` (streaming). -/
def takeExactly (f : UInt8 → Bool) (n : Nat) : T Bytes := prim (Imap.takeExactly f n) fun _ => n

/-- `take_while_m_n(1, 2, f)` (streaming). -/
def take1or2 (f : UInt8 → Bool) : T Bytes := prim (Imap.take1or2 f) fun _ => 2

/-- The data of a literal (imap-codec/src/core.rs:169-182): `take` compares only lengths. -/
def literalData (n : Nat) (m : Mode) : T Bytes := prim (Imap.literalData n m) fun _ => 1

/-- `opt`. -/
def opt (t : T α) : T (Option α) := ⟨fun x =>
  match t.run x with
  | (.ok r v, n) => (.ok r (some v), n)
  | (.error, n) => (.ok x none, n)
  | (.incomplete, n) => (.incomplete, n)
  | (.failure k, n) => (.failure k, n)⟩

/-- `alt`, for two alternatives: the second starts again where the first did, and what the first did is counted. -/
def orElse (t u : T α) : T α := ⟨fun x =>
  match t.run x with
  | (.error, n) => let w := u.run x; (w.1, n + w.2)
  | (.ok r v, n) => (.ok r v, n)
  | (.incomplete, n) => (.incomplete, n)
  | (.failure k, n) => (.failure k, n)⟩

/-- `alt`. -/
def alt : List (T α) → T α
  | [] => fail
  | t :: ts => orElse t (alt ts)

/-- `map_res`, `verify`. -/
def mapRes (t : T α) (f : α → Option β) : T β := ⟨fun x =>
  match t.run x with
  | (.ok r v, n) =>
    match f v with
    | some w => (.ok r w, n)
    | none => (.error, n)
  | (.incomplete, n) => (.incomplete, n)
  | (.error, n) => (.error, n)
  | (.failure k, n) => (.failure k, n)⟩

/-- `peek`. -/
def peek (t : T α) : T α := ⟨fun x =>
  match t.run x with
  | (.ok _ v, n) => (.ok x v, n)
  | (.incomplete, n) => (.incomplete, n)
  | (.error, n) => (.error, n)
  | (.failure k, n) => (.failure k, n)⟩

/-- `recognize`. -/
def recognize (t : T α) : T Bytes := ⟨fun x =>
  match t.run x with
  | (.ok r _, n) => (.ok r (x.take (x.length - r.length)), n)
  | (.incomplete, n) => (.incomplete, n)
  | (.error, n) => (.error, n)
  | (.failure k, n) => (.failure k, n)⟩

/-- The loop of `many0`. -/
def many0Run (t : T α) (x : Bytes) : Res (List α) × Nat :=
  match t.run x with
  | (.ok r v, n) =>
    if r.length < x.length then
      match many0Run t r with
      | (.ok r' vs, m) => (.ok r' (v :: vs), n + m + 1)
      | (.incomplete, m) => (.incomplete, n + m + 1)
      | (.error, m) => (.error, n + m + 1)
      | (.failure k, m) => (.failure k, n + m + 1)
    else (.error, n + 1)
  | (.error, n) => (.ok x [], n + 1)
  | (.incomplete, n) => (.incomplete, n + 1)
  | (.failure k, n) => (.failure k, n + 1)
termination_by x.length

/-- `many0`. -/
def many0 (t : T α) : T (List α) := ⟨many0Run t⟩

/-- `many1`. -/
def many1 (t : T α) : T (List α) := do
  let v ← t
  let vs ← many0 t
  return v :: vs

/-- `many_m_n(2, usize::MAX, t)`. -/
def many2 (t : T α) : T (List α) := mapRes (many0 t) fun vs => if 2 ≤ vs.length then some vs else none

/-- `separated_list1`. -/
def sepList1 (sep : T Unit) (t : T α) : T (List α) := do
  let v ← t
  let vs ← many0 (do sep; t)
  return v :: vs

/-- `separated_list0`. -/
def sepList0 (sep : T Unit) (t : T α) : T (List α) := do
  match ← opt t with
  | none => return []
  | some v => do
    let vs ← many0 (do sep; t)
    return v :: vs

/-- `value(v, t)`. -/
def value (v : β) (t : T α) : T β := do
  let _ ← t
  return v

/-- The number of bytes that `escaped` looks at: up to and with the first one that is neither accepted nor escaped. -/
def looksEscaped (normal : UInt8 → Bool) : Bytes → Nat
  | [] => 0
  | [_] => 1
  | b :: c :: cs =>
    if normal b then looksEscaped normal (c :: cs) + 1
    else if b == 92 then
      if isQuotedSpecials c then looksEscaped normal cs + 2 else 2
    else 1

/-- `escaped` (streaming). -/
def escaped (normal : UInt8 → Bool) : T Bytes := prim (Imap.escaped normal) (looksEscaped normal)

/-- `take_until` (streaming): it looks at most at the bytes up to and with the pattern, once for each byte of the pattern. -/
def takeUntil (pat : Bytes) : T Bytes := prim (Imap.takeUntil pat) fun x =>
  match Imap.takeUntil pat x with
  | .ok r _ => (x.length - r.length + 1) * pat.length
  | _ => x.length * pat.length

/-- `abnf_core::streaming::sp`. -/
def sp : T Unit := char 32

/-- `abnf_core::streaming::dquote`. -/
def dquote : T Unit := char 34

/-- `abnf_core::streaming::crlf`, or `crlf_relaxed` with quirk_crlf_relaxed. -/
def crlf [q : Quirks] : T Unit :=
  if q.crlfRelaxed then do
    let _ ← opt (char 13)
    char 10
  else tag [13, 10]

end Imap.Timed
