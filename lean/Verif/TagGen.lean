import Verif.Types
import Verif.Enc
/-
`TagGenerator`: imap-types/src/core.rs:1164-1208.

A process is modelled by the value of the global counter and the generators that were created so far. The atomic addition in `new` is one
step, whatever the memory ordering, and `generate` needs exclusive access to its generator. Therefore all concurrent executions are
interleavings of these steps, i.e. lists of calls.
-/
namespace Imap

/-- `TagGenerator` (imap-types/src/core.rs:1167-1170). -/
structure TagGenerator where
  global : Nat
  counter : Nat
  deriving DecidableEq, Repr

/-- `GLOBAL_TAG_GENERATOR_COUNT` (imap-types/src/core.rs:61-62) and the generators, numbered by their creation. -/
structure Process where
  count : Nat
  generators : List TagGenerator
  deriving DecidableEq, Repr

/-- The start of the process. -/
def Process.init : Process := ⟨0, []⟩

/-- A call of `new`, or of `generate` of the `i`-th generator, where `token` are the random characters, in a build with optimizations,
or nothing, in a build with debug assertions. -/
inductive TagCall where
  | new
  | generate (i : Nat) (token : Option Bytes)
  deriving DecidableEq, Repr

/-- `TagGenerator::generate` (imap-types/src/core.rs:1193-1207): the tag, and the generator afterwards. -/
def TagGenerator.generate (g : TagGenerator) (token : Option Bytes) : Bytes × TagGenerator :=
  let inner := match token with
    | some token => showNat g.global ++ b!"." ++ showNat g.counter ++ b!"." ++ token
    | none => showNat g.global ++ b!"." ++ showNat g.counter
  (inner, { g with counter := (g.counter + 1) % 2 ^ 64 })

/-- The effect of a call, and the tag that it returns. `usize` has `M` values. A call for a generator that does not exist does
nothing. -/
def Process.call (M : Nat) (s : Process) : TagCall → Option Bytes × Process
  | .new => (none, ⟨(s.count + 1) % M, s.generators ++ [⟨s.count, 0⟩]⟩)
  | .generate i token =>
    match s.generators[i]? with
    | some g => (some (g.generate token).1, { s with generators := s.generators.set i (g.generate token).2 })
    | none => (none, s)

/-- The tags that are returned by a sequence of calls. -/
def Process.run (M : Nat) (s : Process) : List TagCall → List Bytes
  | [] => []
  | c :: cs => (s.call M c).1.toList ++ (s.call M c).2.run M cs

end Imap
