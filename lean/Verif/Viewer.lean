import Verif.Server
/-
The client of imap-codec/examples/client.rs: the loop that the project recommends for reading a greeting and responses with the
Fragmentizer.

SIMPLIFICATIONS: What the example prints is modelled by an entry of a log, not by its text. The limit 10 * 1024 is a parameter. The
chunks that `read_more` (imap-codec/examples/common/common.rs:15-34) returns are an input of the model: how they are read from the
terminal, the prompts, and the end of the process on "exit" are not modelled.
-/
namespace Imap

open Frag

/-- `State` (imap-codec/examples/client.rs:10-13). -/
inductive ViewerPhase where
  | greeting
  | response
  deriving DecidableEq, Repr

/-- What is printed for a complete message: a greeting (imap-codec/examples/client.rs:58), a response
(imap-codec/examples/client.rs:72), or that it can not be decoded (imap-codec/examples/client.rs:64, 75). -/
inductive ViewerEntry where
  | greeting (g : Greeting)
  | response (r : Response)
  | badGreeting
  | badResponse

/-- The variables of `main` (imap-codec/examples/client.rs:30-31) and what has been printed. -/
structure Viewer where
  frag : Frag.State
  phase : ViewerPhase
  log : List ViewerEntry

/-- The start (imap-codec/examples/client.rs:30-31). -/
def Viewer.init (max : Nat) : Viewer := ⟨.init (some max), .greeting, []⟩

/-- The reaction to a fragment, in the state after `progress` (imap-codec/examples/client.rs:46-79). -/
def Viewer.react [Quirks] (v : Viewer) : Viewer :=
  if !v.frag.complete then v
  else
    match v.phase with
    | .greeting =>
      match v.frag.decodeMessage Codec.greeting.decoder with
      | .ok g => { v with phase := .response, log := v.log ++ [.greeting g] }
      | _ => { v with log := v.log ++ [.badGreeting] }
    | .response =>
      match v.frag.decodeMessage Codec.response.decoder with
      | .ok r => { v with log := v.log ++ [.response r] }
      | _ => { v with log := v.log ++ [.badResponse] }

/-- One iteration of the loop (imap-codec/examples/client.rs:33-80), where `chunks` are the chunks that `read_more` is going to
return. The loop waits when it calls `read_more` and there is no chunk: then it stays in the state after `progress`. -/
def Viewer.iterate [Quirks] : Viewer × List Bytes → Viewer × List Bytes
  | (v, chunks) =>
    match v.frag.progress with
    | (f, some _) => (({ v with frag := f } : Viewer).react, chunks)
    | (f, none) =>
      match chunks with
      | [] => ({ v with frag := f }, [])
      | c :: rest => ({ v with frag := f.enqueue c }, rest)

/-- The loop after `n` iterations. -/
def Viewer.after [Quirks] : Nat → Viewer × List Bytes → Viewer × List Bytes
  | 0, x => x
  | n + 1, x => Viewer.iterate (Viewer.after n x)

end Imap
