import Verif.FragEncSpec
/-
The server of imap-codec/examples/server.rs: the loop that the project recommends for reading commands with the Fragmentizer.

SIMPLIFICATIONS: What the example prints for the client is modelled by a value of `Reply`, not by its bytes, and what it prints for the
user by an entry of a log. The limits 1024 and 10 * 1024 are parameters. `read_more` returns a non-empty chunk of the bytes that the
client has sent.
-/
namespace Imap

open Frag

/-- The limits: the maximum length of a synchronizing literal (imap-codec/examples/server.rs:70) and the maximum size of a message
(imap-codec/examples/server.rs:40). -/
structure Limits where
  literal : Nat
  message : Nat
  deriving DecidableEq, Repr

/-- The limits of the example. -/
def Limits.example : Limits := ⟨1024, 10240⟩

/-- What the server sends: a continuation request (imap-codec/examples/server.rs:72, 110, 120), the rejection of the command with a tag
(imap-codec/examples/server.rs:78), or its completion (imap-codec/examples/server.rs:138). -/
inductive Reply where
  | continue_
  | bad (tag : Bytes)
  | ok (tag : Bytes)
  deriving DecidableEq, Repr

/-- `State` (imap-codec/examples/server.rs:18-22). -/
inductive Phase where
  | command
  | authenticate (tag : Bytes)
  | idle
  deriving DecidableEq, Repr

/-- What the server noticed: a message (imap-codec/examples/server.rs:105-128, 136, 150), a message that can not be decoded
(imap-codec/examples/server.rs:129-131, 143-145, 154-156), or a literal that it rejected (imap-codec/examples/server.rs:76-84). -/
inductive LogEntry where
  | message (x : AnyMessage)
  | undecodable
  | rejected (tag : Bytes)

/-- The variables of `main` (imap-codec/examples/server.rs:40-41) and the log. -/
structure Server where
  frag : Frag.State
  phase : Phase
  log : List LogEntry

/-- The start (imap-codec/examples/server.rs:40-41). -/
def Server.init (lim : Limits) : Server := ⟨.init (some lim.message), .command, []⟩

/-- `enqueue_bytes` (imap-codec/examples/server.rs:53). -/
def Server.enqueue (s : Server) (bs : Bytes) : Server := { s with frag := s.frag.enqueue bs }

/-- The reaction to a complete message (imap-codec/examples/server.rs:101-159). -/
def Server.complete [Quirks] (s : Server) : Server × List Reply :=
  match s.phase with
  | .command =>
    match s.frag.decodeMessage Codec.command.decoder with
    | .ok c =>
      match c.body with
      | .authenticate _ _ => ({ s with phase := .authenticate c.tag, log := s.log ++ [.message ⟨.command, c⟩] }, [.continue_])
      | .idle => ({ s with phase := .idle, log := s.log ++ [.message ⟨.command, c⟩] }, [.continue_])
      | _ => ({ s with log := s.log ++ [.message ⟨.command, c⟩] }, [])
    | _ => ({ s with log := s.log ++ [.undecodable] }, [])
  | .authenticate tag =>
    match s.frag.decodeMessage Codec.authenticateData.decoder with
    | .ok d => ({ s with phase := .command, log := s.log ++ [.message ⟨.authenticateData, d⟩] }, [.ok tag])
    | _ => ({ s with log := s.log ++ [.undecodable] }, [])
  | .idle =>
    match s.frag.decodeMessage Codec.idleDone.decoder with
    | .ok d => ({ s with phase := .command, log := s.log ++ [.message ⟨.idleDone, d⟩] }, [])
    | _ => ({ s with log := s.log ++ [.undecodable] }, [])

/-- The reaction to a fragment, in the state after `progress` (imap-codec/examples/server.rs:59-159). -/
def Server.react [Quirks] (lim : Limits) (s : Server) (info : Info) : Server × List Reply :=
  match info with
  | .line _ _ (some ⟨.sync, length⟩) _ =>
    if length ≤ lim.literal then (s, [.continue_])
    else
      match s.frag.decodeTag with
      | some tag => ({ s with frag := s.frag.skip, log := s.log ++ [.rejected tag] }, [.bad tag])
      | none => ({ s with frag := s.frag.poison }, [])
  | _ => if s.frag.complete then s.complete else (s, [])

end Imap
