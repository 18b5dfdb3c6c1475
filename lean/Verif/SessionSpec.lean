import Verif.Server
/-
Specification for C50: a client that follows the protocol, and the network between it and the server.

The client sends one command after the other, without waiting for their completion. It waits
- before it sends a synchronizing literal, for a continuation request, and gives up the command if it is rejected,
- after AUTHENTICATE, for a continuation request, which it answers, and then for the completion,
- after IDLE, for a continuation request, after which it sends DONE.

The network is a queue of bytes from the client to the server, and a queue of replies in the other direction. The bytes arrive in chunks of
any size. Client, network and server take their steps in any order.
-/
namespace Imap.Session

open Frag

variable [Quirks]

/-- What the client wants to do: send a command and, if this is AUTHENTICATE, give the answer when it is requested. -/
structure Turn where
  command : Command
  answer : AuthenticateData

/-- The client: between two commands, while it sends a command, or after the answer to AUTHENTICATE. -/
inductive Client where
  | ready (turns : List Turn)
  | sending (t : Turn) (fragments : List Fragment) (turns : List Turn)
  | answered (t : Turn) (turns : List Turn)

/-- What the client does without waiting: the bytes that it sends, and its next state. -/
def Client.send : Client → Option (Bytes × Client)
  | .ready (t :: ts) => some ([], .sending t (Codec.command.encode t.command) ts)
  | .sending t (.line d :: fs) ts => some (d, .sending t fs ts)
  | .sending t (.literal d .nonSync :: fs) ts => some (d, .sending t fs ts)
  | .sending t [] ts =>
    match t.command.body with
    | .authenticate _ _ => none
    | .idle => none
    | _ => some ([], .ready ts)
  | _ => none

/-- What the client does when it gets the reply that it waits for. -/
def Client.receive : Client → Reply → Option (Bytes × Client)
  | .sending t (.literal d .sync :: fs) ts, .continue_ => some (d, .sending t fs ts)
  | .sending t (.literal _ .sync :: _) ts, .bad tag => if tag = t.command.tag then some ([], .ready ts) else none
  | .sending t [] ts, .continue_ =>
    match t.command.body with
    | .authenticate _ _ => some (dump (Codec.authenticateData.encode t.answer), .answered t ts)
    | .idle => some (dump (Codec.idleDone.encode ()), .ready ts)
    | _ => none
  | .answered t ts, .ok tag => if tag = t.command.tag then some ([], .ready ts) else none
  | _, _ => none

/-- Client, network and server. -/
structure Session where
  client : Client
  /-- The bytes that were sent by the client and not read by the server. -/
  up : Bytes
  /-- The replies that were sent by the server and not received by the client. -/
  down : List Reply
  server : Server

/-- The start of a session. -/
def start (lim : Limits) (turns : List Turn) : Session := ⟨.ready turns, [], [], .init lim⟩

/-- One step of a session. The server reads when `progress` returns `None`, as in the example. -/
inductive Step (lim : Limits) : Session → Session → Prop where
  | send {c c' : Client} {bs up : Bytes} {down : List Reply} {s : Server} :
      c.send = some (bs, c') → Step lim ⟨c, up, down, s⟩ ⟨c', up ++ bs, down, s⟩
  | receive {c c' : Client} {r : Reply} {bs up : Bytes} {down : List Reply} {s : Server} :
      c.receive r = some (bs, c') → Step lim ⟨c, up, r :: down, s⟩ ⟨c', up ++ bs, down, s⟩
  | read {c : Client} {chunk up : Bytes} {down : List Reply} {s : Server} {f : Frag.State} :
      s.frag.progress = (f, none) → chunk ≠ [] →
      Step lim ⟨c, chunk ++ up, down, s⟩ ⟨c, up, down, ({ s with frag := f } : Server).enqueue chunk⟩
  | react {c : Client} {up : Bytes} {down : List Reply} {s : Server} {f : Frag.State} {info : Info} :
      s.frag.progress = (f, some info) →
      Step lim ⟨c, up, down, s⟩
        ⟨c, up, down ++ (Server.react lim { s with frag := f } info).2, (Server.react lim { s with frag := f } info).1⟩

/-- A run of a number of steps. -/
inductive Run (lim : Limits) : Nat → Session → Session → Prop where
  | refl {x : Session} : Run lim 0 x x
  | tail {n : Nat} {x y z : Session} : Run lim n x y → Step lim y z → Run lim (n + 1) x z

/-- The literal is synchronizing and longer than the server allows. -/
def tooLong (lim : Limits) : Fragment → Bool
  | .literal d .sync => lim.literal < d.length
  | _ => false

/-- The command has a literal that is rejected. -/
def Turn.rejected (lim : Limits) (t : Turn) : Bool := (Codec.command.encode t.command).any (tooLong lim)

/-- The fragments of the command that are sent: those before the first literal that is rejected. -/
def Turn.sent (lim : Limits) (t : Turn) : List Fragment := (Codec.command.encode t.command).takeWhile fun f => !tooLong lim f

/-- What the server should notice of a turn. -/
def Turn.entries (lim : Limits) (t : Turn) : List LogEntry :=
  if t.rejected lim then [.rejected t.command.tag]
  else .message ⟨.command, t.command.norm⟩ ::
    match t.command.body with
    | .authenticate _ _ => [.message ⟨.authenticateData, t.answer⟩]
    | .idle => [.message ⟨.idleDone, ()⟩]
    | _ => []

/-- The turn is possible: the command round-trips (C01), has no line breaks outside of literals, and what is sent is not larger than the
server allows. -/
structure Turn.Possible (lim : Limits) (t : Turn) : Prop where
  supported : Supported .command t.command
  unbroken : Unbroken .command t.command
  fits : (dump (t.sent lim)).length ≤ lim.message
  answer : ∀ mechanism ir, t.command.body = .authenticate mechanism ir → (dump (Codec.authenticateData.encode t.answer)).length ≤ lim.message
  done : t.command.body = .idle → (dump (Codec.idleDone.encode ())).length ≤ lim.message

/-- All is done: the client has nothing more to do, nothing is under way, and the server can not go on. -/
structure Finished (x : Session) : Prop where
  client : x.client = .ready []
  up : x.up = []
  down : x.down = []
  server : x.server.frag.progress.2 = none

end Imap.Session
