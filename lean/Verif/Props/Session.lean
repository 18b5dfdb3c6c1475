import Verif.SessionPlan
/-
C50: a client that follows the protocol, and the server of the example.

The client, the network and the steps of a session are specified in Verif/SessionSpec.lean, the server is modelled in Verif/Server.lean.
-/
set_option maxRecDepth 10000

namespace Imap

open Frag Session

variable [Quirks] {lim : Limits}

/-- The invariant holds in each state that is reached. -/
theorem Session.inv_reached (turns : List Turn) (h : ∀ t ∈ turns, t.Possible lim) {n : Nat} {x : Session} (hr : Run lim n (start lim turns) x) :
    Inv lim (turns.flatMap (Turn.entries lim)) x := by
  refine inv_run hr ?_
  have := good_turns turns h []
  rw [List.nil_append] at this
  show Good lim _ ((Server.init lim).enqueue []) [] (planTurns lim turns)
  rw [enqueue_nil]
  exact this

/-- C50, safety: at each point of each run, what the server has noticed is the beginning of what it should notice: it notices nothing
else, and it notices the messages and the rejections in the order of the turns. -/
theorem C50_safety (turns : List Turn) (h : ∀ t ∈ turns, t.Possible lim) (n : Nat) (x : Session) (hr : Run lim n (start lim turns) x) :
    x.server.log <+: turns.flatMap (Turn.entries lim) := by
  have := good_log (inv_reached turns h hr)
  exact this

/-- C50, no deadlock: at each point of each run, client, network or server can take a step, unless all is done; and then the server has
noticed all that it should notice. -/
theorem C50_no_deadlock (turns : List Turn) (h : ∀ t ∈ turns, t.Possible lim) (n : Nat) (x : Session) (hr : Run lim n (start lim turns) x) :
    (∃ y, Step lim x y) ∨ Finished x ∧ x.server.log = turns.flatMap (Turn.entries lim) :=
  inv_live (inv_reached turns h hr)

/-- C50, termination: the number of steps is bounded, in whatever order client, network and server take them. (This does not depend on the
commands.) -/
theorem C50_terminates (turns : List Turn) : ∃ bound, ∀ n x, Run lim n (start lim turns) x → n ≤ bound :=
  ⟨work (start lim turns), fun _ _ hr => by have := work_run hr; omega⟩

theorem Session.run_head {m : Nat} {x y z : Session} (hs : Step lim x y) (h : Run lim m y z) : Run lim (m + 1) x z := by
  induction h with
  | refl => exact .tail .refl hs
  | tail _ hs' ih => exact .tail (ih hs) hs'

/-- C50: each run can be continued until all is done, and then the server has noticed all that it should notice. -/
theorem C50_complete (turns : List Turn) (h : ∀ t ∈ turns, t.Possible lim) (n : Nat) (x : Session) (hr : Run lim n (start lim turns) x) :
    ∃ m y, Run lim (n + m) (start lim turns) y ∧ Run lim m x y ∧ Finished y ∧ y.server.log = turns.flatMap (Turn.entries lim) := by
  generalize hw : work x = w
  induction w using Nat.strongRecOn generalizing n x with
  | _ w ih =>
    rcases C50_no_deadlock turns h n x hr with ⟨y, hs⟩ | ⟨hf, hl⟩
    · obtain ⟨m, z, h1, h2, h3, h4⟩ := ih (work y) (by rw [← hw]; exact work_step hs) (n + 1) y (.tail hr hs) rfl
      refine ⟨m + 1, z, by rw [show n + (m + 1) = n + 1 + m by omega]; exact h1, ?_, h3, h4⟩
      exact run_head hs h2
    · exact ⟨0, x, hr, .refl, hf, hl⟩

/-! ### A concrete session -/

section Examples
omit [Quirks]

attribute [local instance] Quirks.default

/-- A command with a synchronizing and a non-synchronizing literal. -/
def C50_accepted : Turn := ⟨⟨b!"A1", .login (.string (.literal ⟨b!"x\ny", .sync⟩)) (.string (.literal ⟨b!"z", .nonSync⟩))⟩, .cancel⟩

/-- A command with a literal that is too long. -/
def C50_rejected : Turn := ⟨⟨b!"A2", .login (.string (.literal ⟨b!"long\n", .sync⟩)) (.string (.literal ⟨b!"z", .sync⟩))⟩, .cancel⟩

/-- AUTHENTICATE. -/
def C50_authenticate : Turn := ⟨⟨b!"A3", .authenticate .plain none⟩, .continue_ b!"abc"⟩

/-- IDLE. -/
def C50_idle : Turn := ⟨⟨b!"A4", .idle⟩, .cancel⟩

/-- The limits: four bytes for a literal, and 64 bytes for a message. -/
def C50_limits : Limits := ⟨4, 64⟩

theorem C50_possible : ∀ t ∈ [C50_accepted, C50_rejected, C50_authenticate, C50_idle], @Turn.Possible Quirks.default C50_limits t := by
  intro t ht
  simp only [List.mem_cons, List.not_mem_nil, or_false] at ht
  rcases ht with rfl | rfl | rfl | rfl
  · refine ⟨?_, ?_, ?_, ?_, ?_⟩
    · refine ⟨by decide, ⟨?_, ?_⟩, ⟨?_, ?_⟩⟩ <;> first | decide | exact fun _ => by decide
    · refine ⟨by decide, ⟨?_, ?_⟩, ⟨?_, ?_⟩⟩ <;> first | decide | exact fun _ => by decide
    · with_unfolding_all decide
    · intro _ _ h; cases h
    · intro h; cases h
  · refine ⟨?_, ?_, ?_, ?_, ?_⟩
    · refine ⟨by decide, ⟨?_, ?_⟩, ⟨?_, ?_⟩⟩ <;> first | decide | exact fun _ => by decide
    · refine ⟨by decide, ⟨?_, ?_⟩, ⟨?_, ?_⟩⟩ <;> first | decide | exact fun _ => by decide
    · with_unfolding_all decide
    · intro _ _ h; cases h
    · intro h; cases h
  · refine ⟨?_, ?_, ?_, ?_, ?_⟩
    · refine ⟨by decide, ?_⟩; trivial
    · refine ⟨by decide, ?_⟩; trivial
    · with_unfolding_all decide
    · intro _ _ _; with_unfolding_all decide
    · intro h; cases h
  · refine ⟨?_, ?_, ?_, ?_, ?_⟩
    · refine ⟨by decide, ?_⟩; trivial
    · refine ⟨by decide, ?_⟩; trivial
    · with_unfolding_all decide
    · intro _ _ h; cases h
    · intro _; with_unfolding_all decide

/-- The server notices the first command, the rejection of the second one, the third one with the answer, and the fourth one with DONE. -/
example : [C50_accepted, C50_rejected, C50_authenticate, C50_idle].flatMap (@Turn.entries Quirks.default C50_limits) =
    [.message ⟨.command, C50_accepted.command⟩, .rejected b!"A2", .message ⟨.command, C50_authenticate.command⟩,
      .message ⟨.authenticateData, .continue_ b!"abc"⟩, .message ⟨.command, C50_idle.command⟩, .message ⟨.idleDone, ()⟩] := by
  with_unfolding_all rfl

example : ∃ m y, @Run Quirks.default C50_limits (0 + m) (start C50_limits [C50_accepted, C50_rejected, C50_authenticate, C50_idle]) y ∧
    Finished y ∧ y.server.log = [C50_accepted, C50_rejected, C50_authenticate, C50_idle].flatMap (@Turn.entries Quirks.default C50_limits) := by
  obtain ⟨m, y, h1, -, h2, h3⟩ := @C50_complete Quirks.default C50_limits _ C50_possible 0 _ (@Run.refl Quirks.default _ _)
  exact ⟨m, y, h1, h2, h3⟩

end Examples

end Imap
