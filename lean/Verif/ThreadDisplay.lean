import Verif.Response

/-!
# Printing a thread

`Display for Thread` prints a thread of any depth with a loop over an explicit stack of iterators. `Thread.enc` in
`Verif/Response.lean` is the recursive version of it. This file models the loop itself.
-/

namespace Imap

/-- The state of the loop in `Display for Thread` (imap-types/src/extensions/thread.rs:30-76): what has been written to the formatter, and the stack of iterators,
each given by the threads that it has not yielded yet. The top of the stack is the head of the list. -/
structure Printer where
  out : List W
  stack : List (List Thread)

/-- What is written when a thread is opened, after the parenthesis, and the iterator over its answers
(imap-types/src/extensions/thread.rs:34-47, 52-67). No answers are an iterator over nothing. -/
def Thread.opened : Thread → List W × List Thread
  | .members p l => (encPrefix p l, l)
  | .nested l => ([], l)

/-- The part before the loop (imap-types/src/extensions/thread.rs:31-48). -/
def Printer.start (t : Thread) : Printer := ⟨.wr b!"(" :: t.opened.1, [t.opened.2]⟩

/-- One iteration of the loop (imap-types/src/extensions/thread.rs:50-76), or `none` if the stack is empty, and the loop ends. -/
def Printer.step (s : Printer) : Option Printer :=
  match s.stack with
  | [] => none
  | [] :: stack => some ⟨s.out ++ [.wr b!")"], stack⟩
  | (t :: answers) :: stack => some ⟨s.out ++ .wr b!"(" :: t.opened.1, t.opened.2 :: answers :: stack⟩

/-- The state after a number of iterations, if the loop makes that many. -/
def Printer.after : Nat → Printer → Option Printer
  | 0, s => some s
  | n + 1, s => s.step.bind (Printer.after n)

/-! ## Lemmas -/

/-- The number of threads in a thread, itself included. -/
def Thread.nodes : Thread → Nat
  | .members _ l => 1 + go l
  | .nested l => 1 + go l
where
  go : List Thread → Nat
    | [] => 0
    | t :: l => t.nodes + go l

theorem Printer.after_add (m n : Nat) (s : Printer) : Printer.after (m + n) s = (Printer.after m s).bind (Printer.after n) := by
  induction m generalizing s with
  | zero => simp [after]
  | succ m ih =>
    rw [Nat.succ_add, after, after]
    cases s.step with
    | none => rfl
    | some s' => simpa using ih s'

theorem Thread.enc_opened (t : Thread) : t.enc = .wr b!"(" :: t.opened.1 ++ Thread.enc.go t.opened.2 ++ [.wr b!")"] := by
  cases t <;> simp [Thread.enc, Thread.opened]

theorem Thread.nodes_opened (t : Thread) : t.nodes = 1 + Thread.nodes.go t.opened.2 := by
  cases t <;> rfl

theorem Thread.depth_opened (t : Thread) : t.depth = 1 + Thread.depth.go t.opened.2 := by
  cases t <;> rfl

theorem Printer.after_drain : ∀ (n : Nat) (l : List Thread) (out : List W) (stack : List (List Thread)), Thread.nodes.go l ≤ n →
    Printer.after (2 * Thread.nodes.go l + 1) ⟨out, l :: stack⟩ = some ⟨out ++ Thread.enc.go l ++ [.wr b!")"], stack⟩
  | n, [], out, stack, _ => by simp [Thread.nodes.go, Printer.after, Printer.step, Thread.enc.go]
  | 0, t :: l, out, stack, h => by
    have := t.nodes_opened
    simp only [Thread.nodes.go] at h
    omega
  | n + 1, t :: l, out, stack, h => by
    have ht := t.nodes_opened
    simp only [Thread.nodes.go] at h ⊢
    have e : 2 * (t.nodes + Thread.nodes.go l) + 1 = 1 + ((2 * Thread.nodes.go t.opened.2 + 1) + (2 * Thread.nodes.go l + 1)) := by omega
    have e1 : Printer.after 1 ⟨out, (t :: l) :: stack⟩ = some ⟨out ++ .wr b!"(" :: t.opened.1, t.opened.2 :: l :: stack⟩ := rfl
    rw [e, Printer.after_add, e1, Option.bind_some, Printer.after_add, after_drain n t.opened.2 _ _ (by omega), Option.bind_some, after_drain n l _ _ (by omega)]
    simp [Thread.enc.go, t.enc_opened]

/-- The stack fits: with `k` iterators below, an iterator over threads of depth `d` needs `k + 1 + d` places. -/
def Printer.Fits (n : Nat) : List (List Thread) → Prop
  | [] => True
  | l :: stack => stack.length + 1 + Thread.depth.go l ≤ n ∧ Fits n stack

theorem Printer.fits_step {n : Nat} {s s' : Printer} (h : s.step = some s') (hs : Fits n s.stack) : Fits n s'.stack := by
  obtain ⟨out, stack⟩ := s
  simp only [step] at h
  split at h
  · simp at h
  · cases h
    exact hs.2
  · next t _ _ =>
    cases h
    have := t.depth_opened
    simp only [Fits, Thread.depth.go, List.length_cons] at hs ⊢
    exact ⟨by omega, by omega, hs.2⟩

theorem Printer.fits_after {n k : Nat} {s s' : Printer} (h : Printer.after k s = some s') (hs : Fits n s.stack) : Fits n s'.stack := by
  induction k generalizing s with
  | zero => cases h; exact hs
  | succ k ih =>
    rw [after, Option.bind_eq_some_iff] at h
    obtain ⟨u, h1, h2⟩ := h
    exact ih h2 (fits_step h1 hs)

theorem Printer.fits_length {n : Nat} {stack : List (List Thread)} (h : Fits n stack) : stack.length ≤ n := by
  cases stack with
  | nil => simp
  | cons l stack => simp only [Fits, List.length_cons] at h ⊢; omega

end Imap
