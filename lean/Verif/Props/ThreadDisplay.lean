import Verif.ThreadDisplay
import Verif.DataRT
import Verif.WellFormedLemmas

/-!
# C46: threads of any depth are printed, and the text determines the thread
-/

namespace Imap
namespace Spec

/-- The text of a thread, RFC 5256 (section 5): in parentheses, the message numbers of the prefix separated by spaces, and then, after a space if there is a prefix,
the texts of the answers. -/
def threadText : Thread → Bytes
  | .members p [] => b!"(" ++ List.intercalate b!" " (p.map showNat) ++ b!")"
  | .members p (t :: l) => b!"(" ++ List.intercalate b!" " (p.map showNat) ++ b!" " ++ threadText t ++ threadTexts l ++ b!")"
  | .nested l => b!"(" ++ threadTexts l ++ b!")"
where
  threadTexts : List Thread → Bytes
    | [] => []
    | t :: l => threadText t ++ threadTexts l

end Spec

theorem bytes_join_nat : ∀ p : List Nat, bytes (join b!" " (p.map encNat)) = List.intercalate b!" " (p.map showNat)
  | [] => rfl
  | [a] => by simp [join, encNat, List.intercalate]
  | a :: b :: p => by
    have := bytes_join_nat (b :: p)
    simp only [List.map_cons, join, bytes_append, List.intercalate_cons_cons] at this ⊢
    rw [← this]
    simp [encNat]

theorem bytes_encPrefix (p : List NzU32) (l : List Thread) :
    bytes (encPrefix p l) = List.intercalate b!" " (p.map showNat) ++ if l.isEmpty then [] else b!" " := by
  cases l <;> simp [encPrefix, bytes_join_nat]

theorem bytes_enc : (t : Thread) → bytes t.enc = Spec.threadText t
  | .members p [] => by simp [Thread.enc, Thread.enc.go, Spec.threadText, bytes_encPrefix]
  | .members p (t :: l) => by simp [Thread.enc, Thread.enc.go, Spec.threadText, bytes_encPrefix, bytes_enc t, bytes_encs l]
  | .nested l => by simp [Thread.enc, Spec.threadText, bytes_encs l]
where
  bytes_encs : (l : List Thread) → bytes (Thread.enc.go l) = Spec.threadText.threadTexts l
    | [] => rfl
    | t :: l => by simp [Thread.enc.go, Spec.threadText.threadTexts, bytes_enc t, bytes_encs l]

/-- Printing ends for every thread, of any depth: after some number of iterations the loop is over, and what has been written is the text of the thread. -/
theorem C46_display (t : Thread) : ∃ n s, Printer.after n (Printer.start t) = some s ∧ s.step = none ∧ bytes s.out = Spec.threadText t := by
  have := Printer.after_drain _ t.opened.2 (.wr b!"(" :: t.opened.1) [] (Nat.le_refl _)
  refine ⟨_, _, this, rfl, ?_⟩
  rw [← bytes_enc, t.enc_opened]

/-- The loop makes two iterations for each thread below the outermost one, and one more. -/
theorem C46_iterations (t : Thread) (n : Nat) : (Printer.after n (Printer.start t)).isSome = true ↔ n < 2 * t.nodes := by
  have h := Printer.after_drain _ t.opened.2 (.wr b!"(" :: t.opened.1) [] (Nat.le_refl _)
  have ht := t.nodes_opened
  have e : 2 * Thread.nodes.go t.opened.2 + 1 + 1 = 2 * t.nodes := by omega
  constructor
  · intro hn
    refine Nat.lt_of_not_le fun hle => ?_
    obtain ⟨k, rfl⟩ := Nat.exists_eq_add_of_le hle
    rw [← e, Nat.add_assoc, Printer.after_add] at hn
    erw [h] at hn
    rw [Option.bind_some, Nat.add_comm 1 k, Printer.after] at hn
    simp [Printer.step] at hn
  · intro hn
    obtain ⟨k, hk⟩ := Nat.exists_eq_add_of_le (show n ≤ 2 * Thread.nodes.go t.opened.2 + 1 by omega)
    rw [hk, Printer.after_add] at h
    unfold Printer.start
    cases e' : Printer.after n ⟨.wr b!"(" :: t.opened.1, [t.opened.2]⟩ with
    | none => rw [e'] at h; simp at h
    | some s => rfl

/-- The stack never holds more iterators than the thread is deep. -/
theorem C46_stack (t : Thread) (n : Nat) (s : Printer) (h : Printer.after n (Printer.start t) = some s) : s.stack.length ≤ t.depth := by
  refine Printer.fits_length (Printer.fits_after h ?_)
  simp [Printer.start, Printer.Fits, t.depth_opened]

/-- The hypothesis is met by the state after one iteration. -/
example : ∃ s, Printer.after 1 (Printer.start (.nested [.members [1] [], .members [2] []])) = some s ∧ s.stack.length = 2 :=
  ⟨_, by with_unfolding_all rfl, rfl⟩

/-- Different threads have different texts, however deep they are, and no text is the beginning of another one. The decoder, which refuses
threads that are deeper than eight levels, plays no role in this. -/
theorem C46_prefix_free (t u : Thread) (ht : Spec.Thread.Inv t) (hu : Spec.Thread.Inv u) (x y : Bytes)
    (h : Spec.threadText t ++ x = Spec.threadText u ++ y) : t = u ∧ x = y := by
  have e1 := rt_threadList (max t.depth u.depth) t x ((Spec.Thread.inv_iff t).2 ht) (by omega)
  have e2 := rt_threadList (max t.depth u.depth) u y ((Spec.Thread.inv_iff u).2 hu) (by omega)
  rw [bytes_enc] at e1 e2
  rw [h, e2] at e1
  simp at e1
  exact ⟨e1.2.symm, e1.1.symm⟩

end Imap

namespace Imap.ThreadDisplayExamples

/-- The example of RFC 5256. -/
example : Spec.threadText (.members [3, 6] [.members [4, 23] [], .members [44, 7, 96] []]) = b!"(3 6 (4 23)(44 7 96))" := by with_unfolding_all rfl

example : Spec.Thread.Inv (.members [3, 6] [.members [4, 23] [], .nested [.members [1] [], .members [2] []]]) := by
  rw [← Spec.Thread.inv_iff]; decide

/-- Five iterations write the text. -/
example : ((Printer.after 5 (Printer.start (.nested [.members [1] [], .members [2] []]))).map fun s => (bytes s.out, s.stack.length)) =
    some (b!"((1)(2))", 0) := by with_unfolding_all rfl

example : Thread.nodes (.nested [.members [1] [], .members [2] []]) = 3 := rfl

end Imap.ThreadDisplayExamples
