import Verif.FramingCommand
/-
The automaton, and the messages of a reader that knows quoted strings.
-/
set_option maxRecDepth 10000

namespace Imap.Frame

open Frag Spec

theorem run_qline_ann {l : Bytes} {a : Ann} (hl : IsQuotedLine l) (ha : Announces l a) : start.run l = .ann a := by
  obtain ⟨body, rfl, hc, hb⟩ := hl
  rw [announces_body body] at ha
  rw [run_append, run_quoted _ _ hb, hc]
  simp [St.step, stepText, ha]

theorem run_qline_end {l : Bytes} (hl : IsQuotedLine l) (ha : ∀ a, ¬ Announces l a) : start.run l = .ended := by
  obtain ⟨body, rfl, hc, hb⟩ := hl
  have ha' : annOf (scan .other body) = none := by
    cases h : annOf (scan .other body) with
    | none => rfl
    | some a => exact absurd ((announces_body body a).2 h) (ha a)
  rw [run_append, run_quoted _ _ hb, hc]
  simp [St.step, stepText, ha']

theorem qmessage_ne {w : Bytes} (h : QuotedMessage w) : w ≠ [] := by
  cases h with
  | last hl => obtain ⟨b, rfl, _⟩ := hl; simp
  | more hl => obtain ⟨b, rfl, _⟩ := hl; simp

theorem run_qmessage {w : Bytes} (h : QuotedMessage w) : start.run w = .ended := by
  induction h with
  | last hl ha => exact run_qline_end hl ha
  | more hl ha hlit hm ih => rw [List.append_assoc, run_append, run_qline_ann hl ha, run_ann_rest hlit (qmessage_ne hm), ih]

theorem run_qunfinished {w : Bytes} {o : Option Ann} (h : QuotedUnfinished w o) :
    (∀ a, o = some a → start.run w = .ann a) ∧ (o = none → Waiting (start.run w)) := by
  induction h with
  | inLine hl => exact ⟨nofun, fun _ => .inl ⟨_, _, run_quoted _ _ hl⟩⟩
  | announced hl ha => exact ⟨fun a e => by cases e; exact run_qline_ann hl ha, nofun⟩
  | inLiteral hl ha hne hlit =>
    refine ⟨nofun, fun _ => ?_⟩
    rw [run_append, run_qline_ann hl ha]
    rcases run_ann_short hlit hne with h | h
    · exact .inr h
    · exact .inl ⟨_, _, h⟩
  | more hl ha hlit hne hu ih => rwa [List.append_assoc, run_append, run_qline_ann hl ha, run_ann_rest hlit hne]

theorem qline_cases (q : Quote) (w : Bytes) : (∀ u v, w = u ++ b!"\n" ++ v → u.foldl Quote.step q ≠ .out) ∨
    ∃ body rest, w = body ++ b!"\n" ++ rest ∧ body.foldl Quote.step q = .out ∧ ∀ u v, body = u ++ b!"\n" ++ v → u.foldl Quote.step q ≠ .out := by
  induction w generalizing q with
  | nil => left; intro u v h; simp at h
  | cons d w ih =>
    by_cases hd : d = 10 ∧ q = .out
    · obtain ⟨rfl, rfl⟩ := hd
      exact .inr ⟨[], w, rfl, rfl, by intro u v h; simp at h⟩
    · rcases ih (q.step d) with h | ⟨body, rest, rfl, h1, h2⟩
      · left
        intro u v e hq
        cases u with
        | nil =>
          simp at e hq
          exact hd ⟨e.1, hq⟩
        | cons c u =>
          simp at e
          obtain ⟨rfl, rfl⟩ := e
          exact h u v (by simp) hq
      · refine .inr ⟨d :: body, rest, by simp, h1, ?_⟩
        intro u v e hq
        cases u with
        | nil =>
          simp at e hq
          exact hd ⟨e.1, hq⟩
        | cons c u =>
          simp at e
          obtain ⟨rfl, rfl⟩ := e
          exact h2 u v (by simp) hq

/-- Each input begins with a complete message, or is the beginning of a message. -/
theorem quoted_cases (w : Bytes) : (∃ u v, w = u ++ v ∧ QuotedMessage u) ∨ ∃ o, QuotedUnfinished w o := by
  induction hn : w.length using Nat.strongRecOn generalizing w with
  | ind n ih =>
    subst hn
    rcases qline_cases .out w with h | ⟨body, rest, rfl, hb⟩
    · exact .inr ⟨none, .inLine h⟩
    · have hl : IsQuotedLine (body ++ b!"\n") := ⟨body, rfl, hb⟩
      have hpos : 0 < (body ++ b!"\n").length := by simp
      generalize body ++ b!"\n" = l at *
      by_cases ha : ∃ a, Announces l a
      · obtain ⟨a, ha⟩ := ha
        by_cases hlen : rest.length ≤ a.length
        · by_cases hne : rest = []
          · subst hne
            exact .inr ⟨some a, by simpa using QuotedUnfinished.announced hl ha⟩
          · exact .inr ⟨none, .inLiteral hl ha hne hlen⟩
        · obtain ⟨lit, rest, rfl, hlit⟩ : ∃ d r, rest = d ++ r ∧ d.length = a.length :=
            ⟨rest.take a.length, rest.drop a.length, by simp, by simp; omega⟩
          have hr : rest ≠ [] := by rintro rfl; simp at hlen; omega
          rcases ih rest.length (by simp; omega) rest rfl with ⟨u, v, rfl, h⟩ | ⟨o, h⟩
          · exact .inl ⟨l ++ lit ++ u, v, by simp, .more hl ha hlit h⟩
          · exact .inr ⟨o, by simpa using QuotedUnfinished.more hl ha hlit hr h⟩
      · exact .inl ⟨l, rest, rfl, .last hl fun a h => ha ⟨a, h⟩⟩

theorem run_ended {w : Bytes} (h : start.run w = .ended) : QuotedMessage w := by
  rcases quoted_cases w with ⟨u, v, rfl, hm⟩ | ⟨o, hu⟩
  · rw [run_append, run_qmessage hm] at h
    cases v with
    | nil => simpa using hm
    | cons d v => rw [run_cons, St.step, run_over] at h; simp at h
  · have := run_qunfinished hu
    cases o <;> simp [h, Waiting] at this

theorem run_ann {w : Bytes} {a : Ann} (h : start.run w = .ann a) : QuotedUnfinished w (some a) := by
  rcases quoted_cases w with ⟨u, v, rfl, hm⟩ | ⟨o, hu⟩
  · rw [run_append, run_qmessage hm] at h
    cases v with
    | nil => simp at h
    | cons d v => rw [run_cons, St.step, run_over] at h; simp at h
  · have := run_qunfinished hu
    cases o with
    | none => simp [h, Waiting] at this
    | some b => simp [h] at this; exact this ▸ hu

theorem run_waiting {w : Bytes} (h : Waiting (start.run w)) : QuotedUnfinished w none := by
  rcases quoted_cases w with ⟨u, v, rfl, hm⟩ | ⟨o, hu⟩
  · rw [run_append, run_qmessage hm] at h
    cases v with
    | nil => simp [Waiting] at h
    | cons d v => rw [run_cons, St.step, run_over] at h; simp [Waiting] at h
  · have := run_qunfinished hu
    cases o with
    | none => exact hu
    | some b => simp at this; rw [this] at h; simp [Waiting] at h

end Imap.Frame
