import Verif.WorkSpec
import Verif.Props.Fragmentizer
/-
Property C64: a Fragmentizer does work in proportion to the bytes it was given. The specification is in Verif/WorkSpec.lean.
-/
namespace Imap.Frag

theorem looks_parse (bs : Bytes) (p : LineParser) : LineParser.looks p.latest bs = (p.parse bs).2.1 := by
  induction bs generalizing p with
  | nil => rfl
  | cons b bs ih =>
    rcases h : lineStep p.latest b with ⟨lt, _ | ⟨ann, ending⟩⟩
    · simp only [LineParser.looks, LineParser.parse, h]
      rw [Nat.add_comm]
      exact congrArg (· + 1) (ih ⟨p.start, p.stop + 1, lt⟩)
    · simp only [LineParser.looks, LineParser.parse, h]

theorem dequeue_length (s : State) (c : Nat) : (s.dequeue c).unparsed = s.unparsed.drop c := by
  unfold State.dequeue
  split
  · split <;> rfl
  · rfl

theorem progressWith_unparsed (s : State) (p : Parser) :
    (s.progressWith p).1.unparsed = s.unparsed.drop (p.parse s.unparsed).2.1 := by
  unfold State.progressWith
  rcases p.parse s.unparsed with ⟨p', c, _ | i⟩ <;> simp [dequeue_length]

theorem lineParse_le (bs : Bytes) (p : LineParser) : (p.parse bs).2.1 ≤ bs.length := by
  induction bs generalizing p with
  | nil => exact Nat.le_refl _
  | cons b bs ih =>
    rcases h : lineStep p.latest b with ⟨lt, _ | ⟨ann, ending⟩⟩
    · simp only [LineParser.parse, h, List.length_cons]
      have := ih ⟨p.start, p.stop + 1, lt⟩
      omega
    · simp [LineParser.parse, h]

theorem looks_progress (s : State) : s.looks + s.progress.1.unparsed.length ≤ s.unparsed.length := by
  unfold State.looks State.progress
  cases hp : s.parser with
  | none =>
    simp only [progressWith_unparsed]
    have h1 := looks_parse s.unparsed (.new 0)
    have h2 := lineParse_le s.unparsed (.new 0)
    simp only [Parser.parse, State.startMessage, List.length_drop] at *
    simp only [LineParser.new] at *
    omega
  | some p =>
    cases p with
    | line p =>
      simp only [progressWith_unparsed]
      have h1 := looks_parse s.unparsed p
      have h2 := lineParse_le s.unparsed p
      simp only [Parser.parse, List.length_drop] at *
      omega
    | literal p => simp only [progressWith_unparsed, List.length_drop]; omega

theorem work_run (ops : List Op) (s : State) :
    s.work ops + (s.run ops).1.unparsed.length ≤ s.unparsed.length + (enqueued ops).length := by
  induction ops generalizing s with
  | nil => simp [State.work, State.run, enqueued]
  | cons op ops ih =>
    have := ih (s.exec op).1
    cases op with
    | enqueue bs => simp only [State.work, State.run, enqueued, State.exec, State.enqueue, List.length_append] at *; omega
    | poison => simpa [State.work, State.run, enqueued, State.exec, State.poison] using this
    | skip => simpa [State.work, State.run, enqueued, State.exec, State.skip, State.startMessage] using this
    | progress =>
      have h := looks_progress s
      have e : (s.exec .progress).1.unparsed = s.progress.1.unparsed := by
        simp only [State.exec]
        rcases s.progress with ⟨s', _ | i⟩ <;> rfl
      rw [e] at this
      simp only [State.work, State.run, enqueued] at *
      omega

/-- C64. No byte is looked at twice: over every history of calls, however the bytes were cut into chunks and however often
`progress` was called in vain, the number of times `progress` looked at a byte is at most the number of bytes enqueued,
less those that still wait. -/
theorem C64_work (max : Option Nat) (ops : List Op) :
    (State.init max).work ops + ((State.init max).run ops).1.unparsed.length ≤ (enqueued ops).length := by
  have := work_run ops (State.init max)
  simpa [State.init] using this

theorem announces_length {l : Bytes} {a : Ann} (h : Announces l a) : 4 ≤ l.length := by
  obtain ⟨pre, digits, ending, rfl, h, -⟩ := h
  have : 1 ≤ digits.length := List.length_pos_iff.mpr h
  have : 1 ≤ (endingBytes ending).length := by cases ending <;> decide
  simp only [List.length_append]
  have h1 : (b!"{" : Bytes).length = 1 := by decide
  have h2 : (b!"}" : Bytes).length = 1 := by decide
  omega

theorem isLine_length {l : Bytes} (h : IsLine l) : 1 ≤ l.length := by
  obtain ⟨b, rfl, -⟩ := h
  simp

theorem message_count {start m infos} (h : Message start m infos) : infos.length ≤ m.length := by
  induction h with
  | last h => simpa using isLine_length h
  | more _ ha _ _ _ ih =>
    have := announces_length ha
    simp only [List.length_cons, List.length_append]
    omega

theorem unfinished_count {start m infos} (h : Unfinished start m infos) : infos.length ≤ m.length := by
  induction h with
  | inLine _ => simp
  | inLiteral h _ _ _ =>
    have := isLine_length h
    simp only [List.length_cons, List.length_append, List.length_nil]
    omega
  | more _ ha _ _ _ ih =>
    have := announces_length ha
    simp only [List.length_cons, List.length_append]
    omega

/-- C64. There are not more fragments than bytes: over every history, `progress` reported at most as many fragments as bytes
were enqueued, less those that still wait. Empty literals do not change that. -/
theorem C64_fragments (max : Option Nat) (ops : List Op) :
    ((State.init max).run ops).2.length + ((State.init max).run ops).1.unparsed.length ≤ (enqueued ops).length := by
  obtain ⟨fin, cur, infos, h1, h2, h3, h4, -⟩ := C15_fragments_partition max ops
  have hc : infos.length ≤ cur.length := by
    split at h4
    · exact message_count h4
    · exact unfinished_count h4
  have hf : (fin.map (·.2)).flatten.length ≤ (fin.map (·.1)).flatten.length := by
    clear h1 h2
    induction fin with
    | nil => simp
    | cons m fin ih =>
      have := ih fun m hm => h3 m (by simp [hm])
      have h : m.2.length ≤ m.1.length := by
        rcases h3 m (by simp) with h | ⟨-, h⟩
        · exact message_count h
        · exact unfinished_count h
      simp only [List.map_cons, List.flatten_cons, List.length_append]
      omega
  have e1 := congrArg List.length h1
  have e2 := congrArg List.length h2
  simp only [List.length_append, List.length_map] at e1 e2
  omega

theorem run_append_snd (s : State) (a b : List Op) : (s.run (a ++ b)).2 = (s.run a).2 ++ ((s.run a).1.run b).2 := by
  induction a generalizing s with
  | nil => simp [State.run]
  | cons op a ih => simp [State.run, ih]

theorem enqueued_append (a b : List Op) : enqueued (a ++ b) = enqueued a ++ enqueued b := by
  induction a with
  | nil => rfl
  | cons op a ih => cases op <;> simp [enqueued, ih]

theorem enqueued_progress (n : Nat) : enqueued (List.replicate n .progress) = [] := by
  induction n with
  | zero => rfl
  | succ n ih => simpa [List.replicate_succ, enqueued] using ih

/-- Once `progress` has nothing to report, it has nothing to report when it is called again. -/
theorem drained_progress {s : State} (h : Drained s) : Drained s.progress.1 := by
  have hu := drained_unparsed s h
  rcases hp : s.progress with ⟨s', o⟩
  unfold Drained at h
  rw [hp] at h hu
  simp only at h hu
  subst h
  have key : ∀ (t : State) (p : Parser), t.progressWith p = (s', none) → Drained s' := by
    intro t p ht
    unfold State.progressWith at ht
    rcases hr : p.parse t.unparsed with ⟨p', c, _ | i⟩
    · simp only [hr] at ht
      have e : s'.parser = some p' := by
        rw [← (Prod.mk.inj ht).1, dequeue_parser]
      unfold Drained State.progress
      rw [e]
      unfold State.progressWith
      rw [hu]
      cases p' with
      | line q => rfl
      | literal q =>
        cases p with
        | line p => simp [Parser.parse] at hr
        | literal p =>
          simp only [Parser.parse, LiteralParser.parse] at hr
          split at hr
          · rename_i hlt
            have : q.remaining = p.remaining - t.unparsed.length := by
              have := (Prod.mk.inj hr).1
              rw [← Parser.literal.inj this]
            have : 0 < q.remaining := by omega
            simp [Parser.parse, LiteralParser.parse, this]
          · simp at hr
    · simp [hr] at ht
  unfold State.progress at hp
  cases hq : s.parser with
  | some p => rw [hq] at hp; exact key _ _ hp
  | none => rw [hq] at hp; exact key _ _ hp

theorem drained_or_more (n : Nat) (s : State) :
    Drained (s.run (List.replicate n .progress)).1 ∨ (s.run (List.replicate (n + 1) .progress)).2.length = n + 1 := by
  induction n generalizing s with
  | zero =>
    by_cases h : Drained s
    · exact .inl h
    · right
      unfold Drained at h
      simp only [List.replicate, State.run, State.exec]
      rcases hp : s.progress with ⟨s', _ | i⟩
      · rw [hp] at h; exact absurd rfl h
      · rfl
  | succ n ih =>
    have e : (s.exec .progress).1 = s.progress.1 := by
      simp only [State.exec]
      rcases s.progress with ⟨s', _ | i⟩ <;> rfl
    by_cases h : Drained s
    · left
      have : ∀ n (t : State), Drained t → Drained (t.run (List.replicate n .progress)).1 := by
        intro n
        induction n with
        | zero => intro t ht; exact ht
        | succ n ih =>
          intro t ht
          rw [List.replicate_succ]
          have e : (t.exec .progress).1 = t.progress.1 := by
            simp only [State.exec]
            rcases t.progress with ⟨s', _ | i⟩ <;> rfl
          simp only [State.run, e]
          exact ih _ (drained_progress ht)
      exact this _ _ h
    · have hl : (s.exec .progress).2.length = 1 := by
        unfold Drained at h
        simp only [State.exec]
        rcases hp : s.progress with ⟨s', _ | i⟩
        · rw [hp] at h; exact absurd rfl h
        · rfl
      rcases ih (s.exec .progress).1 with h | h
      · left; rw [List.replicate_succ]; simpa only [State.run] using h
      · right
        rw [List.replicate_succ]
        simp only [State.run, List.length_append]
        omega

/-- C64. The loop `while let Some(…) = progress()` ends: after any history, as many calls of `progress` as bytes were enqueued
suffice, whatever the bytes are; then `progress` has nothing more to report. -/
theorem C64_drain (max : Option Nat) (ops : List Op) (n : Nat) (hn : (enqueued ops).length ≤ n) :
    Drained ((State.init max).run (ops ++ List.replicate n .progress)).1 := by
  rw [run_append_fst]
  rcases drained_or_more n ((State.init max).run ops).1 with h | h
  · exact h
  · exfalso
    have h1 := C64_fragments max (ops ++ List.replicate (n + 1) .progress)
    rw [run_append_snd, enqueued_append, enqueued_progress, List.length_append, h] at h1
    simp only [List.append_nil] at h1
    omega

/-- A message with an empty literal and a synchronizing literal that arrives in pieces: 18 bytes, each looked at once or not at
all (those of the literal), and five fragments. -/
example :
    let ops : List Op := [.progress, .enqueue b!"A {0}\r", .progress, .progress, .enqueue b!"\n {3", .progress, .progress,
      .progress, .enqueue b!"}\r\nabc\r\n", .progress, .progress, .progress, .progress]
    (State.init none).work ops = 15 ∧ (enqueued ops).length = 18 ∧ ((State.init none).run ops).2.length = 5 ∧
    Drained ((State.init none).run ops).1 := by
  unfold Drained
  decide

/-- Without calls of `progress` no byte is looked at, and the three bytes wait. -/
example : (State.init none).work [.enqueue b!"A\r\n"] = 0 ∧ ((State.init none).run [.enqueue b!"A\r\n"]).1.unparsed.length = 3 ∧
    ¬ Drained ((State.init none).run [.enqueue b!"A\r\n"]).1 := by
  unfold Drained
  decide

/-- The bound on the fragments is met: two empty lines, two bytes, two fragments. -/
example : ((State.init none).run [.enqueue b!"\n\n", .progress, .progress]).2.length = 2 := by decide

end Imap.Frag
