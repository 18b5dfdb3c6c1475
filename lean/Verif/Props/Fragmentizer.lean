import Verif.FragHist
/-
Properties C13, C14, C15 and C17: the Fragmentizer. The specification is in Verif/FragSpec.lean.
-/
namespace Imap.Frag

/-- C13. Whatever way the same byte stream is cut into chunks, and whenever `progress` is called in
between: once `progress` has nothing more to report, the observations made (fragments, their bytes, message bytes,
completion, flags) are the same, and so is the state after the last `progress`. -/
theorem C13_chunking_independent (max : Option Nat) (ops₁ ops₂ : List Op) (h₁ : Plain ops₁) (h₂ : Plain ops₂)
    (hbytes : enqueued ops₁ = enqueued ops₂)
    (hd₁ : Drained ((State.init max).run ops₁).1) (hd₂ : Drained ((State.init max).run ops₂).1) :
    ((State.init max).run ops₁).2 = ((State.init max).run ops₂).2 ∧
    ((State.init max).run ops₁).1.progress = ((State.init max).run ops₂).1.progress := by
  have d₁ := drains_run ops₁ h₁ (State.init max) _ _ _ [] rfl
    (.done (s' := ((State.init max).run ops₁).1.progress.1) (Prod.ext rfl hd₁))
  have d₂ := drains_run ops₂ h₂ (State.init max) _ _ _ [] rfl
    (.done (s' := ((State.init max).run ops₂).1.progress.1) (Prod.ext rfl hd₂))
  rw [hbytes] at d₁
  obtain ⟨a, b⟩ := d₁.unique d₂
  refine ⟨by simpa using a, Prod.ext b ?_⟩
  rw [hd₁, hd₂]

/-- C13. The observations of any history are a prefix of those of every history that received at least the
same bytes and called `progress` until it had nothing more to report. -/
theorem C13_observations_prefix (max : Option Nat) (ops₁ ops₂ : List Op) (h₁ : Plain ops₁) (h₂ : Plain ops₂)
    (hbytes : enqueued ops₁ <+: enqueued ops₂) (hd₂ : Drained ((State.init max).run ops₂).1) :
    ((State.init max).run ops₁).2 <+: ((State.init max).run ops₂).2 := by
  obtain ⟨rest, hrest⟩ := hbytes
  have d₂ := drains_run ops₂ h₂ (State.init max) _ _ _ [] rfl
    (.done (s' := ((State.init max).run ops₂).1.progress.1) (Prod.ext rfl hd₂))
  obtain ⟨evs, s', hd⟩ := Drains.total (((State.init max).run ops₁).1.enqueue rest)
  have hplain : Plain (ops₁ ++ [.enqueue rest]) := by
    intro op hop
    simp at hop
    rcases hop with hop | rfl
    · exact h₁ op hop
    · exact .inl ⟨_, rfl⟩
  have hrun : ∀ (ops : List Op) (s : State), s.run (ops ++ [.enqueue rest]) = ((s.run ops).1.enqueue rest, (s.run ops).2) := by
    intro ops
    induction ops with
    | nil => intro s; rfl
    | cons op ops ih => intro s; simp [State.run, ih]
  have henq : ∀ ops : List Op, enqueued (ops ++ [.enqueue rest]) = enqueued ops ++ rest := by
    intro ops
    induction ops with
    | nil => simp [enqueued]
    | cons op ops ih => cases op <;> simp [enqueued, ih]
  have d₁ := drains_run _ hplain (State.init max) _ _ _ evs (hrun ops₁ _) hd
  rw [henq, hrest] at d₁
  obtain ⟨a, _⟩ := d₁.unique d₂
  exact ⟨evs, by simpa using a⟩

/-- C15. At every point of every history, the bytes enqueued so far split into the bytes of finished messages, the bytes
of the current message and the bytes not looked at yet. Finished messages are messages in the sense of the specification
(or were abandoned by `skip_message`), the fragments reported are exactly theirs, in order, and
`is_message_complete` tells whether the current message is complete. -/
theorem C15_fragments_partition (max : Option Nat) (ops : List Op) :
    let s := ((State.init max).run ops).1
    let evs := ((State.init max).run ops).2
    ∃ (finished : List (Bytes × List Info)) (current : Bytes) (infos : List Info),
      enqueued ops = (finished.map (·.1)).flatten ++ current ++ s.unparsed ∧
      evs.map (·.info) = (finished.map (·.2)).flatten ++ infos ∧
      (∀ m ∈ finished, Message 0 m.1 m.2 ∨ (Op.skip ∈ ops ∧ Unfinished 0 m.1 m.2)) ∧
      (if s.complete then Message 0 current infos else Unfinished 0 current infos) ∧
      s.buffer = (match max with | none => current | some m => current.take m) ∧
      (s.exceeded = true ↔ ∃ m, max = some m ∧ m < current.length) := by
  obtain ⟨segs, cur, infos, h, hm⟩ := hist_init max ops
  refine ⟨segs, cur, infos, h.stream_eq, h.evs_eq, h.segs_ok, ?_, ?_, ?_⟩
  · have := h.inv.agrees
    unfold State.complete
    cases hp : ((State.init max).run ops).1.parser with
    | none => rw [hp] at this; exact this
    | some p => rw [hp] at this; exact agrees_unfinished this
  · rw [h.inv.buffer, hm]
    cases max <;> rfl
  · rw [h.inv.exceeded, hm]; simp

/-- C15. When a message is complete and was not cut by the size limit, the bytes of its fragments concatenate to the
message bytes. -/
theorem C15_fragment_bytes_concat (max : Option Nat) (ops : List Op)
    (hc : ((State.init max).run ops).1.complete = true) (he : ((State.init max).run ops).1.exceeded = false) :
    ∃ before infos, ((State.init max).run ops).2.map (·.info) = before ++ infos ∧
      Message 0 ((State.init max).run ops).1.buffer infos ∧
      (infos.map ((State.init max).run ops).1.fragmentBytes).flatten = ((State.init max).run ops).1.buffer := by
  obtain ⟨segs, cur, infos, h1, h2, h3, h4, h5, h6⟩ := C15_fragments_partition max ops
  rw [hc] at h4
  simp only [if_true] at h4
  have hb : ((State.init max).run ops).1.buffer = cur := by
    rw [h5]
    cases max with
    | none => rfl
    | some m =>
      have : ¬ m < cur.length := fun hlt => by
        rw [h6.mpr ⟨m, rfl, hlt⟩] at he; simp at he
      exact List.take_of_length_le (by omega)
  refine ⟨_, infos, h2, hb ▸ h4, ?_⟩
  have := message_concat (hb ▸ h4) [] rfl
  simp only [List.nil_append] at this
  rw [funext (fragmentBytes_eq _)]
  exact this

/-- C14. The size limit: at every point of every history the stored bytes do not exceed the limit (hence the
subtraction in `dequeue_parsed_bytes` can not underflow), they are the first `m` bytes of what a
Fragmentizer without limit stores, the flag says exactly whether bytes were dropped, and the limit changes neither the
fragments reported nor the message boundaries. -/
theorem C14_size_limit (m : Nat) (ops : List Op) :
    let s := ((State.init (some m)).run ops).1
    let t := ((State.init none).run ops).1
    s.buffer.length ≤ m ∧
    s.buffer = t.buffer.take m ∧
    (s.exceeded = true ↔ m < t.buffer.length) ∧ t.exceeded = false ∧
    s.complete = t.complete ∧
    ((State.init (some m)).run ops).2.map (fun e => (e.info, e.complete)) =
      ((State.init none).run ops).2.map (fun e => (e.info, e.complete)) := by
  intro s t
  have hal := alike_run ops (State.init (some m)) (State.init none) ⟨rfl, rfl⟩
  obtain ⟨segs', cur', infos', h1', h2', h3', h4', h5', h6'⟩ := C15_fragments_partition none ops
  have hcur := sim_run m ops (State.init (some m)) (State.init none) ⟨rfl, rfl, rfl, rfl, by simp [State.init], by simp [State.init]⟩
  have hb : s.buffer = t.buffer.take m := hcur.buffer
  have hex : s.exceeded = decide (m < t.buffer.length) := hcur.exceeded
  refine ⟨?_, hb, ?_, ?_, ?_, hal.2⟩
  · rw [hb]; simp; omega
  · rw [hex]; simp
  · have : ¬ t.exceeded = true := by rw [h6']; simp
    simpa using this
  · show s.parser.isNone = t.parser.isNone
    rw [hal.1.1]

theorem unparsed_exec (s : State) (op : Op) (h : ∀ bs, op ≠ .enqueue bs) : ∃ x, s.unparsed = x ++ (s.exec op).1.unparsed := by
  cases op with
  | enqueue bs => exact absurd rfl (h bs)
  | poison => exact ⟨[], rfl⟩
  | skip => exact ⟨[], rfl⟩
  | progress =>
    have hp : (s.exec .progress).1 = s.progress.1 := by
      rcases hp : s.progress with ⟨s', o⟩
      cases o <;> simp [State.exec, hp]
    rw [hp]
    have key : ∀ (s : State) (p : Parser), ∃ x, s.unparsed = x ++ (s.progressWith p).1.unparsed := by
      intro s p
      rcases hr : p.parse s.unparsed with ⟨p', c, o⟩
      rw [progressWith_eq s p p' c o hr]
      refine ⟨s.unparsed.take c, ?_⟩
      cases o <;> simp [finish, dequeue_unparsed]
    unfold State.progress
    cases s.parser with
    | some p => exact key s p
    | none => exact key s.startMessage _

theorem unparsed_run (ops : List Op) (s : State) (h : ∀ bs, .enqueue bs ∉ ops) : ∃ x, s.unparsed = x ++ (s.run ops).1.unparsed := by
  induction ops generalizing s with
  | nil => exact ⟨[], rfl⟩
  | cons op ops ih =>
    obtain ⟨x, hx⟩ := unparsed_exec s op fun bs e => h bs (by simp [e])
    obtain ⟨y, hy⟩ := ih (s.exec op).1 fun bs hm => h bs (by simp [hm])
    exact ⟨x ++ y, by rw [hx, hy]; simp [State.run]⟩

theorem drained_unparsed (s : State) (h : s.progress.2 = none) : s.progress.1.unparsed = [] := by
  rcases hp : s.progress with ⟨s', o⟩
  rw [hp] at h
  simp only at h
  subst h
  unfold State.progress at hp
  cases hq : s.parser with
  | some p => rw [hq] at hp; obtain ⟨_, _, h2, _⟩ := progressWith_none s s' p [] hp; exact h2
  | none => rw [hq] at hp; obtain ⟨_, _, h2, _⟩ := progressWith_none _ s' _ [] hp; exact h2

theorem run_append_fst (s : State) (a b : List Op) : (s.run (a ++ b)).1 = ((s.run a).1.run b).1 := by
  induction a generalizing s with
  | nil => simp [State.run]
  | cons op a ih => simp [State.run, ih]

/-- C14. Memory: a caller that, as documented, enqueues a chunk only after `progress` had nothing more to report, never makes the
Fragmentizer hold more than the size limit and the last chunk, whatever literals are announced and however long messages are. -/
theorem C14_memory (m : Nat) (before after : List Op) (chunk : Bytes)
    (hd : Drained ((State.init (some m)).run before).1) (ha : ∀ bs, .enqueue bs ∉ after) :
    let s := ((State.init (some m)).run (before ++ [.progress, .enqueue chunk] ++ after)).1
    s.buffer.length ≤ m ∧ s.unparsed <:+ chunk ∧ s.buffer.length + s.unparsed.length ≤ m + chunk.length := by
  intro s
  have h1 : s.buffer.length ≤ m := (C14_size_limit m _).1
  have h2 : s.unparsed <:+ chunk := by
    have e : s = (((((State.init (some m)).run before).1.progress.1).enqueue chunk).run after).1 := by
      show ((State.init (some m)).run (before ++ [.progress, .enqueue chunk] ++ after)).1 = _
      rw [run_append_fst, run_append_fst]
      congr 1
      simp only [State.run, State.exec]
      rcases hp : ((State.init (some m)).run before).1.progress with ⟨s', o⟩
      cases o <;> simp
    obtain ⟨x, hx⟩ := unparsed_run after (((State.init (some m)).run before).1.progress.1.enqueue chunk) ha
    rw [← e] at hx
    refine ⟨x, ?_⟩
    rw [← hx]
    simp [State.enqueue, drained_unparsed _ hd]
  exact ⟨h1, h2, by have := h2.length_le; omega⟩

/-- Whether the current message was poisoned, read off the history: the last call that started a new
message (`skip_message`, or `progress` after completion) comes before some `poison_message`. `completeBefore` tells
whether the message was complete before each call. -/
def poisonedByHistory : List (Op × Bool) → Bool → Bool
  | [], p => p
  | (.poison, _) :: h, _ => poisonedByHistory h true
  | (.skip, _) :: h, _ => poisonedByHistory h false
  | (.progress, true) :: h, _ => poisonedByHistory h false
  | (.progress, false) :: h, p => poisonedByHistory h p
  | (.enqueue _, _) :: h, p => poisonedByHistory h p

/-- The history annotated with `is_message_complete` before each call. -/
def annotate (s : State) : List Op → List (Op × Bool)
  | [] => []
  | op :: ops => (op, s.complete) :: annotate (s.exec op).1 ops

theorem poisoned_run (ops : List Op) (s : State) (cur infos) (h : Inv s cur infos) :
    (s.run ops).1.poisoned = poisonedByHistory (annotate s ops) s.poisoned := by
  induction ops generalizing s cur infos with
  | nil => rfl
  | cons op ops ih =>
    cases op with
    | enqueue bs => exact ih (s.enqueue bs) cur infos ⟨h.agrees, h.buffer, h.exceeded⟩
    | poison => exact ih s.poison cur infos ⟨h.agrees, h.buffer, h.exceeded⟩
    | skip => exact ih s.skip [] [] (inv_start s)
    | progress =>
      obtain ⟨x, _, h2, _, h4⟩ := progress_inv s cur infos h
      have hs : (s.exec .progress).1 = s.progress.1 := by
        rcases hp : s.progress with ⟨s', o⟩
        cases o <;> simp [State.exec, hp]
      simp only [State.run, annotate]
      rw [hs]
      rw [ih _ _ _ h2, h4]
      cases s.complete <;> simp [poisonedByHistory]

/-- C17. At every point of every history: if the current message was poisoned or exceeded the limit, then
`decode_message` does not return a message, whatever the decoder. -/
theorem C17_poisoned_never_decoded {ε μ : Type} (decode : Bytes → Except ε (Bytes × μ)) (max : Option Nat)
    (ops : List Op)
    (h : poisonedByHistory (annotate (State.init max) ops) false = true ∨
      ((State.init max).run ops).1.exceeded = true) :
    (((State.init max).run ops).1.decodeMessage decode = .messageTooLong ((State.init max).run ops).1.buffer ∨
     ((State.init max).run ops).1.decodeMessage decode = .messagePoisoned ((State.init max).run ops).1.buffer) := by
  have hp := poisoned_run ops (State.init max) [] [] (inv_init max)
  rw [show (State.init max).poisoned = false from rfl] at hp
  unfold State.decodeMessage
  rcases h with h | h
  · rw [h] at hp
    rw [hp]
    by_cases he : ((State.init max).run ops).1.exceeded <;> simp [he]
  · simp [h]

/-- C17. `decode_message` returns a message only if it is the decoding of the complete, untruncated bytes
of the current message, all of them, and the message was not poisoned. -/
theorem C17_decoded_is_whole_message {ε μ : Type} (decode : Bytes → Except ε (Bytes × μ)) (max : Option Nat)
    (ops : List Op) (m : μ) (h : ((State.init max).run ops).1.decodeMessage decode = .ok m)
    (hc : ((State.init max).run ops).1.complete = true) :
    ∃ before current after infos, enqueued ops = before ++ current ++ after ∧ Message 0 current infos ∧
      decode current = .ok ([], m) ∧ poisonedByHistory (annotate (State.init max) ops) false = false := by
  have hp := poisoned_run ops (State.init max) [] [] (inv_init max)
  rw [show (State.init max).poisoned = false from rfl] at hp
  obtain ⟨segs, cur, infos, h1, h2, h3, h4, h5, h6⟩ := C15_fragments_partition max ops
  unfold State.decodeMessage at h
  split at h
  · simp at h
  · rename_i he
    split at h
    · simp at h
    · rename_i hq
      have hb : ((State.init max).run ops).1.buffer = cur := by
        rw [h5]
        cases max with
        | none => rfl
        | some m =>
          have : ¬ m < cur.length := fun hlt => he (h6.mpr ⟨m, rfl, hlt⟩)
          exact List.take_of_length_le (by omega)
      rw [hc] at h4
      refine ⟨_, cur, _, infos, h1, h4, ?_, ?_⟩
      · rw [hb] at h
        split at h
        · simp at h
        · rename_i rem m' hd
          split at h
          · rename_i hr
            simp at h hr
            rw [hd, h, hr]
          · simp at h
      · rw [← hp]; simpa using hq

/-- C17. Poisoning changes neither the fragments reported nor the message boundaries. -/
theorem C17_poison_keeps_fragments (max : Option Nat) (ops : List Op) :
    ((State.init max).run ops).2.map (fun e => (e.info, e.complete)) =
      ((State.init max).run (dropPoison ops)).2.map (fun e => (e.info, e.complete)) :=
  (alike_dropPoison ops (State.init max) (State.init max) ⟨rfl, rfl⟩).2

/-- C17. After a message is complete, the next call of `progress` starts a clean message. -/
theorem C17_next_message_clean (max : Option Nat) (ops : List Op)
    (hc : ((State.init max).run ops).1.complete = true) :
    let s := ((State.init max).run ops).1.progress.1
    s.poisoned = false ∧ ∃ x, ((State.init max).run ops).1.unparsed = x ++ s.unparsed ∧
      s.buffer = (match max with | none => x | some m => x.take m) := by
  obtain ⟨segs, cur, infos, h, hm⟩ := hist_init max ops
  obtain ⟨x, h1, h2, h3, h4⟩ := progress_inv _ cur infos h.inv
  rw [hc] at h2 h4
  refine ⟨by simpa using h4, x, h1, ?_⟩
  have := h2.buffer
  rw [h3, hm] at this
  rw [this]
  cases max <;> simp [limit]

/-! ### Non-vacuity -/

/-- A message with a literal, fed in two chunks that cut the announcement. -/
def exOps : List Op :=
  [.enqueue b!"A1 LOGIN {2", .progress, .enqueue b!"}\r\nxy z\r\nA2", .progress, .progress, .progress, .progress]

/-- The same bytes in one piece. -/
def exOps' : List Op :=
  [.enqueue b!"A1 LOGIN {2}\r\nxy z\r\nA2", .progress, .progress, .progress, .progress]

-- the hypotheses of C13 hold for two different histories, with three observations
example : Plain exOps ∧ Plain exOps' ∧ enqueued exOps = enqueued exOps' ∧
    Drained ((State.init (some 20)).run exOps).1 ∧ Drained ((State.init (some 20)).run exOps').1 ∧
    ((State.init (some 20)).run exOps).2.map (·.info) =
      [.line 0 14 (some ⟨.sync, 2⟩) .crlf, .literal 14 16, .line 16 20 none .crlf] := by
  refine ⟨?_, ?_, by decide, rfl, rfl, by decide⟩ <;> simp [Plain, exOps, exOps']

-- the hypotheses of C15 (complete, within the limit) and C17 (complete, clean) hold
example : ((State.init (some 20)).run (exOps.take 6)).1.complete = true ∧
    ((State.init (some 20)).run (exOps.take 6)).1.exceeded = false := by decide

-- the limit is really exceeded in some history
example : ((State.init (some 4)).run exOps').1.exceeded = false ∧
    ((State.init (some 4)).run (exOps'.take 4)).1.exceeded = true := by decide

-- the documented way to call the Fragmentizer, for C14_memory: a message that is longer than the limit, with a large literal
example : Drained ((State.init (some 4)).run [.progress, .enqueue b!"A LOGIN {1000000}\r\n", .progress]).1 ∧
    ((State.init (some 4)).run ([.progress, .enqueue b!"A LOGIN {1000000}\r\n", .progress] ++ [.progress, .enqueue b!"xyz"] ++ [])).1.unparsed =
      b!"xyz" := by
  refine ⟨rfl, by decide⟩

-- a poisoned history
example : poisonedByHistory (annotate (State.init none) [.enqueue b!"a\n", .poison, .progress]) false = true := by decide

-- `decode_message` succeeds in some history
example : (((State.init none).run (exOps.take 6)).1.decodeMessage
    (fun bs => (.ok ([], bs.length) : Except Unit (Bytes × Nat)))) = .ok 20 := by rfl

end Imap.Frag
