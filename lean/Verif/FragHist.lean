import Verif.FragInv
namespace Imap.Frag

structure Hist (sk : Prop) (s : State) (stream : Bytes) (evs : List Info)
    (segs : List (Bytes × List Info)) (cur : Bytes) (infos : List Info) : Prop where
  stream_eq : stream = (segs.map (·.1)).flatten ++ cur ++ s.unparsed
  evs_eq : evs = (segs.map (·.2)).flatten ++ infos
  segs_ok : ∀ seg ∈ segs, Message 0 seg.1 seg.2 ∨ (sk ∧ Unfinished 0 seg.1 seg.2)
  inv : Inv s cur infos

def opBytes : Op → Bytes
  | .enqueue bs => bs
  | _ => []

theorem hist_exec (sk : Prop) (s : State) (stream : Bytes) (evs : List Info) (segs cur infos) (op : Op)
    (hsk : op = .skip → sk) (h : Hist sk s stream evs segs cur infos) :
    ∃ segs' cur' infos', Hist sk (s.exec op).1 (stream ++ opBytes op) (evs ++ (s.exec op).2.map (·.info)) segs' cur' infos'
      ∧ (s.exec op).1.maxSize = s.maxSize := by
  cases op with
  | enqueue bs =>
    refine ⟨segs, cur, infos, ⟨?_, ?_, h.segs_ok, ?_⟩, rfl⟩
    · simp [State.exec, State.enqueue, opBytes, h.stream_eq]
    · simp [State.exec, h.evs_eq]
    · exact ⟨h.inv.agrees, h.inv.buffer, h.inv.exceeded⟩
  | poison =>
    refine ⟨segs, cur, infos, ⟨?_, ?_, h.segs_ok, ?_⟩, rfl⟩
    · simp [State.exec, State.poison, opBytes, h.stream_eq]
    · simp [State.exec, h.evs_eq]
    · exact ⟨h.inv.agrees, h.inv.buffer, h.inv.exceeded⟩
  | skip =>
    refine ⟨segs ++ [(cur, infos)], [], [], ⟨?_, ?_, ?_, ?_⟩, rfl⟩
    · simp [State.exec, State.skip, State.startMessage, opBytes, h.stream_eq]
    · simp [State.exec, h.evs_eq]
    · intro seg hseg
      simp at hseg
      rcases hseg with hseg | rfl
      · exact h.segs_ok _ hseg
      · have := h.inv.agrees
        cases hp : s.parser with
        | none => rw [hp] at this; exact .inl this
        | some p => rw [hp] at this; exact .inr ⟨hsk rfl, agrees_unfinished this⟩
    · exact inv_start s
  | progress =>
    obtain ⟨x, h1, h2, h3, h4⟩ := progress_inv s cur infos h.inv
    have hex : (s.exec .progress).1 = s.progress.1 ∧ (s.exec .progress).2.map (·.info) = s.progress.2.toList := by
      rcases hp : s.progress with ⟨s', o⟩
      cases o <;> simp [State.exec, hp, State.observe]
    rw [hex.1, hex.2]
    by_cases hc : s.complete
    · simp only [hc, if_true] at h2
      refine ⟨segs ++ [(cur, infos)], x, s.progress.2.toList, ⟨?_, ?_, ?_, ?_⟩, h3⟩
      · simp [opBytes, h.stream_eq, h1]
      · simp [h.evs_eq]
      · intro seg hseg
        simp at hseg
        rcases hseg with hseg | rfl
        · exact h.segs_ok _ hseg
        · have := h.inv.agrees
          unfold State.complete at hc
          cases hp : s.parser with
          | none => rw [hp] at this; exact .inl this
          | some p => rw [hp] at hc; simp at hc
      · simpa using h2
    · simp only [hc] at h2
      refine ⟨segs, cur ++ x, infos ++ s.progress.2.toList, ⟨?_, ?_, h.segs_ok, h2⟩, h3⟩
      · simp [opBytes, h.stream_eq, h1]
      · simp [h.evs_eq]

theorem hist_run (sk : Prop) (ops : List Op) (hsk : Op.skip ∈ ops → sk) (s : State) (stream evs segs cur infos)
    (h : Hist sk s stream evs segs cur infos) :
    ∃ segs' cur' infos', Hist sk (s.run ops).1 (stream ++ enqueued ops) (evs ++ (s.run ops).2.map (·.info)) segs' cur' infos'
      ∧ (s.run ops).1.maxSize = s.maxSize := by
  induction ops generalizing s stream evs segs cur infos with
  | nil => exact ⟨segs, cur, infos, by simpa [State.run, enqueued] using h, rfl⟩
  | cons op ops ih =>
    obtain ⟨segs', cur', infos', h', hm⟩ := hist_exec sk s stream evs segs cur infos op
      (fun e => hsk (by simp [e])) h
    obtain ⟨a, b, c, hh, hm'⟩ := ih (fun e => hsk (by simp [e])) _ _ _ _ _ _ h'
    refine ⟨a, b, c, ?_, ?_⟩
    · have e : enqueued (op :: ops) = opBytes op ++ enqueued ops := by cases op <;> simp [enqueued, opBytes]
      simp only [State.run, e, List.map_append, ← List.append_assoc]
      exact hh
    · simp only [State.run]; rw [hm', hm]

theorem hist_init (m : Option Nat) (ops : List Op) :
    ∃ segs cur infos, Hist (Op.skip ∈ ops) ((State.init m).run ops).1 (enqueued ops)
      (((State.init m).run ops).2.map (·.info)) segs cur infos ∧ ((State.init m).run ops).1.maxSize = m := by
  have := hist_run (Op.skip ∈ ops) ops id (State.init m) [] [] [] [] []
    ⟨by simp [State.init], by simp, by simp, inv_init m⟩
  simpa [show (State.init m).maxSize = m from rfl] using this

/-! ### Fragment bytes -/

def slice (m : Bytes) : Info → Bytes
  | .line start stop _ _ => (m.take stop).drop start
  | .literal start stop => (m.take stop).drop start

theorem fragmentBytes_eq (s : State) (i : Info) : s.fragmentBytes i = slice s.buffer i := by
  have key : ∀ (m : Bytes) (a b : Nat), (m.take (min b m.length)).drop (min a m.length) = (m.take b).drop a := by
    intro m a b
    have e : m.take (min b m.length) = m.take b := by
      by_cases hb : b ≤ m.length
      · rw [Nat.min_eq_left hb]
      · rw [Nat.min_eq_right (by omega)]; simp [List.take_of_length_le (show m.length ≤ b by omega)]
    rw [e]
    by_cases ha : a ≤ m.length
    · rw [Nat.min_eq_left ha]
    · rw [Nat.min_eq_right (by omega), List.drop_eq_nil_of_le (by simp; omega), List.drop_eq_nil_of_le (by simp; omega)]
  cases i <;> simp [State.fragmentBytes, slice, key]

theorem slice_mid (pre m rest : Bytes) : ((pre ++ (m ++ rest)).take (pre.length + m.length)).drop pre.length = m := by
  rw [List.take_append, List.drop_append]
  simp [List.take_of_length_le]

theorem message_concat {start m infos} (h : Message start m infos) (pre : Bytes) (hp : pre.length = start) :
    (infos.map (slice (pre ++ m))).flatten = m := by
  induction h generalizing pre with
  | last _ _ _ =>
    rename_i start l ending _ _ _
    have := slice_mid pre l []
    simp at this
    simp [slice, ← hp, this]
  | more _ _ _ _ _ ih =>
    rename_i start l a ending lit rest infos _ _ _ _ _
    have h1 := slice_mid pre l (lit ++ rest)
    have h2 := slice_mid (pre ++ l) lit rest
    have h3 := ih (pre ++ l ++ lit) (by simp [hp]; omega)
    simp only [List.append_assoc, List.length_append] at h1 h2 h3
    simp only [List.map_cons, List.flatten_cons, slice, ← hp, List.append_assoc, h1, h2, h3]

/-! ### Runs that differ in the limit or in poison calls -/

theorem dequeue_parser (s : State) (c : Nat) : (s.dequeue c).parser = s.parser := by
  unfold State.dequeue
  cases s.maxSize with
  | none => simp
  | some m => simp only; split <;> simp

theorem parser_progress (s t : State) (hp : s.parser = t.parser) (hu : s.unparsed = t.unparsed) :
    s.progress.1.parser = t.progress.1.parser ∧ s.progress.1.unparsed = t.progress.1.unparsed ∧
    s.progress.2 = t.progress.2 := by
  have key : ∀ (s t : State) (p : Parser), s.unparsed = t.unparsed →
      (s.progressWith p).1.parser = (t.progressWith p).1.parser ∧
      (s.progressWith p).1.unparsed = (t.progressWith p).1.unparsed ∧ (s.progressWith p).2 = (t.progressWith p).2 := by
    intro s t p h
    rcases hr : p.parse s.unparsed with ⟨p', c, o⟩
    rw [progressWith_eq s p p' c o hr, progressWith_eq t p p' c o (h ▸ hr)]
    cases o <;> simp [finish, dequeue_unparsed, dequeue_parser, h]
  unfold State.progress
  rw [hp]
  cases t.parser with
  | some p => exact key s t p hu
  | none => exact key s.startMessage t.startMessage _ hu

/-- Two states that fragment alike. -/
def Alike (s t : State) : Prop := s.parser = t.parser ∧ s.unparsed = t.unparsed

def Event.shape (e : Event) : Info × Bool := (e.info, e.complete)

theorem alike_exec (s t : State) (op : Op) (h : Alike s t) :
    Alike (s.exec op).1 (t.exec op).1 ∧ (s.exec op).2.map Event.shape = (t.exec op).2.map Event.shape := by
  obtain ⟨h1, h2⟩ := h
  cases op with
  | enqueue bs => exact ⟨⟨h1, by simp [State.exec, State.enqueue, h2]⟩, rfl⟩
  | poison => exact ⟨⟨h1, h2⟩, rfl⟩
  | skip => exact ⟨⟨rfl, h2⟩, rfl⟩
  | progress =>
    obtain ⟨a, b, c⟩ := parser_progress s t h1 h2
    rcases hs : s.progress with ⟨s', o⟩
    rcases ht : t.progress with ⟨t', o'⟩
    rw [hs, ht] at a b c
    simp at a b c
    subst c
    cases o <;> simp [State.exec, hs, ht, Alike, a, b, Event.shape, State.observe, State.complete]

theorem alike_run (ops : List Op) (s t : State) (h : Alike s t) :
    Alike (s.run ops).1 (t.run ops).1 ∧ (s.run ops).2.map Event.shape = (t.run ops).2.map Event.shape := by
  induction ops generalizing s t with
  | nil => exact ⟨h, rfl⟩
  | cons op ops ih =>
    have h1 := alike_exec s t op h
    have h2 := ih _ _ h1.1
    exact ⟨h2.1, by simp [State.run, h1.2, h2.2]⟩

/-- The limited state `s` simulates the unlimited state `t`. -/
structure Sim (m : Nat) (s t : State) : Prop where
  parser : s.parser = t.parser
  unparsed : s.unparsed = t.unparsed
  smax : s.maxSize = some m
  tmax : t.maxSize = none
  buffer : s.buffer = t.buffer.take m
  exceeded : s.exceeded = decide (m < t.buffer.length)

theorem sim_dequeue (m : Nat) (s t : State) (c : Nat) (hc : c ≤ t.unparsed.length) (h : Sim m s t) :
    Sim m (s.dequeue c) (t.dequeue c) := by
  obtain ⟨h1, h2, h3, h4, h5, h6⟩ := h
  have hl : s.buffer.length = min m t.buffer.length := by rw [h5]; simp
  have hc' : min c t.unparsed.length = c := by omega
  unfold State.dequeue
  rw [h3, h4]
  by_cases h : m - s.buffer.length < c
  · refine ⟨?_, ?_, ?_, ?_, ?_, ?_⟩ <;> simp [h, h1, h2, h3, h4]
    · rw [List.take_append, ← h5]
      congr 1
      rw [hl]
      by_cases hm : m ≤ t.buffer.length
      · have e1 : m - min m t.buffer.length = 0 := by omega
        have e2 : m - t.buffer.length = 0 := by omega
        rw [e1, e2]
      · rw [Nat.min_eq_right (by omega), List.take_take]
    · omega
  · refine ⟨?_, ?_, ?_, ?_, ?_, ?_⟩ <;> simp [h, h1, h2, h3, h4]
    · rw [List.take_append, ← h5]
      congr 1
      rw [List.take_of_length_le (i := m - t.buffer.length)]
      simp
      omega
    · rw [h6]
      simp
      omega

theorem sim_progressWith (m : Nat) (s t : State) (p : Parser) (h : Sim m s t) :
    Sim m (s.progressWith p).1 (t.progressWith p).1 := by
  rcases hr : p.parse t.unparsed with ⟨p', c, o⟩
  have hc : c ≤ t.unparsed.length := by have := parse_count_le p t.unparsed; rw [hr] at this; simpa using this
  rw [progressWith_eq t p p' c o hr, progressWith_eq s p p' c o (by rw [h.unparsed, hr])]
  have := sim_dequeue m { s with parser := some p' } { t with parser := some p' } c hc
    ⟨rfl, h.unparsed, h.smax, h.tmax, h.buffer, h.exceeded⟩
  cases o with
  | none => exact this
  | some i => exact ⟨rfl, this.unparsed, this.smax, this.tmax, this.buffer, this.exceeded⟩

theorem sim_exec (m : Nat) (s t : State) (op : Op) (h : Sim m s t) : Sim m (s.exec op).1 (t.exec op).1 := by
  cases op with
  | enqueue bs => exact ⟨h.parser, by simp [State.exec, State.enqueue, h.unparsed], h.smax, h.tmax, h.buffer, h.exceeded⟩
  | poison => exact ⟨h.parser, h.unparsed, h.smax, h.tmax, h.buffer, h.exceeded⟩
  | skip => exact ⟨rfl, h.unparsed, h.smax, h.tmax, by simp [State.exec, State.skip, State.startMessage],
      by simp [State.exec, State.skip, State.startMessage]⟩
  | progress =>
    have hs : ∀ s : State, (s.exec .progress).1 = s.progress.1 := by
      intro s
      rcases hp : s.progress with ⟨s', o⟩
      cases o <;> simp [State.exec, hp]
    rw [hs, hs]
    unfold State.progress
    rw [h.parser]
    cases t.parser with
    | some p => exact sim_progressWith m s t p h
    | none =>
      exact sim_progressWith m s.startMessage t.startMessage _
        ⟨rfl, h.unparsed, h.smax, h.tmax, by simp [State.startMessage], by simp [State.startMessage]⟩

theorem sim_run (m : Nat) (ops : List Op) (s t : State) (h : Sim m s t) : Sim m (s.run ops).1 (t.run ops).1 := by
  induction ops generalizing s t with
  | nil => exact h
  | cons op ops ih => exact ih _ _ (sim_exec m s t op h)

theorem alike_dropPoison (ops : List Op) (s t : State) (h : Alike s t) :
    Alike (s.run ops).1 (t.run (dropPoison ops)).1 ∧
    (s.run ops).2.map Event.shape = (t.run (dropPoison ops)).2.map Event.shape := by
  induction ops generalizing s t with
  | nil => exact ⟨h, rfl⟩
  | cons op ops ih =>
    cases op with
    | poison => exact ih s.poison t h
    | enqueue bs =>
      have h1 := alike_exec s t (.enqueue bs) h
      have h2 := ih _ _ h1.1
      exact ⟨h2.1, h2.2⟩
    | skip =>
      have h1 := alike_exec s t .skip h
      have h2 := ih _ _ h1.1
      exact ⟨h2.1, h2.2⟩
    | progress =>
      have h1 := alike_exec s t .progress h
      have h2 := ih _ _ h1.1
      exact ⟨h2.1, by simp [dropPoison, State.run, h1.2] at h2 ⊢; exact h2.2⟩

end Imap.Frag
