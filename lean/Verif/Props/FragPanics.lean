import Verif.FragPanics
import Verif.Props.Fragmentizer
/-
C70: the Fragmentizer does not panic.
-/
namespace Imap.Frag

/-- The parser has not read backwards. -/
def Parser.ordered : Parser → Prop
  | .line p => p.start ≤ p.stop
  | .literal p => p.start ≤ p.stop

theorem line_ordered (bs : Bytes) : ∀ p : LineParser, p.start ≤ p.stop →
    (p.parse bs).1.start ≤ (p.parse bs).1.stop ∧ ∀ i, (p.parse bs).2.2 = some i → i.bounds.1 ≤ i.bounds.2 := by
  induction bs with
  | nil => intro p h; exact ⟨h, by simp [LineParser.parse]⟩
  | cons b bs ih =>
    intro p h
    unfold LineParser.parse
    dsimp only
    split
    · exact ⟨by dsimp only; omega, by rintro i ⟨rfl⟩; simp only [Info.bounds]; omega⟩
    · exact ih _ (by dsimp only; omega)

theorem parse_ordered (p : Parser) (bs : Bytes) (h : p.ordered) :
    (p.parse bs).1.ordered ∧ ∀ i, (p.parse bs).2.2 = some i → i.bounds.1 ≤ i.bounds.2 := by
  cases p with
  | line p => exact line_ordered bs p h
  | literal p =>
    simp only [Parser.ordered] at h
    simp only [Parser.parse, LiteralParser.parse]
    split
    · exact ⟨by simp only [Parser.ordered]; omega, by simp⟩
    · exact ⟨by simp only [Parser.ordered]; omega, by rintro i ⟨rfl⟩; simp only [Info.bounds]; omega⟩

theorem next_ordered (i : Info) : ∀ p, nextParser i = some p → p.ordered := by
  intro p h
  rcases i with ⟨a, b, _ | n, e⟩ | ⟨a, b⟩ <;> simp [nextParser] at h <;> subst h <;>
    simp [Parser.ordered, LiteralParser.new, LineParser.new]

def State.ordered (s : State) : Prop := ∀ p, s.parser = some p → p.ordered

theorem progressWith_ordered (s : State) (p : Parser) (h : p.ordered) :
    (s.progressWith p).1.ordered ∧ ∀ i, (s.progressWith p).2 = some i → i.bounds.1 ≤ i.bounds.2 := by
  obtain ⟨h1, h2⟩ := parse_ordered p s.unparsed h
  unfold State.progressWith
  dsimp only
  split
  · next info e => exact ⟨fun q hq => next_ordered info q hq, by rintro i ⟨rfl⟩; exact h2 _ e⟩
  · refine ⟨fun q hq => ?_, by simp⟩
    rw [dequeue_parser] at hq
    cases hq
    exact h1

theorem progress_ordered (s : State) (h : s.ordered) :
    s.progress.1.ordered ∧ ∀ i, s.progress.2 = some i → i.bounds.1 ≤ i.bounds.2 := by
  unfold State.progress
  split
  · next p e => exact progressWith_ordered s p (h p e)
  · exact progressWith_ordered _ _ (by simp [Parser.ordered, LineParser.new])

theorem run_ordered (ops : List Op) : ∀ s : State, s.ordered → ∀ e ∈ (s.run ops).2, e.info.bounds.1 ≤ e.info.bounds.2 := by
  induction ops with
  | nil => intro s _ e he; simp [State.run] at he
  | cons op ops ih =>
    intro s h e he
    simp only [State.run, List.mem_append] at he
    have key : (s.exec op).1.ordered ∧ ∀ e ∈ (s.exec op).2, e.info.bounds.1 ≤ e.info.bounds.2 := by
      cases op with
      | enqueue bs => exact ⟨h, by simp [State.exec]⟩
      | poison => exact ⟨h, by simp [State.exec]⟩
      | skip =>
        refine ⟨fun p hp => ?_, by simp [State.exec]⟩
        simp only [State.exec, State.skip, State.startMessage] at hp
        cases hp
        simp [Parser.ordered, LineParser.new]
      | progress =>
        have := progress_ordered s h
        simp only [State.exec]
        rcases hp : s.progress with ⟨s', _ | i⟩ <;> rw [hp] at this
        · exact ⟨this.1, by simp⟩
        · exact ⟨this.1, by simpa [State.observe] using this.2 i rfl⟩
    rcases he with he | he
    · exact key.2 e he
    · exact ih _ key.1 e he

theorem init_ordered (m : Option Nat) : (State.init m).ordered := by
  intro p hp
  simp only [State.init] at hp
  cases hp
  simp [Parser.ordered, LineParser.new]

theorem parse?_eq (p : Parser) (bs : Bytes) : p.parse? bs = some (p.parse bs) := by
  cases p with
  | line p => rfl
  | literal p =>
    simp only [Parser.parse?, LiteralParser.parse?, Parser.parse, LiteralParser.parse]
    split
    · rw [if_neg (by omega)]; rfl
    · rfl

theorem progressWith?_eq (s : State) (p : Parser) (h : ∀ m, s.maxSize = some m → s.buffer.length ≤ m) :
    s.progressWith? p = some (s.progressWith p) := by
  have hc := parse_count_le p s.unparsed
  simp only [State.progressWith?, parse?_eq, Option.bind_some, State.progressWith, State.dequeue?]
  rw [if_neg (by omega)]
  cases e : s.maxSize with
  | none => simp only [Option.map_some]; rfl
  | some m => simp only [if_neg (Nat.not_lt.2 (h m e)), Option.map_some]; rfl

/-- C70: whatever the history of calls was, the next call of `progress` does not panic. -/
theorem C70_progress (m : Option Nat) (ops : List Op) :
    ((State.init m).run ops).1.progress? = some ((State.init m).run ops).1.progress := by
  obtain ⟨segs, cur, infos, h, hm⟩ := hist_init m ops
  have hb : ∀ k, ((State.init m).run ops).1.maxSize = some k → ((State.init m).run ops).1.buffer.length ≤ k := by
    intro k hk
    rw [h.inv.buffer, hk]
    simp only [limit, List.length_take]
    omega
  unfold State.progress? State.progress
  cases ((State.init m).run ops).1.parser with
  | some p => exact progressWith?_eq _ p hb
  | none => exact progressWith?_eq _ _ fun k _ => by simp [State.startMessage]

/-- C70: `fragment_bytes` does not panic on a fragment that `progress` returned, at whatever time it is called: after more calls, for a
later message, or even on another Fragmentizer. -/
theorem C70_fragment_bytes (m m' : Option Nat) (ops ops' : List Op) (e : Event) (he : e ∈ ((State.init m).run ops).2) :
    ((State.init m').run ops').1.fragmentBytes? e.info = some (((State.init m').run ops').1.fragmentBytes e.info) := by
  have h := run_ordered ops _ (init_ordered m) e he
  simp only [State.fragmentBytes?]
  rw [if_pos ⟨by omega, by omega⟩]
  cases e.info <;> rfl

/-- C70, the limit: `FragmentInfo` has public fields. With one that no call of `progress` returned, `fragment_bytes` can panic. -/
theorem C70_fails_handmade : ∃ (ops : List Op) (i : Info), ((State.init none).run ops).1.fragmentBytes? i = none :=
  ⟨[.enqueue b!"A NOOP\r\n", .progress], .literal 3 1, by decide +kernel⟩

/-! The first line of a message, looked up in that message and after the next, shorter message has begun. -/

example : (((State.init (some 100)).run [.enqueue b!"A LOGIN {3}\r\nabc b\r\nx\r\n", .progress, .progress]).2.map (·.info)).getLast? =
    some (.literal 13 16) := by decide +kernel
example : ((State.init (some 100)).run [.enqueue b!"A LOGIN {3}\r\nabc b\r\nx\r\n", .progress, .progress]).1.fragmentBytes? (.literal 13 16) =
    some b!"abc" := by decide +kernel
example : ((State.init (some 100)).run [.enqueue b!"A LOGIN {3}\r\nabc b\r\nx\r\n", .progress, .progress, .progress, .progress]).1.fragmentBytes?
    (.literal 13 16) = some [] := by decide +kernel
example : (((State.init (some 4)).run [.enqueue b!"A NOOP\r\n"]).1.progress?).isSome = true := by decide +kernel
example : (⟨[], some 1, false, false, b!"ab", some (.line (.new 0))⟩ : State).progress? = none := by decide +kernel

end Imap.Frag
