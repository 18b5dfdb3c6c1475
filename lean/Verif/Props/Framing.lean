import Verif.FramingCommand
import Verif.Props.Fragmentizer
import Verif.Props.Stability
import Verif.FragEncSpec
/-
Property C41: the decoders of the messages of a client agree with the Fragmentizer about where a message ends, and about whether
more bytes or a literal are to come.

`Message` and `Unfinished` are specified in Verif/FragSpec.lean, `QuotesClosed` and `LinesClosed` in Verif/FramingSpec.lean.
-/
set_option maxRecDepth 10000

namespace Imap

open Frag Spec

variable [Quirks]

omit [Quirks] in
/-- The messages that a client sends. -/
def Spec.FromClient (k : Codec) : Prop := k = .command ∨ k = .authenticateData ∨ k = .idleDone

theorem Frame.ready_start (x : Bytes) : Frame.Ready .out Frame.start x := Or.inl ⟨.other, rfl, fun _ => rfl⟩

/-- What `decode` consumes, and what it asks for, in terms of the automaton. -/
theorem Frame.decode_run {k : Codec} (hk : FromClient k) (x : Bytes) :
    (∀ r m, k.decode x = .ok r m → ∃ w, x = w ++ r ∧ Frame.start.run w = .ended) ∧
    (k.decode x = .incomplete → Frame.Waiting (Frame.start.run x)) ∧
    (∀ t n m, k.decode x = .literalFound t n m → (∃ t', t = some t') ∧
      ∃ m', m = some m' ∧ Frame.start.run x = .ann ⟨m', n⟩) := by
  have plain : ∀ {α : Type} {p : P α}, Frame.Tri (Frame.Ready .out) (fun _ => Frame.Done) p →
      (∀ r m, outcomePlain (p x) = .ok r m → ∃ w, x = w ++ r ∧ Frame.start.run w = .ended) ∧
      (outcomePlain (p x) = .incomplete → Frame.Waiting (Frame.start.run x)) ∧
      (∀ t n m, outcomePlain (p x) = .literalFound t n m → (∃ t', t = some t') ∧
        ∃ m', m = some m' ∧ Frame.start.run x = .ann ⟨m', n⟩) := by
    intro α p h
    refine ⟨?_, ?_, ?_⟩
    · intro r m e
      cases hp : p x <;> rw [hp] at e <;> simp [outcomePlain] at e
      obtain ⟨rfl, rfl⟩ := e
      exact h.ok (Frame.ready_start x) hp
    · intro e
      cases hp : p x <;> rw [hp] at e <;> simp [outcomePlain] at e
      exact h.inc (Frame.ready_start x) hp
    · intro t n m e
      cases hp : p x <;> rw [hp] at e <;> simp [outcomePlain] at e
  rcases hk with rfl | rfl | rfl
  · have h := Frame.tri_command
    refine ⟨?_, ?_, ?_⟩
    · intro r m e
      simp only [Codec.decode] at e
      cases hp : command x with
      | ok r' m' =>
        rw [hp] at e
        simp [outcomeCommand] at e
        obtain ⟨rfl, rfl⟩ := e
        exact h.ok (Frame.ready_start x) hp
      | failure f => rw [hp] at e; rcases f with ⟨_ | _, _, _⟩ | _ | _ | _ | _ <;> simp [outcomeCommand] at e
      | _ => rw [hp] at e; simp [outcomeCommand] at e
    · intro e
      simp only [Codec.decode] at e
      cases hp : command x with
      | incomplete => exact h.inc (Frame.ready_start x) hp
      | failure f => rw [hp] at e; rcases f with ⟨_ | _, _, _⟩ | _ | _ | _ | _ <;> simp [outcomeCommand] at e
      | _ => rw [hp] at e; simp [outcomeCommand] at e
    · intro t n m e
      simp only [Codec.decode] at e
      cases hp : command x with
      | failure f =>
        rw [hp] at e
        rcases f with ⟨_ | t', n', m'⟩ | _ | _ | _ | _ <;> simp [outcomeCommand] at e
        obtain ⟨rfl, rfl, rfl⟩ := e
        refine ⟨⟨t', rfl⟩, ?_⟩
        exact ⟨m', rfl, h.lit (Frame.ready_start x) hp⟩
      | _ => rw [hp] at e; simp [outcomeCommand] at e
  · exact plain Frame.tri_authenticateData
  · exact plain Frame.tri_idleDone

/-- C41: if the bytes of a complete message (as the Fragmentizer cuts them) are at the beginning of the input of `decode`, and quoted strings are closed
at the ends of its lines, then `decode` either returns a message and consumes exactly these bytes, or fails for good: it never asks for more
bytes, never asks for a literal, and never leaves or takes bytes. -/
theorem C41_complete_partial (k : Codec) (hk : FromClient k) (bytes : Bytes) (infos : List Info) (h : Message 0 bytes infos)
    (hc : LinesClosed bytes infos) (rest : Bytes) :
    (∃ m, k.decode (bytes ++ rest) = .ok rest m) ∨ k.decode (bytes ++ rest) = .failed := by
  have hr := Frame.run_message h [] rfl (by simpa using hc)
  obtain ⟨h1, h2, h3⟩ := Frame.decode_run hk bytes
  cases e : k.decode bytes with
  | ok r m =>
    obtain ⟨w, hw, hb⟩ := h1 r m e
    rw [hw, Frame.run_append] at hr
    have : r = [] := by
      rw [hb] at hr
      cases r with
      | nil => rfl
      | cons d r => rw [Frame.run_cons, Frame.St.step, Frame.run_over] at hr; simp at hr
    subst this
    exact .inl ⟨m, C05_ok_stable k bytes rest [] m e⟩
  | incomplete => have := h2 e; rw [hr] at this; simp [Frame.Waiting] at this
  | literalFound t n m => have := (h3 t n m e).2; rw [hr] at this; simp at this
  | failed => exact .inr (C06_failed_stable k bytes rest e)
  | panicked => exact absurd e (C08_decode_never_panics k bytes)

/-- C41: if the input of `decode` is the part of a message up to the announcement of a literal, then `decode` reports that literal, with its
length and mode, or fails for good. -/
theorem C41_announced_partial (k : Codec) (hk : FromClient k) (bytes : Bytes) (infos : List Info) (h : Unfinished 0 bytes infos)
    (hc : LinesClosed bytes infos) (start : Nat) (a : Ann) (ending : Ending)
    (ha : Info.line start bytes.length (some a) ending ∈ infos) :
    (∃ tag, k.decode bytes = .literalFound (some tag) a.length (some a.mode)) ∨ k.decode bytes = .failed := by
  have hr := Frame.run_unfinished h [] rfl (by simpa using hc)
  obtain ⟨h1, h2, h3⟩ := Frame.decode_run hk bytes
  have hr' : Frame.start.run bytes = .ann a := by
    rcases hr with ⟨a', s', e', hr, hm⟩ | ⟨_, hr⟩
    · simp only [Nat.zero_add] at hm
      rw [hr]
      congr 1
      exact Frame.same_line h hm ha
    · simp only [Nat.zero_add] at hr
      exact absurd ha (hr _ _ _)
  cases e : k.decode bytes with
  | ok r m =>
    obtain ⟨w, rfl, hb⟩ := h1 r m e
    rw [Frame.run_append] at hr'
    rw [hb] at hr'
    cases r with
    | nil => simp at hr'
    | cons d r => rw [Frame.run_cons, Frame.St.step, Frame.run_over] at hr'; simp at hr'
  | incomplete => have := h2 e; rw [hr'] at this; simp [Frame.Waiting] at this
  | literalFound t n m =>
    obtain ⟨⟨t', rfl⟩, hm⟩ := h3 t n m e
    rw [hr'] at hm
    simp at hm
    obtain ⟨rfl, rfl⟩ : m = some a.mode ∧ a.length = n := by
      obtain ⟨m', rfl, rfl⟩ := hm; exact ⟨rfl, rfl⟩
    exact .inl ⟨t', rfl⟩
  | failed => exact .inr rfl
  | panicked => exact absurd e (C08_decode_never_panics k bytes)

/-- C41: if the input of `decode` is any other unfinished part of a message, then `decode` asks for more bytes or fails for good. -/
theorem C41_waiting_partial (k : Codec) (hk : FromClient k) (bytes : Bytes) (infos : List Info) (h : Unfinished 0 bytes infos)
    (hc : LinesClosed bytes infos) (ha : ∀ start a ending, Info.line start bytes.length (some a) ending ∉ infos) :
    k.decode bytes = .incomplete ∨ k.decode bytes = .failed := by
  have hr := Frame.run_unfinished h [] rfl (by simpa using hc)
  obtain ⟨h1, h2, h3⟩ := Frame.decode_run hk bytes
  have hr' : (∃ lt q, Frame.start.run bytes = .text lt q) ∨ ∃ j, Frame.start.run bytes = .lit j := by
    rcases hr with ⟨a', s', e', hr, hm⟩ | ⟨hr, _⟩
    · simp only [Nat.zero_add] at hm
      exact absurd hm (ha _ _ _)
    · exact hr
  cases e : k.decode bytes with
  | ok r m =>
    obtain ⟨w, rfl, hb⟩ := h1 r m e
    rw [Frame.run_append] at hr'
    rw [hb] at hr'
    cases r with
    | nil => simp at hr'
    | cons d r => rw [Frame.run_cons, Frame.St.step, Frame.run_over] at hr'; simp at hr'
  | incomplete => exact .inl rfl
  | literalFound t n m =>
    have := (h3 t n m e).2
    rcases hr' with ⟨lt, q, hr'⟩ | ⟨j, hr'⟩ <;> rw [hr'] at this <;> simp at this
  | failed => exact .inr rfl
  | panicked => exact absurd e (C08_decode_never_panics k bytes)

/-- C41: whenever `decode` returns a message, then the bytes that it consumed are one complete message (as the Fragmentizer cuts them), unless
a quoted string is open at the end of one of the lines. -/
theorem C41_decoded_partial (k : Codec) (hk : FromClient k) (x rest : Bytes) (m : k.Message) (h : k.decode x = .ok rest m) :
    ∃ bytes, x = bytes ++ rest ∧
      ((∃ infos, Message 0 bytes infos ∧ LinesClosed bytes infos) ∨
       ∃ u v infos, bytes = u ++ v ∧ (Message 0 u infos ∨ Unfinished 0 u infos) ∧ ¬ LinesClosed u infos) := by
  obtain ⟨w, hw, hb⟩ := (Frame.decode_run hk x).1 rest m h
  refine ⟨w, hw, ?_⟩
  simpa using Frame.run_spec w.length w (Nat.le_refl _) 0 [] rfl hb

/-- The hypotheses are met by a command with a literal. -/
example := @C41_decoded_partial Quirks.default .command (.inl rfl) b!"A LOGIN {1}\r\na b\r\nB" b!"B"
  ⟨b!"A", .login (.string (.literal ⟨b!"a", .sync⟩)) (.atom b!"b")⟩ (by with_unfolding_all rfl)

/-- C41: at every point of every history of a Fragmentizer, if the current message is complete, and quoted strings are closed at the ends of its
lines, then `decode_message` returns a message or one of the errors "malformed", "too long" and "poisoned": it never reports that bytes are
missing, or a literal, or that bytes remain. -/
theorem C41_decode_message_partial (k : Codec) (hk : FromClient k) (max : Option Nat) (ops : List Op)
    (hc : ((State.init max).run ops).1.complete = true) :
    ∃ before current infos, ((State.init max).run ops).2.map (·.info) = before ++ infos ∧ Message 0 current infos ∧
      (LinesClosed current infos →
        (∃ m, ((State.init max).run ops).1.decodeMessage k.decoder = .ok m) ∨
        ((State.init max).run ops).1.decodeMessage k.decoder = .decodingFailure .failed ∨
        (∃ b, ((State.init max).run ops).1.decodeMessage k.decoder = .messageTooLong b) ∨
        ∃ b, ((State.init max).run ops).1.decodeMessage k.decoder = .messagePoisoned b) := by
  obtain ⟨segs, cur, infos, _, h2, _, h4, h5, h6⟩ := C15_fragments_partition max ops
  simp only [hc, if_true] at h4
  refine ⟨_, cur, infos, h2, h4, ?_⟩
  intro hcl
  unfold State.decodeMessage
  by_cases he : ((State.init max).run ops).1.exceeded = true
  · rw [if_pos he]; exact .inr (.inr (.inl ⟨_, rfl⟩))
  rw [if_neg he]
  by_cases hp : ((State.init max).run ops).1.poisoned = true
  · rw [if_pos hp]; exact .inr (.inr (.inr ⟨_, rfl⟩))
  rw [if_neg hp]
  have hb : ((State.init max).run ops).1.buffer = cur := by
    rw [h5]
    cases max with
    | none => rfl
    | some m =>
      have : ¬ m < cur.length := fun hlt => he (h6.mpr ⟨m, rfl, hlt⟩)
      exact List.take_of_length_le (by omega)
  rw [hb]
  have := C41_complete_partial k hk cur infos h4 hcl []
  rw [List.append_nil] at this
  rcases this with ⟨m, hm⟩ | hm
  · exact .inl ⟨m, by simp [Codec.decoder, hm]⟩
  · exact .inr (.inl (by simp [Codec.decoder, hm]))

/-! ### Concrete cases -/

section Examples
omit [Quirks]

/-- A command with a literal and a quoted string. -/
theorem C41_message_example : Message 0 b!"A1 LOGIN {1}\r\nx \"y\"\r\n"
    [.line 0 14 (some ⟨.sync, 1⟩) .crlf, .literal 14 15, .line 15 21 none .crlf] :=
  .more (l := b!"A1 LOGIN {1}\r\n") (lit := b!"x") (rest := b!" \"y\"\r\n") ⟨b!"A1 LOGIN {1}\r", rfl, by decide⟩
    ((announces_body b!"A1 LOGIN {1}\r" _).2 rfl) ⟨b!"A1 LOGIN {1}", rfl⟩ rfl
    (.last ⟨b!" \"y\"\r", rfl, by decide⟩
      (fun a h => by
        have := (announces_body b!" \"y\"\r" a).1 h
        cases this) ⟨b!" \"y\"", rfl⟩)

theorem C41_closed_example : LinesClosed b!"A1 LOGIN {1}\r\nx \"y\"\r\n"
    [.line 0 14 (some ⟨.sync, 1⟩) .crlf, .literal 14 15, .line 15 21 none .crlf] := by
  intro s t o e h
  simp at h
  rcases h with ⟨rfl, rfl, rfl, rfl⟩ | ⟨rfl, rfl, rfl, rfl⟩ <;> decide

example : (∃ m, @Codec.decode Quirks.default .command (b!"A1 LOGIN {1}\r\nx \"y\"\r\n" ++ b!"A2 N") = .ok b!"A2 N" m) ∨
    @Codec.decode Quirks.default .command (b!"A1 LOGIN {1}\r\nx \"y\"\r\n" ++ b!"A2 N") = .failed :=
  @C41_complete_partial Quirks.default .command (.inl rfl) _ _ C41_message_example C41_closed_example _

/-- The first case does occur. -/
example : @Codec.decode Quirks.default .command (b!"A1 LOGIN {1}\r\nx \"y\"\r\n" ++ b!"A2 N") =
    .ok b!"A2 N" ⟨b!"A1", .login (.string (.literal ⟨b!"x", .sync⟩)) (.string (.quoted b!"y"))⟩ := by
  with_unfolding_all rfl

/-- The beginning of that command, up to the announcement of the literal. -/
theorem C41_unfinished_example : Unfinished 0 b!"A1 LOGIN {1}\r\n" [.line 0 14 (some ⟨.sync, 1⟩) .crlf] :=
  .inLiteral (l := b!"A1 LOGIN {1}\r\n") (lit := []) ⟨b!"A1 LOGIN {1}\r", rfl, by decide⟩
    ((announces_body b!"A1 LOGIN {1}\r" _).2 rfl) ⟨b!"A1 LOGIN {1}", rfl⟩ (by decide)

example : (∃ tag, @Codec.decode Quirks.default .command b!"A1 LOGIN {1}\r\n" = .literalFound (some tag) 1 (some .sync)) ∨
    @Codec.decode Quirks.default .command b!"A1 LOGIN {1}\r\n" = .failed :=
  @C41_announced_partial Quirks.default .command (.inl rfl) _ _ C41_unfinished_example (by
    intro s t o e h
    simp at h
    obtain ⟨rfl, rfl, rfl, rfl⟩ := h
    decide) 0 ⟨.sync, 1⟩ .crlf (List.mem_singleton.2 rfl)

example : @Codec.decode Quirks.default .command b!"A1 LOGIN {1}\r\n" = .literalFound (some b!"A1") 1 (some .sync) := by
  with_unfolding_all rfl

example : @Codec.decode Quirks.default .command b!"A1 LOGIN \"x" = .incomplete ∨
    @Codec.decode Quirks.default .command b!"A1 LOGIN \"x" = .failed :=
  @C41_waiting_partial Quirks.default .command (.inl rfl) _ [] (.inLine (by decide)) (by intro s t o e h; simp at h)
    (by intro s t o h; simp at h)

/-- The Fragmentizer after that command. -/
example : ((State.init none).run [.enqueue b!"A1 LOGIN {1}\r\nx \"y\"\r\nA2", .progress, .progress, .progress]).1.complete = true := by
  decide

/-! ### The full statement is false -/

/-- C41 is false of the code without the hypothesis on quoted strings: the Fragmentizer says that the message is complete, but the decoder, which
accepts line breaks in quoted strings, asks for more bytes. -/
theorem C41_fails_waiting :
    ((State.init none).run [.enqueue b!"A1 LOGIN \"a\r\n", .progress]).1.complete = true ∧
    ((State.init none).run [.enqueue b!"A1 LOGIN \"a\r\n", .progress]).1.buffer = b!"A1 LOGIN \"a\r\n" ∧
    @Codec.decode Quirks.default .command b!"A1 LOGIN \"a\r\n" = .incomplete :=
  ⟨by decide, by decide, by with_unfolding_all rfl⟩

/-- C41 is false of the code without the hypothesis on quoted strings: one input is three messages for the Fragmentizer, the second of which
deletes a mailbox, but a single LOGIN command for the decoder. -/
theorem C41_fails_decoded :
    ((State.init none).run [.enqueue b!"A1 LOGIN \"a\r\nA2 DELETE b\r\n\" c\r\n", .progress, .progress, .progress]).2.map
      (fun e => (e.message, e.complete)) =
      [(b!"A1 LOGIN \"a\r\n", true), (b!"A2 DELETE b\r\n", true), (b!"\" c\r\n", true)] ∧
    @Codec.decode Quirks.default .command b!"A2 DELETE b\r\n" = .ok [] ⟨b!"A2", .delete (.other (.atom b!"b"))⟩ ∧
    @Codec.decode Quirks.default .command b!"A1 LOGIN \"a\r\nA2 DELETE b\r\n\" c\r\n" =
      .ok [] ⟨b!"A1", .login (.string (.quotedUtf8 b!"a\r\nA2 DELETE b\r\n")) (.atom b!"c")⟩ :=
  ⟨by decide, by with_unfolding_all rfl, by with_unfolding_all rfl⟩

end Examples

end Imap
