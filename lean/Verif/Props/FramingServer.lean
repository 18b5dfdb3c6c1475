import Verif.FramingServer
import Verif.Props.Handshake
/-
Property C45: how the decoders of the messages of a server cut the input into messages. Greetings, status responses and command
continuation requests are one line; data responses are messages of a reader that knows quoted strings and literals.

`IsLine` and `Message` are specified in Verif/FragSpec.lean, `QuotedMessage`, `QuotedUnfinished` and `OpenContinuation` in
Verif/FramingSpec.lean.
-/
set_option maxRecDepth 10000

namespace Imap

open Frag Spec

variable [Quirks]

/-! ### Greetings -/

/-- C45: what `decode` consumes for a greeting is one line; it asks for more bytes only if there is no line yet; it never asks for a literal. -/
theorem C45_greeting (x : Bytes) :
    (∀ rest m, Codec.greeting.decode x = .ok rest m → ∃ line, x = line ++ rest ∧ IsLine line) ∧
    (Codec.greeting.decode x = .incomplete → (10 : UInt8) ∉ x) ∧
    (∀ tag n mode, Codec.greeting.decode x ≠ .literalFound tag n mode) := by
  have h := Frame.ln_greeting
  refine ⟨?_, ?_, ?_⟩
  · intro r m e
    simp only [Codec.decode] at e
    cases hp : greeting x <;> rw [hp] at e <;> simp [outcomePlain] at e
    obtain ⟨rfl, rfl⟩ := e
    exact h.ok hp
  · intro e
    simp only [Codec.decode] at e
    cases hp : greeting x <;> rw [hp] at e <;> simp [outcomePlain] at e
    exact h.inc hp
  · intro t n m e
    simp only [Codec.decode] at e
    cases hp : greeting x <;> rw [hp] at e <;> simp [outcomePlain] at e

omit [Quirks] in
theorem IsLine.unique {l l' r r' : Bytes} (h : IsLine l) (h' : IsLine l') (e : l ++ r = l' ++ r') : l = l' ∧ r = r' := by
  obtain ⟨b, rfl, hb⟩ := h
  obtain ⟨b', rfl, hb'⟩ := h'
  induction b generalizing b' with
  | nil =>
    cases b' with
    | nil => simpa using e
    | cons d b' => simp at e hb'; exact absurd e.1 hb'.1
  | cons d b ih =>
    cases b' with
    | nil => simp at e hb; exact absurd e.1.symm hb.1
    | cons d' b' =>
      simp at e hb hb'
      obtain ⟨rfl, e⟩ := e
      have := ih hb.2 b' hb'.2 (by simpa using e)
      simpa using this

/-- C45: if the input begins with a line, then `decode` returns a greeting and consumes exactly that line, or fails for good. -/
theorem C45_greeting_complete (line : Bytes) (h : IsLine line) (rest : Bytes) :
    (∃ m, Codec.greeting.decode (line ++ rest) = .ok rest m) ∨ Codec.greeting.decode (line ++ rest) = .failed := by
  obtain ⟨h1, h2, h3⟩ := C45_greeting (line ++ rest)
  cases e : Codec.greeting.decode (line ++ rest) with
  | ok r m =>
    obtain ⟨l, hl, hl'⟩ := h1 r m e
    obtain ⟨-, rfl⟩ := IsLine.unique h hl' hl
    exact .inl ⟨m, rfl⟩
  | incomplete =>
    have := h2 e
    obtain ⟨b, rfl, -⟩ := h
    simp at this
  | literalFound t n m => exact absurd e (h3 t n m)
  | failed => exact .inr rfl
  | panicked => exact absurd e (C08_decode_never_panics _ _)

/-! ### Responses -/

/-- C45: what `decode` consumes for a response. -/
theorem C45_consumed (x rest : Bytes) (m : Response) (h : Codec.response.decode x = .ok rest m) :
    ∃ bytes, x = bytes ++ rest ∧
      match m with
      | .data _ => QuotedMessage bytes
      | .status _ => IsLine bytes
      | .continue_ _ => IsLine bytes := by
  simp only [Codec.decode] at h
  cases hp : response x with
  | ok r' m' =>
    rw [hp] at h
    simp [outcomeResponse] at h
    obtain ⟨rfl, rfl⟩ := h
    obtain ⟨w, hw, ⟨⟨d, rfl⟩, hr⟩ | ⟨hd, hl⟩⟩ := Frame.sv_response.ok hp
    · exact ⟨w, hw, Frame.run_ended hr⟩
    · refine ⟨w, hw, ?_⟩
      cases m' with
      | data d => exact absurd rfl (hd d)
      | status s => exact hl
      | continue_ c => exact hl
  | failure f => rw [hp] at h; rcases f with ⟨_ | _, _, _⟩ | _ | _ | _ | _ <;> simp [outcomeResponse] at h
  | _ => rw [hp] at h; simp [outcomeResponse] at h

/-- C45: `decode` asks for a literal only if the input is the beginning of a message and ends with the announcement of exactly that literal. -/
theorem C45_literal (x : Bytes) (tag : Option Bytes) (n : Nat) (mode : Option Mode)
    (h : Codec.response.decode x = .literalFound tag n mode) : ∃ m, QuotedUnfinished x (some ⟨m, n⟩) := by
  simp only [Codec.decode] at h
  cases hp : response x with
  | failure f =>
    rw [hp] at h
    rcases f with ⟨t', n', m'⟩ | _ | _ | _ | _ <;> simp [outcomeResponse] at h
    obtain ⟨_, rfl, _⟩ := h
    exact ⟨m', Frame.run_ann (Frame.sv_response.lit hp)⟩
  | _ => rw [hp] at h; simp [outcomeResponse] at h

/-- C45: `decode` asks for more bytes only if the input is the beginning of a message, or a command continuation request without its CRLF;
the latter only if line breaks without CR are not allowed. -/
theorem C45_incomplete_partial (x : Bytes) (h : Codec.response.decode x = .incomplete) :
    QuotedUnfinished x none ∨ (Quirks.crlfRelaxed = false ∧ OpenContinuation x) := by
  simp only [Codec.decode] at h
  cases hp : response x with
  | incomplete =>
    rcases Frame.sv_response.inc hp with h | h
    · exact .inl (Frame.run_waiting h)
    · exact .inr h
  | failure f => rw [hp] at h; rcases f with ⟨_ | _, _, _⟩ | _ | _ | _ | _ <;> simp [outcomeResponse] at h
  | _ => rw [hp] at h; simp [outcomeResponse] at h

/-- The hypothesis is met by the start of a response. -/
example := @C45_incomplete_partial Quirks.default b!"* LIST () \"/" (by with_unfolding_all rfl)

omit [Quirks] in
theorem QuotedMessage.unique {u v r s : Bytes} (hu : QuotedMessage u) (hv : QuotedMessage v) (e : u ++ r = v ++ s) : u = v ∧ r = s := by
  rcases List.append_eq_append_iff.1 e with ⟨a, h1, h2⟩ | ⟨a, h1, h2⟩
  · have := (C43_unique u hu a).1 (h1 ▸ hv)
    subst this
    simp at h1 h2
    exact ⟨h1.symm, h2⟩
  · have := (C43_unique v hv a).1 (h1 ▸ hu)
    subst this
    simp at h1 h2
    exact ⟨h1, h2.symm⟩

/-- C45: if a complete message is at the beginning of the input, then `decode` returns data and consumes exactly these bytes, or returns a
status response or command continuation request and consumes exactly the first line, or fails for good. The exception: `decode` waits for the
CRLF of a command continuation request. -/
theorem C45_complete_partial (bytes : Bytes) (h : QuotedMessage bytes) (rest : Bytes) :
    (∃ d, Codec.response.decode (bytes ++ rest) = .ok rest (.data d)) ∨
    (∃ line after m, bytes ++ rest = line ++ after ∧ IsLine line ∧ (∀ d, m ≠ .data d) ∧
      Codec.response.decode (bytes ++ rest) = .ok after m) ∨
    Codec.response.decode (bytes ++ rest) = .failed ∨
    (Codec.response.decode (bytes ++ rest) = .incomplete ∧ Quirks.crlfRelaxed = false ∧ OpenContinuation (bytes ++ rest)) := by
  cases e : Codec.response.decode (bytes ++ rest) with
  | ok r m =>
    obtain ⟨w, hw, hm⟩ := C45_consumed _ _ _ e
    cases m with
    | data d =>
      obtain ⟨-, rfl⟩ := QuotedMessage.unique h hm hw
      exact .inl ⟨d, rfl⟩
    | status s => exact .inr (.inl ⟨w, r, _, hw, hm, by simp, rfl⟩)
    | continue_ s => exact .inr (.inl ⟨w, r, _, hw, hm, by simp, rfl⟩)
  | incomplete =>
    rcases C45_incomplete_partial _ e with h' | h'
    · exact absurd h' ((C43_unique bytes h rest).2 none)
    · exact .inr (.inr (.inr ⟨rfl, h'⟩))
  | literalFound t n m =>
    obtain ⟨m', h'⟩ := C45_literal _ _ _ _ e
    exact absurd h' ((C43_unique bytes h rest).2 _)
  | failed => exact .inr (.inr (.inl rfl))
  | panicked => exact absurd e (C08_decode_never_panics _ _)

/-- C45: if the input is the beginning of a message, up to the announcement of a literal, then `decode` signals exactly that literal, or returns a
status response or command continuation request and consumes exactly the first line, or fails for good, with the same exception. -/
theorem C45_announced_partial (x : Bytes) (a : Ann) (h : QuotedUnfinished x (some a)) :
    Codec.response.decode x = .literalFound none a.length none ∨
    (∃ line after m, x = line ++ after ∧ IsLine line ∧ (∀ d, m ≠ .data d) ∧ Codec.response.decode x = .ok after m) ∨
    Codec.response.decode x = .failed ∨
    (Codec.response.decode x = .incomplete ∧ Quirks.crlfRelaxed = false ∧ OpenContinuation x) := by
  have hr := (Frame.run_qunfinished h).1 a rfl
  cases e : Codec.response.decode x with
  | ok r m =>
    obtain ⟨w, hw, hm⟩ := C45_consumed _ _ _ e
    cases m with
    | data d => exact absurd (hw ▸ h) ((C43_unique w hm r).2 _)
    | status s => exact .inr (.inl ⟨w, r, _, hw, hm, by simp, rfl⟩)
    | continue_ s => exact .inr (.inl ⟨w, r, _, hw, hm, by simp, rfl⟩)
  | incomplete =>
    rcases C45_incomplete_partial _ e with h' | h'
    · have := (Frame.run_qunfinished h').2 rfl
      rw [hr] at this
      simp [Frame.Waiting] at this
    · exact .inr (.inr (.inr ⟨rfl, h'⟩))
  | literalFound t n m =>
    obtain ⟨m', h'⟩ := C45_literal _ _ _ _ e
    have := (Frame.run_qunfinished h').1 _ rfl
    rw [hr] at this
    cases this
    refine .inl ?_
    simp only [Codec.decode] at e
    cases hp : response x with
    | failure f =>
      rw [hp] at e
      rcases f with ⟨t', n', m'⟩ | _ | _ | _ | _ <;> simp [outcomeResponse] at e
      obtain ⟨rfl, rfl, rfl⟩ := e
      rfl
    | _ => rw [hp] at e; simp [outcomeResponse] at e
  | failed => exact .inr (.inr (.inl rfl))
  | panicked => exact absurd e (C08_decode_never_panics _ _)

/-- C45 for the Fragmentizer: whenever it says that the message is complete, and quoted strings are closed at the ends of the lines of the message,
then `decode_message` for responses returns a message, or one of the errors "malformed", "too long" and "poisoned". There are two exceptions: if bytes
remain, then a status response or command continuation request ends with a line that looks like the announcement of a literal; if bytes are
missing, then a command continuation request ends with LF instead of CRLF. It never reports a literal. -/
theorem C45_decode_message_partial (max : Option Nat) (ops : List Op) (hc : ((State.init max).run ops).1.complete = true) :
    ∃ before current infos, ((State.init max).run ops).2.map (·.info) = before ++ infos ∧ Message 0 current infos ∧
      (LinesClosed current infos →
        (∃ m, ((State.init max).run ops).1.decodeMessage Codec.response.decoder = .ok m) ∨
        ((State.init max).run ops).1.decodeMessage Codec.response.decoder = .decodingFailure .failed ∨
        (∃ b, ((State.init max).run ops).1.decodeMessage Codec.response.decoder = .messageTooLong b) ∨
        (∃ b, ((State.init max).run ops).1.decodeMessage Codec.response.decoder = .messagePoisoned b) ∨
        (∃ line rest m a, ((State.init max).run ops).1.decodeMessage Codec.response.decoder = .decodingRemainder m rest ∧
          current = line ++ rest ∧ IsLine line ∧ Frag.Announces line a ∧ ∀ d, m ≠ .data d) ∨
        (((State.init max).run ops).1.decodeMessage Codec.response.decoder = .decodingFailure .incomplete ∧
          Quirks.crlfRelaxed = false ∧ OpenContinuation current)) := by
  obtain ⟨segs, cur, infos, _, h2, _, h4, h5, h6⟩ := C15_fragments_partition max ops
  simp only [hc, if_true] at h4
  refine ⟨_, cur, infos, h2, h4, ?_⟩
  intro hcl
  unfold State.decodeMessage
  by_cases he : ((State.init max).run ops).1.exceeded = true
  · rw [if_pos he]; exact .inr (.inr (.inl ⟨_, rfl⟩))
  rw [if_neg he]
  by_cases hp : ((State.init max).run ops).1.poisoned = true
  · rw [if_pos hp]; exact .inr (.inr (.inr (.inl ⟨_, rfl⟩)))
  rw [if_neg hp]
  have hb : ((State.init max).run ops).1.buffer = cur := by
    rw [h5]
    cases max with
    | none => rfl
    | some m =>
      have : ¬ m < cur.length := fun hlt => he (h6.mpr ⟨m, rfl, hlt⟩)
      exact List.take_of_length_le (by omega)
  rw [hb]
  have := C45_complete_partial cur (C43_fragmentizer cur infos h4 hcl) []
  rw [List.append_nil] at this
  rcases this with ⟨d, hd⟩ | ⟨line, after, m, hx, hl, hm, hd⟩ | hd | ⟨hd, hi⟩
  · exact .inl ⟨.data d, by simp [Codec.decoder, hd]⟩
  · cases after with
    | nil => exact .inl ⟨m, by simp [Codec.decoder, hd]⟩
    | cons c after =>
      refine .inr (.inr (.inr (.inr (.inl ?_))))
      have ha : ∃ a, Frag.Announces line a := by
        cases h4 with
        | last hl' ha he =>
          obtain ⟨-, h⟩ := IsLine.unique hl' hl (r := []) (r' := c :: after) (by simpa using hx)
          simp at h
        | @more _ l a e lit rest infos hl' ha =>
          obtain ⟨rfl, -⟩ := IsLine.unique hl' hl (r := lit ++ rest) (r' := c :: after) (by simpa using hx)
          exact ⟨a, ha⟩
      obtain ⟨a, ha⟩ := ha
      exact ⟨line, c :: after, m, a, by simp [Codec.decoder, hd], hx, hl, ha, hm⟩
  · exact .inr (.inl (by simp [Codec.decoder, hd]))
  · exact .inr (.inr (.inr (.inr (.inr ⟨by simp [Codec.decoder, hd], hi⟩))))

/-- The hypothesis is met after a response with a literal. -/
example := @C45_decode_message_partial Quirks.default none
  [.enqueue b!"* LIST () \"/\" {2}\r\nab\r\n", .progress, .progress, .progress] (by decide)

/-! ### Concrete cases -/

section Examples
omit [Quirks]

example : IsLine b!"* OK hello\r\n" := ⟨b!"* OK hello\r", rfl, by decide⟩

example : @Codec.decode Quirks.default .greeting (b!"* OK hello\r\n" ++ b!"A") = .ok b!"A" ⟨.ok, none, b!"hello"⟩ := by
  with_unfolding_all rfl

/-- A data response with a literal, which contains a line break, and a quoted string. -/
theorem C45_example : QuotedMessage b!"* LIST () \"/\" {2}\r\na\n\r\n" := Frame.run_ended (by decide)

example (rest : Bytes) :
    (∃ d, @Codec.decode Quirks.default .response (b!"* LIST () \"/\" {2}\r\na\n\r\n" ++ rest) = .ok rest (.data d)) ∨
    (∃ line after m, b!"* LIST () \"/\" {2}\r\na\n\r\n" ++ rest = line ++ after ∧ IsLine line ∧ (∀ d, m ≠ .data d) ∧
      @Codec.decode Quirks.default .response (b!"* LIST () \"/\" {2}\r\na\n\r\n" ++ rest) = .ok after m) ∨
    @Codec.decode Quirks.default .response (b!"* LIST () \"/\" {2}\r\na\n\r\n" ++ rest) = .failed ∨
    (@Codec.decode Quirks.default .response (b!"* LIST () \"/\" {2}\r\na\n\r\n" ++ rest) = .incomplete ∧
      Quirks.default.crlfRelaxed = false ∧ OpenContinuation (b!"* LIST () \"/\" {2}\r\na\n\r\n" ++ rest)) :=
  @C45_complete_partial Quirks.default _ C45_example rest

example : @Codec.decode Quirks.default .response b!"* LIST () \"/\" {2}\r\na\n\r\n* O" =
    .ok b!"* O" (.data (.list [] (some 47) (.other (.string (.literal ⟨b!"a\n", .sync⟩))))) := by
  with_unfolding_all rfl

theorem C45_example_announced : QuotedUnfinished b!"* LIST () \"/\" {2}\r\n" (some ⟨.sync, 2⟩) := Frame.run_ann (by decide)

example : @Codec.decode Quirks.default .response b!"* LIST () \"/\" {2}\r\n" = .literalFound none 2 none := by
  with_unfolding_all rfl

/-! ### The exceptions do occur -/

/-- The text of a status response looks like the announcement of a literal: the decoder does not care, but the Fragmentizer waits for the literal, and
takes the beginning of the next response for it. -/
theorem C45_fails_text :
    @Codec.decode Quirks.default .response b!"* OK {3}\r\n" = .ok [] (.status (.untagged .ok none b!"{3}")) ∧
    ((State.init none).run [.enqueue b!"* OK {3}\r\n", .progress]).1.complete = false ∧
    ((State.init none).run [.enqueue b!"* OK {3}\r\nA1 OK done\r\n", .progress, .progress, .progress]).1.complete = true ∧
    ((State.init none).run [.enqueue b!"* OK {3}\r\nA1 OK done\r\n", .progress, .progress, .progress]).1.decodeMessage
      (@Codec.decoder Quirks.default .response) = .decodingRemainder (.status (.untagged .ok none b!"{3}")) b!"A1 OK done\r\n" :=
  ⟨by with_unfolding_all rfl, by decide, by decide, by with_unfolding_all rfl⟩

/-- A command continuation request that ends with LF instead of CRLF: the Fragmentizer says that the message is complete, but the decoder asks for
more bytes, whereas it rejects a status response that ends with LF. -/
theorem C45_fails_continuation :
    ((State.init none).run [.enqueue b!"+ a\n", .progress]).1.complete = true ∧
    ((State.init none).run [.enqueue b!"+ a\n", .progress]).1.buffer = b!"+ a\n" ∧
    @Codec.decode Quirks.default .response b!"+ a\n" = .incomplete ∧
    @Codec.decode Quirks.default .response b!"* OK a\n" = .failed :=
  ⟨by decide, by decide, by with_unfolding_all rfl, by with_unfolding_all rfl⟩

end Examples

end Imap
