import Verif.HandshakeSpec
import Verif.FramingQuoted
import Verif.FragEnc
import Verif.Props.Framing
import Verif.Props.Strings
/-
Property C43: the decoders of the messages of a client cut the input into messages like a reader that knows quoted strings and literals.
This holds for all inputs; C41 is about the Fragmentizer, which does not know quoted strings.

Property C42: while a client sends a command line by line, the decoder signals each literal of it, in the right order, with the tag of
the command and the length and mode of the literal, and returns the command after the last line.

`QuotedMessage` and `QuotedUnfinished` are specified in Verif/FramingSpec.lean, `serve` and `literals` in Verif/HandshakeSpec.lean.
-/
set_option maxRecDepth 10000

namespace Imap

open Frag Spec

variable [Quirks]

/-! ### C43 -/

/-- C43: if a complete message is at the beginning of the input, then `decode` either returns a message and consumes exactly these bytes,
or fails for good. -/
theorem C43_complete (k : Codec) (hk : FromClient k) (bytes : Bytes) (h : QuotedMessage bytes) (rest : Bytes) :
    (∃ m, k.decode (bytes ++ rest) = .ok rest m) ∨ k.decode (bytes ++ rest) = .failed := by
  have hr := Frame.run_qmessage h
  obtain ⟨h1, h2, h3⟩ := Frame.decode_run hk bytes
  cases e : k.decode bytes with
  | ok r m =>
    obtain ⟨w, hw, hb⟩ := h1 r m e
    rw [hw, Frame.run_append, hb] at hr
    cases r with
    | nil => exact .inl ⟨m, C05_ok_stable k bytes rest [] m e⟩
    | cons d r => rw [Frame.run_cons, Frame.St.step, Frame.run_over] at hr; simp at hr
  | incomplete => have := h2 e; rw [hr] at this; simp [Frame.Waiting] at this
  | literalFound t n m => have := (h3 t n m e).2; rw [hr] at this; simp at this
  | failed => exact .inr (C06_failed_stable k bytes rest e)
  | panicked => exact absurd e (C08_decode_never_panics k bytes)

theorem Frame.not_ok {k : Codec} (hk : FromClient k) {x : Bytes} (h : Frame.start.run x ≠ .ended) (h' : Frame.start.run x ≠ .over) (r : Bytes)
    (m : k.Message) : k.decode x ≠ .ok r m := by
  intro e
  obtain ⟨w, rfl, hb⟩ := (Frame.decode_run hk x).1 r m e
  rw [Frame.run_append, hb] at h h'
  cases r with
  | nil => exact h rfl
  | cons d r => rw [Frame.run_cons, Frame.St.step, Frame.run_over] at h'; exact h' rfl

/-- C43: if the input is the beginning of a message, up to the announcement of a literal, then `decode` signals exactly that literal, or fails
for good. -/
theorem C43_announced (k : Codec) (hk : FromClient k) (bytes : Bytes) (a : Ann) (h : QuotedUnfinished bytes (some a)) :
    (∃ tag, k.decode bytes = .literalFound (some tag) a.length (some a.mode)) ∨ k.decode bytes = .failed := by
  have hr := (Frame.run_qunfinished h).1 a rfl
  obtain ⟨-, h2, h3⟩ := Frame.decode_run hk bytes
  cases e : k.decode bytes with
  | ok r m => exact absurd e (Frame.not_ok hk (by simp [hr]) (by simp [hr]) r m)
  | incomplete => have := h2 e; rw [hr] at this; simp [Frame.Waiting] at this
  | literalFound t n m =>
    obtain ⟨⟨t', rfl⟩, m', rfl, hm⟩ := h3 t n m e
    rw [hr] at hm
    cases hm
    exact .inl ⟨t', rfl⟩
  | failed => exact .inr rfl
  | panicked => exact absurd e (C08_decode_never_panics k bytes)

/-- C43: if the input is any other beginning of a message, then `decode` asks for more bytes, or fails for good. -/
theorem C43_waiting (k : Codec) (hk : FromClient k) (bytes : Bytes) (h : QuotedUnfinished bytes none) :
    k.decode bytes = .incomplete ∨ k.decode bytes = .failed := by
  have hr := (Frame.run_qunfinished h).2 rfl
  obtain ⟨-, h2, h3⟩ := Frame.decode_run hk bytes
  cases e : k.decode bytes with
  | ok r m => exact absurd e (Frame.not_ok hk (by rintro h; simp [h, Frame.Waiting] at hr) (by rintro h; simp [h, Frame.Waiting] at hr) r m)
  | incomplete => exact .inl rfl
  | literalFound t n m =>
    obtain ⟨-, m', -, hm⟩ := h3 t n m e
    simp [hm, Frame.Waiting] at hr
  | failed => exact .inr rfl
  | panicked => exact absurd e (C08_decode_never_panics k bytes)

/-- C43: what `decode` consumes for a message is a complete message; if it asks for more bytes or signals a literal, then the input is the
beginning of a message, and it ends with the announcement of exactly that literal. -/
theorem C43_decoded (k : Codec) (hk : FromClient k) (x : Bytes) :
    (∀ rest m, k.decode x = .ok rest m → ∃ bytes, x = bytes ++ rest ∧ QuotedMessage bytes) ∧
    (k.decode x = .incomplete → QuotedUnfinished x none) ∧
    (∀ tag n mode, k.decode x = .literalFound tag n mode → ∃ t m, tag = some t ∧ mode = some m ∧ QuotedUnfinished x (some ⟨m, n⟩)) := by
  obtain ⟨h1, h2, h3⟩ := Frame.decode_run hk x
  refine ⟨?_, ?_, ?_⟩
  · intro rest m h
    obtain ⟨w, hw, hb⟩ := h1 rest m h
    exact ⟨w, hw, Frame.run_ended hb⟩
  · exact fun h => Frame.run_waiting (h2 h)
  · intro tag n mode h
    obtain ⟨⟨t, rfl⟩, m, rfl, hm⟩ := h3 tag n mode h
    exact ⟨t, m, rfl, rfl, Frame.run_ann hm⟩

omit [Quirks] in
/-- C43: each input begins with one complete message, or is the beginning of a message. So the cases above are all the cases. -/
theorem C43_cases (x : Bytes) : (∃ bytes rest, x = bytes ++ rest ∧ QuotedMessage bytes) ∨ ∃ o, QuotedUnfinished x o :=
  Frame.quoted_cases x

omit [Quirks] in
/-- C43: no complete message is the beginning of another one, or of a message that is not complete. So the cases above exclude each other. -/
theorem C43_unique (u : Bytes) (h : QuotedMessage u) (v : Bytes) :
    (QuotedMessage (u ++ v) → v = []) ∧ ∀ o, ¬ QuotedUnfinished (u ++ v) o := by
  have hr := Frame.run_qmessage h
  have key : v ≠ [] → Frame.start.run (u ++ v) = .over := by
    intro hv
    rw [Frame.run_append, hr]
    cases v with
    | nil => exact absurd rfl hv
    | cons d v => rw [Frame.run_cons, Frame.St.step, Frame.run_over]
  constructor
  · intro h'
    by_cases hv : v = []
    · exact hv
    · have := Frame.run_qmessage h'
      rw [key hv] at this
      simp at this
  · intro o ho
    have := Frame.run_qunfinished ho
    by_cases hv : v = []
    · subst hv
      rw [List.append_nil, hr] at this
      cases o <;> simp [Frame.Waiting] at this
    · rw [key hv] at this
      cases o <;> simp [Frame.Waiting] at this

omit [Quirks] in
/-- C43 and C41: where quoted strings are closed at the ends of lines, the messages of the Fragmentizer are the messages of the decoder. -/
theorem C43_fragmentizer (bytes : Bytes) (infos : List Info) (h : Message 0 bytes infos) (hc : LinesClosed bytes infos) : QuotedMessage bytes :=
  Frame.run_ended (Frame.run_message h [] rfl (by simpa using hc))

/-! ### C42 -/

omit [Quirks] in
theorem announced_line {a d : Bytes} {m : Mode} (ha : Tidy a) (hd : d.length < 2 ^ 32) :
    IsQuotedLine (a ++ announce d.length m) ∧ Frag.Announces (a ++ announce d.length m) ⟨m, d.length⟩ := by
  have e : a ++ announce d.length m = (a ++ (b!"{" ++ showNat d.length ++ modeBytes m ++ b!"}\r")) ++ b!"\n" := by
    simp [announce_eq]
  constructor
  · have hq : ∀ w : Bytes, (34 : UInt8) ∉ w → QuotesClosed w := by
      intro w
      unfold QuotesClosed
      induction w with
      | nil => simp
      | cons b w ih =>
        intro h
        simp at h
        rw [List.foldl_cons, show Quote.step .out b = .out by simp [Quote.step, Ne.symm h.1]]
        exact ih h.2
    have ht : Tidy (b!"{" ++ showNat d.length ++ modeBytes m ++ b!"}\r") := by
      constructor
      · apply hq
        have hs : (34 : UInt8) ∉ showNat d.length := fun h => by
          have := List.all_eq_true.1 (showNat_digits _) _ h
          revert this; decide
        have := (modeBytes_noQuote m).1
        simp [hs, this]
      · intro u v h
        have := announce_noLF d.length m
        rw [h] at this
        simp at this
    have := ha.append ht
    exact ⟨_, e, this.1, this.2⟩
  · rw [e, announces_body, scan_announced hd]
    rfl

omit [Quirks] in
theorem pieces_announced {fs : List Fragment} (h : Pieces (SafeAt .rt) (FitsAt .rt) fs) {pre post : List Fragment} {d : Bytes} {m : Mode}
    (e : fs = pre ++ .literal d m :: post) : QuotedUnfinished (dump pre) (some ⟨m, d.length⟩) := by
  induction h generalizing pre with
  | nil => simp at e
  | @cons a d' m' fs ha hd _ ih =>
    obtain ⟨h1, h2⟩ := announced_line (m := m') ha.1 (hd rfl)
    rcases pre with _ | ⟨f, _ | ⟨g, pre⟩⟩
    · simp at e
    · simp at e
      obtain ⟨rfl, ⟨rfl, rfl⟩, rfl⟩ := e
      simpa [dump, Fragment.data] using QuotedUnfinished.announced h1 h2
    · simp at e
      obtain ⟨rfl, rfl, rfl⟩ := e
      have := ih rfl
      have hne : dump pre ≠ [] := by
        intro h0
        rw [h0] at this
        have := (Frame.run_qunfinished this).1 _ rfl
        simp at this
      have := QuotedUnfinished.more h1 h2 rfl hne this
      simpa [dump, Fragment.data] using this

/-- The lines and literals of commands. -/
theorem command_pieces (c : Command) (h : Supported .command c) :
    ∃ fs l, Codec.command.encode c = fs ++ [.line (l ++ b!"\r\n")] ∧ Pieces (SafeAt .rt) (FitsAt .rt) fs := by
  obtain ⟨t, b⟩ := c
  have h1 := SafeAt.tag (L := .rt) h.1
  have h2 := CommandBody.shaped h.2
  obtain ⟨fs, l, e, hp, -⟩ := fragments_shaped (xs := .wr t :: .wr b!" " :: b.enc) (p := SafeAt .rt) (q := FitsAt .rt) (.of rfl)
    (fun a b => SafeAt.append) (by shape) (t := b!"\r\n") (by simp)
  exact ⟨fs, l, e, hp⟩

/-- C42: before each literal of a command, the decoder signals that literal: with the tag of the command, and with the length and the mode
of the literal. -/
theorem C42_literal (c : Command) (h : Supported .command c) (pre post : List Fragment) (d : Bytes) (m : Mode)
    (e : Codec.command.encode c = pre ++ .literal d m :: post) :
    Codec.command.decode (dump pre) = .literalFound (some c.tag) d.length (some m) := by
  have hrt := round_trip .command c h []
  rw [List.append_nil] at hrt
  obtain ⟨fs, l, he, hp⟩ := command_pieces c h
  obtain ⟨post', rfl⟩ : ∃ post', post = post' ++ [.line (l ++ b!"\r\n")] := by
    rw [e] at he
    rcases List.eq_nil_or_concat post with rfl | ⟨p, x, rfl⟩
    · have := congrArg List.getLast? he
      simp at this
    · refine ⟨p, ?_⟩
      rw [List.concat_eq_append, ← List.cons_append, ← List.append_assoc] at he
      rw [List.concat_eq_append, List.append_inj_right' he rfl]
  have hfs : fs = pre ++ .literal d m :: post' := by
    rw [e, ← List.cons_append, ← List.append_assoc] at he
    exact (List.append_inj_left' he rfl).symm
  have hu := pieces_announced hp hfs
  have hsplit : dump (Codec.command.encode c) = dump pre ++ (d ++ (dump post' ++ (l ++ b!"\r\n"))) := by
    rw [e]; simp [dump, Fragment.data]
  rw [hsplit] at hrt
  rcases C43_announced .command (.inl rfl) _ _ hu with ⟨tag, ht⟩ | hf
  · rw [ht]
    obtain ⟨-, t, rest, htag, hx, hv⟩ := C08_command_literal_honest _ _ _ _ ht
    cases htag
    have s1 := C18_command { State.init none with buffer := dump pre ++ (d ++ (dump post' ++ (l ++ b!"\r\n"))) } _ _ hrt
    have s2 := (C18_decodeTag_iff { State.init none with buffer := dump pre ++ (d ++ (dump post' ++ (l ++ b!"\r\n"))) } tag).2
      ⟨(Spec.isTagStr_iff tag).1 hv, rest ++ (d ++ (dump post' ++ (l ++ b!"\r\n"))), by simp [hx]⟩
    rw [s1] at s2
    simp only [Option.some.injEq] at s2
    have : (Codec.command.norm c).tag = c.tag := rfl
    rw [← s2, this]
  · have := C06_failed_stable .command _ (d ++ (dump post' ++ (l ++ b!"\r\n"))) hf
    rw [hrt] at this
    simp at this

/-- The hypotheses are met by the second literal of a command. -/
example := @C42_literal Quirks.default
  ⟨b!"A", .login (.string (.literal ⟨b!"a", .nonSync⟩)) (.string (.literal ⟨b!"bc", .sync⟩))⟩
  (@supported_command Quirks.default _ (by with_unfolding_all rfl))
  [.line b!"A LOGIN {1+}\r\n", .literal b!"a" .nonSync, .line b!" {2}\r\n"] [.line b!"\r\n"] b!"bc" .sync (by with_unfolding_all rfl)

/-- C42: while a client sends a command line by line, and the server decodes its buffer after each line, the decoder signals the literals
of the command one after the other, each before it is sent, and returns the command after the last line. -/
theorem C42_handshake (c : Command) (h : Supported .command c) :
    serve .command [] (Codec.command.encode c) =
      ((literals (Codec.command.encode c)).map fun x => .literalFound (some c.tag) x.1.length (some x.2)) ++ [.ok [] (Codec.command.norm c)] := by
  obtain ⟨fs, l, he, hp⟩ := command_pieces c h
  have key : ∀ {p q : Bytes → Prop} {fs : List Fragment}, Pieces p q fs → ∀ pre, Codec.command.encode c = pre ++ (fs ++ [.line (l ++ b!"\r\n")]) →
      serve .command (dump pre) (fs ++ [.line (l ++ b!"\r\n")]) =
        ((literals (fs ++ [.line (l ++ b!"\r\n")])).map fun x => .literalFound (some c.tag) x.1.length (some x.2)) ++
          [.ok [] (Codec.command.norm c)] := by
    intro p q fs hp
    induction hp with
    | nil =>
      intro pre e
      have hrt := round_trip .command c h []
      rw [List.append_nil, e] at hrt
      simp only [List.nil_append, serve, literals, List.map_nil]
      rw [← hrt]
      simp [dump, Fragment.data]
    | @cons a d m fs _ _ _ ih =>
      intro pre e
      have h1 := C42_literal c h (pre ++ [.line (a ++ announce d.length m)]) (fs ++ [.line (l ++ b!"\r\n")]) d m (by simp [e])
      have h2 := ih (pre ++ [.line (a ++ announce d.length m), .literal d m]) (by simp [e])
      simp only [List.cons_append, serve, literals, List.map_cons]
      rw [show dump pre ++ (a ++ announce d.length m) = dump (pre ++ [.line (a ++ announce d.length m)]) by simp [dump, Fragment.data], h1,
        show dump (pre ++ [.line (a ++ announce d.length m)]) ++ d = dump (pre ++ [.line (a ++ announce d.length m), .literal d m]) by
          simp [dump, Fragment.data], h2]
  have := key hp [] (by simpa using he)
  rw [he]
  simpa [dump] using this

/-! ### Concrete cases -/

section Examples
omit [Quirks]

/-- A LOGIN command with two literals, the first of which contains a line break. -/
def C42_example : Command := ⟨b!"A1", .login (.string (.literal ⟨b!"x\ny", .sync⟩)) (.string (.literal ⟨b!"z", .nonSync⟩))⟩

example : @serve Quirks.default .command [] (@Codec.encode Quirks.default .command C42_example) =
    [.literalFound (some b!"A1") 3 (some .sync), .literalFound (some b!"A1") 1 (some .nonSync), .ok [] C42_example] := by
  have h : @Supported Quirks.default .command C42_example := by
    refine ⟨by decide, ⟨?_, ?_⟩, ⟨?_, ?_⟩⟩ <;> first | decide | exact fun _ => by decide
  rw [@C42_handshake Quirks.default C42_example h]
  rfl

example : @Codec.encode Quirks.default .command C42_example =
    [.line b!"A1 LOGIN {3}\r\n", .literal b!"x\ny" .sync, .line b!" {1+}\r\n", .literal b!"z" .nonSync, .line b!"\r\n"] := by
  with_unfolding_all rfl

/-- The command of `C41_fails_decoded`: one message, with two line breaks in a quoted string. -/
theorem C43_example : QuotedMessage b!"A1 LOGIN \"a\r\nA2 DELETE b\r\n\" c\r\n" :=
  Frame.run_ended (by decide)

example (rest : Bytes) : (∃ m, @Codec.decode Quirks.default .command (b!"A1 LOGIN \"a\r\nA2 DELETE b\r\n\" c\r\n" ++ rest) = .ok rest m) ∨
    @Codec.decode Quirks.default .command (b!"A1 LOGIN \"a\r\nA2 DELETE b\r\n\" c\r\n" ++ rest) = .failed :=
  @C43_complete Quirks.default .command (.inl rfl) _ C43_example rest

/-- An unfinished message with a line break in a quoted string and the announcement of a literal. -/
theorem C43_example_announced : QuotedUnfinished b!"A1 LOGIN \"a\n\" {3}\r\n" (some ⟨.sync, 3⟩) :=
  Frame.run_ann (by decide)

example : (∃ tag, @Codec.decode Quirks.default .command b!"A1 LOGIN \"a\n\" {3}\r\n" = .literalFound (some tag) 3 (some .sync)) ∨
    @Codec.decode Quirks.default .command b!"A1 LOGIN \"a\n\" {3}\r\n" = .failed :=
  @C43_announced Quirks.default .command (.inl rfl) _ _ C43_example_announced

example : @Codec.decode Quirks.default .command b!"A1 LOGIN \"a\n\" {3}\r\n" = .literalFound (some b!"A1") 3 (some .sync) := by
  with_unfolding_all rfl

/-- In a quoted string, after a line break. -/
theorem C43_example_waiting : QuotedUnfinished b!"A1 LOGIN \"a\r\n" none :=
  Frame.run_waiting (.inl ⟨.other, .within, by decide⟩)

example : @Codec.decode Quirks.default .command b!"A1 LOGIN \"a\r\n" = .incomplete ∨
    @Codec.decode Quirks.default .command b!"A1 LOGIN \"a\r\n" = .failed :=
  @C43_waiting Quirks.default .command (.inl rfl) _ C43_example_waiting

end Examples

end Imap
