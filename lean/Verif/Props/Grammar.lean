import Verif.GrammarCommand
/-
Property C48: the messages that a client sends are decoded as the formal syntax of the RFCs says.

The formal syntax is written down in Verif/GrammarSpec.lean: `Grammar.command w c` means that the text `w` is a command according to the
ABNF of the RFCs, and that it denotes `c`.
-/
set_option maxRecDepth 10000

namespace Imap

variable [Quirks]

/-! ### Commands -/

/-- C48: `decode` returns a command exactly if the input begins with a text that is a command according to the formal syntax. It consumes
exactly that text, and returns exactly what the text denotes. -/
theorem C48_command (x rest : Bytes) (c : Command) :
    Codec.command.decode x = .ok rest c ↔ ∃ w, x = w ++ rest ∧ Grammar.command w c := by
  constructor
  · intro h
    exact Gr.fits_command.sound (ok_of_outcomeCommand (r := command x) h)
  · rintro ⟨w, rfl, h⟩
    rw [Codec.decode, Gr.fits_command.complete rest h]
    rfl

/-- C48: what `decode` rejects for good is not the beginning of any text that begins with a command. -/
theorem C48_command_rejected (x y w rest : Bytes) (c : Command) (h : Codec.command.decode x = .failed) (hw : Grammar.command w c) :
    x ++ y ≠ w ++ rest := by
  intro e
  have h1 := C06_failed_stable .command x y h
  rw [e, (C48_command _ rest c).2 ⟨w, rfl, hw⟩] at h1
  cases h1

/-- C48: a text denotes at most one command, and the beginning of a command is not a command. -/
theorem C48_unambiguous (w y : Bytes) (c c' : Command) (h : Grammar.command w c) (h' : Grammar.command (w ++ y) c') : y = [] ∧ c = c' := by
  have h1 := (C48_command (w ++ y) y c).2 ⟨w, rfl, h⟩
  have h2 := (C48_command (w ++ y) [] c').2 ⟨w ++ y, by simp, h'⟩
  rw [h1] at h2
  cases h2
  exact ⟨rfl, rfl⟩

/-- C48: what `encode` writes for a command in the domain of C01 is a text that denotes the command (in its normal form). -/
theorem C48_encode (c : Command) (h : Supported .command c) :
    Grammar.command (dump (Codec.command.encode c)) (Codec.command.norm c) := by
  have h1 := C01_command_round_trip_partial c h []
  obtain ⟨w, e, hw⟩ := (C48_command _ _ _).1 h1
  simp only [List.append_nil] at e
  rw [e]
  exact hw

/-- C48: exactly the commands that are decoded back to themselves are denoted by what `encode` writes for them. -/
theorem C48_encode_iff (c : Command) :
    Grammar.command (dump (Codec.command.encode c)) c ↔ Supported .command c ∧ Codec.command.norm c = c := by
  rw [← round_trip_iff, C48_command]
  simp

/-! ### Data of AUTHENTICATE, and the end of IDLE -/

/-- C48, for the data of AUTHENTICATE. -/
theorem C48_authenticateData (x rest : Bytes) (d : AuthenticateData) :
    Codec.authenticateData.decode x = .ok rest d ↔ ∃ w, x = w ++ rest ∧ Grammar.authenticateData w d := by
  constructor
  · intro h
    exact Gr.fits_authenticateData.sound (ok_of_outcomePlain (r := authenticateData x) h)
  · rintro ⟨w, rfl, h⟩
    rw [Codec.decode, Gr.fits_authenticateData.complete rest h]
    rfl

/-- C48, for the end of IDLE. -/
theorem C48_idleDone (x rest : Bytes) (d : Unit) :
    Codec.idleDone.decode x = .ok rest d ↔ ∃ w, x = w ++ rest ∧ Grammar.idleDone w d := by
  constructor
  · intro h
    exact Gr.fits_idleDone.sound (ok_of_outcomePlain (r := idleDone x) h)
  · rintro ⟨w, rfl, h⟩
    rw [Codec.decode, Gr.fits_idleDone.complete rest h]
    rfl

/-! ### Macros -/

omit [Quirks] in
/-- The macros of FETCH, and what they stand for according to RFC 3501, 6.4.5. -/
def Grammar.macroTexts : Macro → Bytes × Bytes
  | .all => (b!"ALL", b!"(FLAGS INTERNALDATE RFC822.SIZE ENVELOPE)")
  | .fast => (b!"FAST", b!"(FLAGS INTERNALDATE RFC822.SIZE)")
  | .full => (b!"FULL", b!"(FLAGS INTERNALDATE RFC822.SIZE ENVELOPE BODY)")

/-- C48: where a FETCH command with a macro is accepted, so is the same command with the items that the macro stands for according to the
RFC in its place, and it is decoded to the items that `expand` returns. -/
theorem C48_macro (tag : Bytes) (s : SequenceSet) (m : Macro) (uid : Bool) (modifiers : List FetchModifier) (rest : Bytes)
    (h : Supported .command ⟨tag, .fetch s (.macro_ m) uid modifiers⟩) :
    ∃ before after : Bytes,
      dump (Codec.command.encode ⟨tag, .fetch s (.macro_ m) uid modifiers⟩) = before ++ (Grammar.macroTexts m).1 ++ after ∧
      Codec.command.decode (before ++ (Grammar.macroTexts m).1 ++ after ++ rest) =
        .ok rest (Codec.command.norm ⟨tag, .fetch s (.macro_ m) uid modifiers⟩) ∧
      Codec.command.decode (before ++ (Grammar.macroTexts m).2 ++ after ++ rest) =
        .ok rest (Codec.command.norm ⟨tag, .fetch s (.names m.expand) uid modifiers⟩) := by
  have h2 : Supported .command ⟨tag, .fetch s (.names m.expand) uid modifiers⟩ := by
    refine ⟨h.1, h.2.1, ?_, h.2.2.2⟩
    cases m <;> simp [Macro.expand, Spec.MacroOrNames.Inv, Spec.All, Spec.MessageDataItemName.Inv]
  have h1 := round_trip .command _ h rest
  have h3 := round_trip .command _ h2 rest
  have e : ∀ i : MacroOrNames, dump (Codec.command.encode ⟨tag, .fetch s i uid modifiers⟩) =
      (tag ++ b!" " ++ bytes (encUid uid b!"FETCH " :: encSet s ++ [.wr b!" "])) ++ bytes i.enc ++
        (bytes (encParams (modifiers.map FetchModifier.enc)) ++ b!"\r\n") := by
    intro i
    simp [Codec.encode, Codec.enc, dump_fragments, Command.enc, CommandBody.enc, bytes, encUid]
  have e1 : bytes (MacroOrNames.macro_ m).enc = (Grammar.macroTexts m).1 := by cases m <;> rfl
  have e2 : bytes (MacroOrNames.names m.expand).enc = (Grammar.macroTexts m).2 := by cases m <;> rfl
  rw [e, e1] at h1
  rw [e, e2] at h3
  exact ⟨_, _, by rw [e, e1], h1, h3⟩

/-! ### Where the decoder differs from the RFCs

The comments LENIENT and STRICT in Verif/GrammarSpec.lean mark the rules that are not those of the RFCs. These are inputs for them. -/

omit [Quirks] in
/-- Not allowed by the RFCs, and accepted: leading zeros, empty lists of items, a quoted string with a line break. -/
theorem C48_lenient :
    @Codec.decode Quirks.default .command b!"a COPY 01 b\r\n" = .ok [] ⟨b!"a", .copy [.single (.value 1)] (.other (.atom b!"b")) false⟩ ∧
    @Codec.decode Quirks.default .command b!"a STATUS b ()\r\n" = .ok [] ⟨b!"a", .status (.other (.atom b!"b")) []⟩ ∧
    @Codec.decode Quirks.default .command b!"a FETCH 1 ()\r\n" = .ok [] ⟨b!"a", .fetch [.single (.value 1)] (.names []) false []⟩ ∧
    @Codec.decode Quirks.default .command b!"a FETCH 1 UID (VANISHED)\r\n" =
      .ok [] ⟨b!"a", .fetch [.single (.value 1)] (.names [.uid]) false [.vanished]⟩ ∧
    @Codec.decode Quirks.default .command b!"a AUTHENTICATE PLAIN \r\n" = .ok [] ⟨b!"a", .authenticate .plain (some [])⟩ ∧
    @Codec.decode Quirks.default .command b!"a LOGIN \"b\r\n\" c\r\n" =
      .ok [] ⟨b!"a", .login (.string (.quotedUtf8 b!"b\r\n")) (.atom b!"c")⟩ := by
  refine ⟨?_, ?_, ?_, ?_, ?_, ?_⟩ <;> with_unfolding_all rfl

omit [Quirks] in
/-- Allowed by the RFCs, and rejected: a literal for the charset of SEARCH, and ten nested search keys. -/
theorem C48_strict :
    @Codec.decode Quirks.default .command b!"a SEARCH CHARSET {5}\r\nUTF-8 ALL\r\n" = .failed ∧
    @Codec.decode Quirks.default .command b!"a SEARCH NOT NOT NOT NOT NOT NOT NOT NOT NOT ALL\r\n" = .failed := by
  refine ⟨?_, ?_⟩ <;> with_unfolding_all rfl

/-! ### Non-vacuity -/

/-- A derivation, step by step. -/
example : Grammar.command b!"a1 uid COPY 2 inBOX\r\n" ⟨b!"a1", .copy [.single (.value 2)] .inbox true⟩ := by
  refine ⟨b!"a1", b!" uid COPY 2 inBOX\r\n", _, rfl, ⟨rfl, by simp, by decide⟩, ?_⟩
  refine ⟨b!" ", b!"uid COPY 2 inBOX\r\n", (), rfl, rfl, ?_⟩
  refine ⟨b!"uid COPY 2 inBOX", b!"\r\n", _, rfl, ⟨Grammar.copy, by simp, ?_⟩, b!"\r\n", [], (), rfl, .inl rfl, rfl, rfl⟩
  refine ⟨b!"uid ", b!"COPY 2 inBOX", true, rfl, .inr ⟨rfl, rfl⟩, ?_⟩
  refine ⟨b!"COPY ", b!"2 inBOX", (), rfl, rfl, ?_⟩
  refine ⟨b!"2", b!" inBOX", [.single (.value 2)], rfl, ?_, ?_⟩
  · refine ⟨b!"2", [], .single (.value 2), rfl, ⟨_, List.mem_cons_self .., ?_⟩, [], [], [], rfl, .nil, rfl, rfl⟩
    exact ⟨_, ⟨_, List.mem_cons_self .., 2, ⟨⟨⟨by simp, by decide⟩, rfl, by decide⟩, by decide⟩, rfl⟩, rfl⟩
  · refine ⟨b!" ", b!"inBOX", (), rfl, rfl, b!"inBOX", [], .inbox, rfl, ?_, rfl, rfl⟩
    exact ⟨.atom b!"inBOX", ⟨_, List.mem_cons_self .., b!"inBOX", ⟨rfl, by simp, by decide⟩, rfl⟩, rfl⟩

omit [Quirks] in
/-- What the decoder accepts is in the grammar: a command with many parts. -/
example : @Grammar.command Quirks.default
    b!"x UID SORT (REVERSE DATE Subject) UTF-8 OR SINCE 1-Feb-1994 (UNSEEN NOT FROM \"Smith\") MODSEQ \"/flags/\\\\draft\" all 620162338\r\n"
    ⟨b!"x", .sort [⟨true, .date⟩, ⟨false, .subject⟩] (.atom b!"UTF-8")
      [.or (.since ⟨1994, 2, 1⟩) (.and [.unseen, .not (.from_ (.string (.quoted b!"Smith")))]),
        .modSequence (some (.draft, .all)) 620162338] true⟩ := by
  obtain ⟨w, e, h⟩ := (@C48_command Quirks.default _ [] _).1 (by with_unfolding_all rfl : @Codec.decode Quirks.default .command
    b!"x UID SORT (REVERSE DATE Subject) UTF-8 OR SINCE 1-Feb-1994 (UNSEEN NOT FROM \"Smith\") MODSEQ \"/flags/\\\\draft\" all 620162338\r\n" = .ok _ _)
  rw [List.append_nil] at e
  rw [e]
  exact h

omit [Quirks] in
/-- A text that is not the beginning of a command: COPY has two arguments. -/
example (y rest w : Bytes) (c : Command) (h : @Grammar.command Quirks.default w c) : b!"a COPY 1\r\n" ++ y ≠ w ++ rest :=
  @C48_command_rejected Quirks.default _ y w rest c (by with_unfolding_all rfl) h

/-- A command that meets the hypothesis of `C48_macro`. -/
example : @Supported Quirks.default .command ⟨b!"a1", .fetch [.single (.value 2)] (.macro_ .full) true [.changedSince 7 ]⟩ :=
  (@Spec.Command.inv_iff Quirks.default _).1 (by decide)

/-- A command that meets the hypothesis of `C48_encode`. -/
example : Supported .command ⟨b!"a1", .copy [.single (.value 2)] .inbox true⟩ :=
  (Spec.Command.inv_iff _).1 rfl

end Imap
