import Verif.GrammarServerResponse
/-
Property C49: the messages that a server sends are decoded as the formal syntax of the RFCs says.

The formal syntax is written down in Verif/GrammarServerSpec.lean: `Grammar.Server.response w r` means that the text `w` is a response
according to the ABNF of the RFCs, and that it denotes `r`.
-/
set_option maxRecDepth 10000

namespace Imap

variable [Quirks]

/-! ### Greetings and responses -/

/-- C49, for greetings. -/
theorem C49_greeting (x rest : Bytes) (g : Greeting) :
    Codec.greeting.decode x = .ok rest g ↔ ∃ w, x = w ++ rest ∧ Grammar.Server.greeting w g := by
  constructor
  · intro h
    exact Gr.fits_greeting.sound (ok_of_outcomePlain (r := greeting x) h)
  · rintro ⟨w, rfl, h⟩
    rw [Codec.decode, Gr.fits_greeting.complete rest h]
    rfl

/-- C49: `decode` returns a response exactly if the input begins with a text that is a response according to the formal syntax. It consumes
exactly that text, and returns exactly what the text denotes. -/
theorem C49_response (x rest : Bytes) (r : Response) :
    Codec.response.decode x = .ok rest r ↔ ∃ w, x = w ++ rest ∧ Grammar.Server.response w r := by
  constructor
  · intro h
    exact Gr.fits_response.sound (ok_of_outcomeResponse (r := response x) h)
  · rintro ⟨w, rfl, h⟩
    rw [Codec.decode, Gr.fits_response.complete rest h]
    rfl

/-- C49: what `decode` rejects for good is not the beginning of any text that begins with a greeting. -/
theorem C49_greeting_rejected (x y w rest : Bytes) (g : Greeting) (h : Codec.greeting.decode x = .failed) (hw : Grammar.Server.greeting w g) :
    x ++ y ≠ w ++ rest := by
  intro e
  have h1 := C06_failed_stable .greeting x y h
  rw [e, (C49_greeting _ rest g).2 ⟨w, rfl, hw⟩] at h1
  cases h1

/-- C49: what `decode` rejects for good is not the beginning of any text that begins with a response. -/
theorem C49_response_rejected (x y w rest : Bytes) (r : Response) (h : Codec.response.decode x = .failed) (hw : Grammar.Server.response w r) :
    x ++ y ≠ w ++ rest := by
  intro e
  have h1 := C06_failed_stable .response x y h
  rw [e, (C49_response _ rest r).2 ⟨w, rfl, hw⟩] at h1
  cases h1

/-- C49: a text denotes at most one greeting, and the beginning of a greeting is not a greeting. -/
theorem C49_greeting_unambiguous (w y : Bytes) (g g' : Greeting) (h : Grammar.Server.greeting w g) (h' : Grammar.Server.greeting (w ++ y) g') :
    y = [] ∧ g = g' := by
  have h1 := (C49_greeting (w ++ y) y g).2 ⟨w, rfl, h⟩
  have h2 := (C49_greeting (w ++ y) [] g').2 ⟨w ++ y, by simp, h'⟩
  rw [h1] at h2
  cases h2
  exact ⟨rfl, rfl⟩

/-- C49: a text denotes at most one response, and the beginning of a response is not a response. -/
theorem C49_unambiguous (w y : Bytes) (r r' : Response) (h : Grammar.Server.response w r) (h' : Grammar.Server.response (w ++ y) r') :
    y = [] ∧ r = r' := by
  have h1 := (C49_response (w ++ y) y r).2 ⟨w, rfl, h⟩
  have h2 := (C49_response (w ++ y) [] r').2 ⟨w ++ y, by simp, h'⟩
  rw [h1] at h2
  cases h2
  exact ⟨rfl, rfl⟩

/-- C49: what `encode` writes for a greeting in the domain of C02 is a text that denotes the greeting (in its normal form). -/
theorem C49_greeting_encode (g : Greeting) (h : Supported .greeting g) :
    Grammar.Server.greeting (dump (Codec.greeting.encode g)) (Codec.greeting.norm g) := by
  obtain ⟨w, e, hw⟩ := (C49_greeting _ _ _).1 (round_trip .greeting g h [])
  simp only [List.append_nil] at e
  rw [e]
  exact hw

/-- C49: what `encode` writes for a response in the domain of C03 is a text that denotes the response (in its normal form). -/
theorem C49_encode (r : Response) (h : Supported .response r) :
    Grammar.Server.response (dump (Codec.response.encode r)) (Codec.response.norm r) := by
  obtain ⟨w, e, hw⟩ := (C49_response _ _ _).1 (round_trip .response r h [])
  simp only [List.append_nil] at e
  rw [e]
  exact hw

/-- C49: exactly the greetings that are decoded back to themselves are denoted by what `encode` writes for them. -/
theorem C49_greeting_encode_iff (g : Greeting) :
    Grammar.Server.greeting (dump (Codec.greeting.encode g)) g ↔ Supported .greeting g ∧ Codec.greeting.norm g = g := by
  rw [← round_trip_iff, C49_greeting]
  simp

/-- C49: exactly the responses that are decoded back to themselves are denoted by what `encode` writes for them. -/
theorem C49_encode_iff (r : Response) :
    Grammar.Server.response (dump (Codec.response.encode r)) r ↔ Supported .response r ∧ Codec.response.norm r = r := by
  rw [← round_trip_iff, C49_response]
  simp

/-! ### Where the decoder and the encoder differ from the RFCs

The comments LENIENT and STRICT in Verif/GrammarServerSpec.lean mark the rules that are not those of the RFCs. These are inputs for them. -/

omit [Quirks] in
/-- Not allowed by the RFCs, and accepted: capabilities without IMAP4rev1, a code with any characters, flags of
a mailbox that contradict each other, and an entry name without a slash. -/
theorem C49_lenient :
    @Codec.decode Quirks.default .response b!"* CAPABILITY IDLE\r\n" = .ok [] (.data (.capability [.idle])) ∧
    @Codec.decode Quirks.default .response b!"* OK [\"(] x\r\n" = .ok [] (.status (.untagged .ok (some (.other b!"\"(")) b!"x")) ∧
    @Codec.decode Quirks.default .response b!"* LIST (\\Marked \\Unmarked) NIL a\r\n" =
      .ok [] (.data (.list [.marked, .unmarked] none (.other (.atom b!"a")))) ∧
    @Codec.decode Quirks.default .response b!"* METADATA a b\r\n" =
      .ok [] (.data (.metadata (.other (.atom b!"a")) (.withoutValues [.atom b!"b"]))) := by
  refine ⟨?_, ?_, ?_, ?_⟩ <;> with_unfolding_all rfl

omit [Quirks] in
/-- Allowed by the RFCs, and rejected: an empty list of quota resources, and nine nested threads. -/
theorem C49_strict :
    @Codec.decode Quirks.default .response b!"* QUOTA \"\" ()\r\n" = .failed ∧
    @Codec.decode Quirks.default .response b!"* THREAD (((((((((1)(2))(3))(4))(5))(6))(7))(8))(9))\r\n" = .failed := by
  refine ⟨?_, ?_⟩ <;> with_unfolding_all rfl

omit [Quirks] in
/-- The encoder writes texts that are not in the formal syntax: the item MODSEQ of FETCH, without parentheses. -/
theorem C49_encode_counterexample :
    ¬ ∃ w rest r, dump (@Codec.encode Quirks.default .response (.data (.fetch 1 [.modSeq 5]))) = w ++ rest ∧ @Grammar.Server.response Quirks.default w r := by
  rintro ⟨w, rest, r, e, h⟩
  have h1 := (@C49_response Quirks.default _ rest r).2 ⟨w, e, h⟩
  have h2 : @Codec.decode Quirks.default .response (dump (@Codec.encode Quirks.default .response (.data (.fetch 1 [.modSeq 5])))) = .failed := by
    with_unfolding_all rfl
  rw [h2] at h1
  cases h1

/-! ### Non-vacuity -/

/-- A derivation, step by step. -/
example : Grammar.Server.response b!"* 23 exists\r\n" (.data (.exists_ 23)) := by
  refine ⟨Grammar.Server.responseData, by simp, ?_⟩
  refine ⟨b!"* ", b!"23 exists\r\n", (), rfl, rfl, b!"23 exists", b!"\r\n", .data (.exists_ 23), rfl, ?_, b!"\r\n", [], (), rfl, .inl rfl, rfl, rfl⟩
  refine ⟨.data <$> Grammar.Server.data, by simp, .exists_ 23, ?_, rfl⟩
  refine ⟨do let n ← Grammar.number; Grammar.lit b!" EXISTS"; return .exists_ n, by simp, ?_⟩
  exact ⟨b!"23", b!" exists", 23, rfl, ⟨⟨by simp, by decide⟩, rfl, by decide⟩, b!" exists", [], (), rfl, rfl, rfl, rfl⟩

omit [Quirks] in
/-- What the decoder accepts is in the grammar: a response with many parts. -/
example : @Grammar.Server.response Quirks.default
    b!"* 12 FETCH (FLAGS (\\Seen) UID 7 RFC822.SIZE 44827 BODY ((\"TEXT\" \"PLAIN\" (\"CHARSET\" \"US-ASCII\") NIL NIL \"7BIT\" 1152 23)(\"IMAGE\" \"PNG\" NIL NIL NIL \"BASE64\" 4554) \"MIXED\"))\r\n"
    (.data (.fetch 12 [.flags [.flag .seen], .uid 7, .rfc822Size 44827,
      .body (.multi [.text ⟨[(.quoted b!"CHARSET", .quoted b!"US-ASCII")], none, none, .quoted b!"7BIT", 1152⟩ (.quoted b!"PLAIN") 23 none,
        .basic ⟨[], none, none, .quoted b!"BASE64", 4554⟩ (.quoted b!"IMAGE") (.quoted b!"PNG") none] (.quoted b!"MIXED") none)])) := by
  obtain ⟨w, e, h⟩ := (@C49_response Quirks.default _ [] _).1 (by with_unfolding_all rfl : @Codec.decode Quirks.default .response
    b!"* 12 FETCH (FLAGS (\\Seen) UID 7 RFC822.SIZE 44827 BODY ((\"TEXT\" \"PLAIN\" (\"CHARSET\" \"US-ASCII\") NIL NIL \"7BIT\" 1152 23)(\"IMAGE\" \"PNG\" NIL NIL NIL \"BASE64\" 4554) \"MIXED\"))\r\n" = .ok _ _)
  rw [List.append_nil] at e
  rw [e]
  exact h

omit [Quirks] in
/-- A greeting. -/
example : @Grammar.Server.greeting Quirks.default b!"* PREAUTH [ALERT] hi\r\n" ⟨.preAuth, some .alert, b!"hi"⟩ := by
  obtain ⟨w, e, h⟩ := (@C49_greeting Quirks.default _ [] _).1 (by with_unfolding_all rfl : @Codec.decode Quirks.default .greeting
    b!"* PREAUTH [ALERT] hi\r\n" = .ok _ _)
  rw [List.append_nil] at e
  rw [e]
  exact h

omit [Quirks] in
/-- A text that is not the beginning of a response: EXPUNGE without a number. -/
example (y rest w : Bytes) (r : Response) (h : @Grammar.Server.response Quirks.default w r) : b!"* EXPUNGE\r\n" ++ y ≠ w ++ rest :=
  @C49_response_rejected Quirks.default _ y w rest r (by with_unfolding_all rfl) h

omit [Quirks] in
/-- A text that is not the beginning of a greeting: NO. -/
example (y rest w : Bytes) (g : Greeting) (h : @Grammar.Server.greeting Quirks.default w g) : b!"* NO x\r\n" ++ y ≠ w ++ rest :=
  @C49_greeting_rejected Quirks.default _ y w rest g (by with_unfolding_all rfl) h

omit [Quirks] in
/-- Messages that meet the hypotheses of the theorems about `encode`. -/
example : @Supported Quirks.default .response (.data (.fetch 12 [.flags [.flag .seen], .uid 7])) :=
  (@Spec.Response.inv_iff Quirks.default (.data (.fetch 12 [.flags [.flag .seen], .uid 7]))).1 (by decide)

end Imap
