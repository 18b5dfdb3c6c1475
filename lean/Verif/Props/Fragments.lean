import Verif.FragEnc
import Verif.Props.RoundTrip
/-
Properties C12, C16 and C29: the fragments of encoded messages, and how the Fragmentizer reads them.

`WellFormed`, `Supported` and `Unbroken` are specified in Verif/WellFormed.lean; `stream`, `Transmissible` and `eventsOf` in
Verif/FragEncSpec.lean.
-/
set_option maxRecDepth 10000

namespace Imap

open Frag

variable [Quirks]

/-! ### C12 -/

/-- C12: a caller that takes `n` fragments from `Encoded` and dumps the remaining ones gets the same bytes as a caller that dumps
all of them at once. -/
theorem C12_fragments_are_bytes (k : Codec) (m : k.Message) (n : Nat) :
    ((k.encode m).take n).flatMap Fragment.data ++ dump ((k.encode m).drop n) = dump (k.encode m) := by
  simp only [dump]
  rw [← List.flatMap_append, List.take_append_drop]

/-- C12: the fragments of a message are lines and literals such that each literal comes directly after a line that ends with its
announcement, and the last fragment is a line. -/
theorem C12_literals_announced (k : Codec) (m : k.Message) (h : WellFormed k m) :
    (∀ before after d mode, k.encode m = before ++ .literal d mode :: after →
      ∃ before' pre, before = before' ++ [.line (pre ++ b!"{" ++ showNat d.length ++ modeBytes mode ++ b!"}\r\n")]) ∧
    ∃ before l, k.encode m = before ++ [.line l] := by
  obtain ⟨s⟩ := message_shape .inv k m h
  refine ⟨?_, s.pieces, _, s.eq⟩
  have key : ∀ {p q : Bytes → Prop} {fs : List Fragment}, Pieces p q fs → ∀ {before after : List Fragment} {d mode x},
      fs ++ [Fragment.line x] = before ++ .literal d mode :: after →
      ∃ before' pre, before = before' ++ [.line (pre ++ b!"{" ++ showNat d.length ++ modeBytes mode ++ b!"}\r\n")] := by
    intro p q fs hp
    induction hp with
    | nil =>
      intro before after d mode x he
      rcases before with _ | ⟨_, _ | ⟨_, _⟩⟩ <;> simp at he
    | @cons a d' m' fs _ _ _ ih =>
      intro before after d mode x he
      rcases before with _ | ⟨f, _ | ⟨g, before⟩⟩
      · simp at he
      · simp only [List.cons_append, List.nil_append, List.cons.injEq, Fragment.literal.injEq] at he
        obtain ⟨rfl, ⟨rfl, rfl⟩, -⟩ := he
        exact ⟨[], a, by simp [announce_eq]⟩
      · simp only [List.cons_append, List.cons.injEq] at he
        obtain ⟨rfl, rfl, he⟩ := he
        obtain ⟨b', pre, rfl⟩ := ih he
        exact ⟨_ :: _ :: b', pre, rfl⟩
  intro before after d mode he
  exact key s.announced (s.eq.symm.trans he)

/-- The hypothesis is met by a command with two literals. -/
example := @C12_literals_announced Quirks.default .command
  ⟨b!"A", .login (.string (.literal ⟨b!"a", .nonSync⟩)) (.string (.literal ⟨b!"bc", .sync⟩))⟩
  (@Spec.Command.mono Quirks.default _ _ (@supported_command Quirks.default _ (by with_unfolding_all rfl)))

/-! ### C29 -/

/-- C29: each line that is sent ends with CRLF and contains no other CR or LF. -/
theorem C29_no_line_break (k : Codec) (m : k.Message) (h : Unbroken k m) (l : Bytes) (hl : .line l ∈ k.encode m) :
    ∃ pre, l = pre ++ b!"\r\n" ∧ (13 : UInt8) ∉ pre ∧ (10 : UInt8) ∉ pre := by
  obtain ⟨s⟩ := message_shape .line k m h
  have unb : ∀ {a : Bytes}, isUnbroken a = true → (13 : UInt8) ∉ a ∧ (10 : UInt8) ∉ a := by
    intro a ha
    refine ⟨fun hm => ?_, unbroken_not_mem ha⟩
    have := List.all_eq_true.1 ha 13 hm
    simp at this
  have key : ∀ {fs : List Fragment}, Pieces (Spec.UnbrokenAt .line) (Spec.FitsAt .line) fs → ∀ {l}, .line l ∈ fs →
      ∃ pre, l = pre ++ b!"\r\n" ∧ (13 : UInt8) ∉ pre ∧ (10 : UInt8) ∉ pre := by
    intro fs hp
    induction hp with
    | nil => simp
    | @cons a d' m' fs ha _ _ ih =>
      intro l hl
      simp only [List.mem_cons, Fragment.line.injEq, reduceCtorEq, false_or] at hl
      rcases hl with rfl | hl
      · refine ⟨a ++ (b!"{" ++ showNat d'.length ++ modeBytes m' ++ b!"}"), by simp [announce_eq], ?_⟩
        have h1 := unb (ha rfl)
        have h2 := unb (isSafe_unbroken (isSafe_showNat d'.length))
        cases m' <;> simp [modeBytes, h1, h2]
      · exact ih hl
  rw [s.eq, List.mem_append, List.mem_singleton, Fragment.line.injEq] at hl
  rcases hl with hl | rfl
  · exact key s.announced hl
  · exact ⟨_, rfl, unb (s.unbroken rfl)⟩

/-- The hypotheses are met by the line before a literal. -/
example := @C29_no_line_break Quirks.default .command ⟨b!"A", .login (.atom b!"a") (.string (.literal ⟨b!"x\r\n", .sync⟩))⟩
  ⟨by decide, (by decide : Spec.Str1 Spec.AStringChar b!"a"), ⟨by decide, nofun⟩⟩ b!"A LOGIN a {3}\r\n"
  (by have : @Codec.encode Quirks.default .command ⟨b!"A", .login (.atom b!"a") (.string (.literal ⟨b!"x\r\n", .sync⟩))⟩ =
        [.line b!"A LOGIN a {3}\r\n", .literal b!"x\r\n" .sync, .line b!"\r\n"] := by with_unfolding_all rfl
      rw [this]; simp)

/-! ### C16 -/

/-- C16: whatever the chunks in which the encodings of a sequence of messages arrive, the Fragmentizer reports exactly the
fragments that the encoder produced, and marks the end of exactly each message. -/
theorem C16_fragments (max : Option Nat) (ms : List AnyMessage) (h : ∀ x ∈ ms, Transmissible x)
    (hmax : ∀ M ∈ max, ∀ x ∈ ms, (dump x.encode).length ≤ M) (ops : List Op) (hp : Plain ops) (hb : enqueued ops = stream ms)
    (hd : Drained ((State.init max).run ops).1) :
    ((State.init max).run ops).2 = ms.flatMap fun x => eventsOf [] x.encode := by
  obtain ⟨sf, hs⟩ := drains_stream ms h ((State.init max).enqueue (stream ms)) rfl rfl hmax
  have d := drains_run ops hp (State.init max) _ _ _ [] rfl
    (.done (s' := ((State.init max).run ops).1.progress.1) (Prod.ext rfl hd))
  rw [hb, List.append_nil] at d
  exact (d.unique hs).1

/-- C16: whenever the Fragmentizer has read a part of the encodings of a sequence of messages and says that a message is complete,
this is the next message of the sequence: its bytes are those of its encoding, and `decode_message` with its codec returns it if
it is supported. The full statement does not have this condition; it is false because of the negations of C01 to C03. -/
theorem C16_decode_partial (max : Option Nat) (ms : List AnyMessage) (h : ∀ x ∈ ms, Transmissible x)
    (hmax : ∀ M ∈ max, ∀ x ∈ ms, (dump x.encode).length ≤ M) (ops : List Op) (hp : Plain ops) (hb : enqueued ops <+: stream ms)
    (hc : ((State.init max).run ops).1.complete = true) :
    ∃ before x after, ms = before ++ x :: after ∧
      ((State.init max).run ops).2.countP (·.complete) = before.length + 1 ∧
      ((State.init max).run ops).2.flatMap (·.fragment) = stream (before ++ [x]) ∧
      ((State.init max).run ops).1.buffer = dump x.encode ∧
      (Supported x.1 x.2 → ((State.init max).run ops).1.decodeMessage x.1.decoder = .ok (x.1.norm x.2)) := by
  obtain ⟨rest, hrest⟩ := hb
  obtain ⟨sf, hs⟩ := drains_stream ms h ((State.init max).enqueue (stream ms)) rfl rfl hmax
  obtain ⟨evs, s', hd⟩ := Drains.total (((State.init max).run ops).1.enqueue rest)
  have hplain : Plain (ops ++ [.enqueue rest]) := by
    intro op hop
    rcases List.mem_append.1 hop with hop | hop
    · exact hp op hop
    · exact .inl ⟨rest, by simpa using hop⟩
  have hrun : ∀ (ops : List Op) (s : State), s.run (ops ++ [.enqueue rest]) = ((s.run ops).1.enqueue rest, (s.run ops).2) := by
    intro ops
    induction ops with
    | nil => intro s; simp [State.run, State.exec]
    | cons op ops ih => intro s; simp [State.run, ih]
  have henq : ∀ ops : List Op, enqueued (ops ++ [.enqueue rest]) = enqueued ops ++ rest := by
    intro ops
    induction ops with
    | nil => simp [enqueued]
    | cons op ops ih => cases op <;> simp [enqueued, ih]
  have d := drains_run _ hplain (State.init max) _ _ _ evs (hrun ops _) hd
  rw [henq, hrest] at d
  have he := (d.unique hs).1
  obtain ⟨pre, e, h1, h2, h3, h4, h5⟩ := lastReport_run ops hp (State.init max) [] (fun h => by simp [State.complete, State.init] at h) hc
  rw [List.nil_append] at h1
  rw [h1, List.append_assoc] at he
  obtain ⟨before, x, after, e1, e2, a, e3⟩ := prefix_complete (F := fun x : AnyMessage => eventsOf [] x.encode)
    (fun x a e b h => eventsOf_complete h) ms pre evs e h2 he.symm
  have hcount : ∀ (l : List AnyMessage), (∀ x ∈ l, Transmissible x) →
      (l.flatMap fun x => eventsOf [] x.encode).countP (·.complete) = l.length := by
    intro l hl
    induction l with
    | nil => rfl
    | cons y l ih =>
      rw [List.flatMap_cons, List.countP_append, ih (fun x hx => hl x (by simp [hx]))]
      obtain ⟨p, q, hy, -⟩ := transmissible_pieces (hl y (by simp))
      rw [eventsOf_count (by rw [hy]; simp), List.length_cons, Nat.add_comm]
  have hfrag : ∀ (fs : List Fragment) (pre : Bytes), (eventsOf pre fs).flatMap (·.fragment) = dump fs := by
    intro fs
    induction fs with
    | nil => intro pre; rfl
    | cons f fs ih => intro pre; simp [eventsOf, ih, dump]
  have hevs : ((State.init max).run ops).2 = (before ++ [x]).flatMap fun x => eventsOf [] x.encode := by
    rw [h1, e2]; simp
  have hlast := eventsOf_last e3
  rw [List.nil_append] at hlast
  have hbuf : ((State.init max).run ops).1.buffer = dump x.encode := by rw [← h3, hlast.1]
  refine ⟨before, x, after, e1, ?_, ?_, hbuf, ?_⟩
  · rw [hevs, hcount]
    · simp
    · intro y hy
      refine h y ?_
      rw [e1]
      rcases List.mem_append.1 hy with hy | hy
      · simp [hy]
      · simp at hy
        simp [hy]
  · rw [hevs]
    generalize before ++ [x] = l
    induction l with
    | nil => rfl
    | cons y l ih =>
      rw [List.flatMap_cons, List.flatMap_append, hfrag, ih]
      rfl
  · intro hx
    unfold State.decodeMessage
    rw [← h4, ← h5, hlast.2.1, hlast.2.2, hbuf]
    have := round_trip x.1 x.2 hx []
    rw [List.append_nil] at this
    simp only [Codec.decoder, AnyMessage.encode, this]
    rfl

/-- C16 for a single command, which has no free text: each chunking of its encoding is cut into the fragments of the encoder. -/
theorem C16_command (c : Command) (h : ∀ d mode, .literal d mode ∈ Codec.command.encode c → d.length < 2 ^ 32) (hu : Unbroken .command c) (ops : List Op) (hp : Plain ops)
    (hb : enqueued ops = dump (Codec.command.encode c)) (hd : Drained ((State.init none).run ops).1) :
    ((State.init none).run ops).2 = eventsOf [] (Codec.command.encode c) := by
  have := C16_fragments none [⟨.command, c⟩] (by simpa using ⟨hu, h, nofun⟩) nofun ops hp (by simpa [stream, AnyMessage.encode] using hb) hd
  simpa [AnyMessage.encode] using this

end Imap

namespace Imap

open Frag

section
local instance : Quirks := Quirks.default

/-- C16 is false for a status response whose text ends with something that looks like an announcement, even though it is
supported and has no line breaks: the Fragmentizer waits for a literal, although the message is complete. -/
theorem C16_negation_text : ∃ (r : Response) (ops : List Op), Supported .response r ∧ Unbroken .response r ∧ Plain ops ∧
    enqueued ops = dump (Codec.response.encode r) ∧ Drained ((State.init none).run ops).1 ∧
    ((State.init none).run ops).1.complete = false :=
  ⟨.status (.untagged .ok none b!"see {5}"), [.enqueue b!"* OK see {5}\r\n", .progress],
    (Spec.Response.inv_iff (.status (.untagged .ok none b!"see {5}"))).1 (by decide), ⟨by decide, by simp [Spec.Opt], fun h => nomatch h⟩,
    by simp [Plain], by rfl, by rfl, by rfl⟩

/-- C16 and C29 are false for a command with a line break in a `QuotedUtf8` string, although it is supported: its only line
contains three line feeds, and a receiver that cuts its input with the Fragmentizer sees the second one as a command of its own. -/
theorem C29_negation_quotedUtf8 :
    let c : Command := ⟨b!"A1", .login (.atom b!"a") (.string (.quotedUtf8 (b!"\r\nA2 DELETE inbox\r\n" ++ [0xC3, 0xA4])))⟩
    Supported .command c ∧
      Codec.command.encode c = [.line (b!"A1 LOGIN a \"\r\nA2 DELETE inbox\r\n" ++ [0xC3, 0xA4] ++ b!"\"\r\n")] ∧
      Codec.command.decode b!"A2 DELETE inbox\r\n" = .ok [] ⟨b!"A2", .delete .inbox⟩ ∧
      (((State.init none).run [.enqueue (dump (Codec.command.encode c)), .progress, .progress]).2.map (·.message)) =
        [b!"A1 LOGIN a \"\r\n", b!"A2 DELETE inbox\r\n"] :=
  ⟨(Spec.Command.inv_iff _).1 (by decide), by with_unfolding_all rfl, by with_unfolding_all rfl, by with_unfolding_all rfl⟩

/-- C29 is false for a response with a line break in a `CodeOther`. -/
theorem C29_negation_code :
    let g : Greeting := ⟨.ok, some (.other b!"X]\r\n* BYE"), b!"hi"⟩
    WellFormed .greeting g ∧ Codec.greeting.encode g = [.line b!"* OK [X]\r\n* BYE] hi\r\n"] :=
  ⟨⟨by decide, by simp [Spec.Opt, Spec.Code.Inv], fun h => nomatch h⟩, by with_unfolding_all rfl⟩

/-- A command with a literal that looks like a command and a quoted string that looks like an announcement. -/
private def example1 : Command :=
  ⟨b!"A1", .login (.string (.literal ⟨b!"x\r\nA2 LOGOUT\r\n", .sync⟩)) (.string (.quoted b!"{3}"))⟩

private theorem example1_transmissible : Transmissible ⟨.command, example1⟩ :=
  ⟨⟨by decide, ⟨by decide, fun h => nomatch h⟩, (by decide : ∀ b ∈ b!"{3}", Spec.TextChar b)⟩,
    supported_fits ((Spec.Command.inv_iff _).1 (by decide)), nofun⟩

private def example2 : Response := .status (.tagged b!"A1" .no (some .alert) b!"not {now}")

private theorem example2_transmissible : Transmissible ⟨.response, example2⟩ :=
  ⟨⟨by decide, by decide, by simp [Spec.Opt, Spec.Code.Inv], fun h => nomatch h⟩,
    supported_fits (k := .response) ((Spec.Response.inv_iff example2).1 (by decide)), by
    intro t ht a ha
    cases ht
    obtain ⟨pre, digits, he, hne, hd, -, -⟩ := announces_crlf ha
    have hr := congrArg List.reverse he
    simp only [List.reverse_append, List.reverse_cons] at hr
    revert hr
    rcases a with ⟨_ | _, n⟩ <;> simp [modeBytes]
    rcases List.eq_nil_or_concat digits with rfl | ⟨ds, d, rfl⟩
    · exact absurd rfl hne
    · have := hd d (by simp)
      simp only [List.concat_eq_append, List.reverse_append, List.reverse_cons, List.reverse_nil, List.nil_append, List.cons_append,
        List.cons.injEq, not_and]
      rintro rfl
      exact absurd this (by decide)⟩

/-- C12, C16 and C29 on a concrete command. -/
example : Codec.command.encode example1 =
    [.line b!"A1 LOGIN {14}\r\n", .literal b!"x\r\nA2 LOGOUT\r\n" .sync, .line b!" \"{3}\"\r\n"] := by with_unfolding_all rfl

example : WellFormed .command example1 := ⟨by decide, ⟨by decide, fun h => nomatch h⟩, (by decide : ∀ b ∈ b!"{3}", Spec.TextChar b)⟩

/-- What the Fragmentizer reports for it and for a response, when the bytes arrive in three chunks. -/
example : ((State.init (some 50)).run [.enqueue b!"A1 LOGIN {1", .progress, .enqueue b!"4}\r\nx\r\nA2 LOGOUT\r\n", .progress, .progress,
    .enqueue b!" \"{3}\"\r\nA1 NO [ALERT] not {now}\r\n", .progress, .progress, .progress]).2 =
    [⟨.line 0 15 (some ⟨.sync, 14⟩) .crlf, b!"A1 LOGIN {14}\r\n", false, b!"A1 LOGIN {14}\r\n", false, false⟩,
     ⟨.literal 15 29, b!"x\r\nA2 LOGOUT\r\n", false, b!"A1 LOGIN {14}\r\nx\r\nA2 LOGOUT\r\n", false, false⟩,
     ⟨.line 29 37 none .crlf, b!" \"{3}\"\r\n", true, b!"A1 LOGIN {14}\r\nx\r\nA2 LOGOUT\r\n \"{3}\"\r\n", false, false⟩,
     ⟨.line 0 25 none .crlf, b!"A1 NO [ALERT] not {now}\r\n", true, b!"A1 NO [ALERT] not {now}\r\n", false, false⟩] := by rfl

example := C16_fragments (some 50) [⟨.command, example1⟩, ⟨.response, example2⟩]
  (by simpa using ⟨example1_transmissible, example2_transmissible⟩) (by simp; exact ⟨by with_unfolding_all decide, by with_unfolding_all decide⟩)
  [.enqueue b!"A1 LOGIN {1", .progress, .enqueue b!"4}\r\nx\r\nA2 LOGOUT\r\n", .progress, .progress,
    .enqueue b!" \"{3}\"\r\nA1 NO [ALERT] not {now}\r\n", .progress, .progress, .progress] (by simp [Plain]) (by with_unfolding_all rfl) (by rfl)

example : Supported .command example1 := (Spec.Command.inv_iff _).1 (by decide)

end

end Imap
