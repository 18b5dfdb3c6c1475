import Verif.Props.Handshake
import Verif.Props.FramingServer
import Verif.Props.Work
/-
Property C67: no input leaves a decoder waiting for ever. Whatever has arrived, there are a few more bytes after which the decoder returns a
message or fails for good, whatever comes next.

`QuotedUnfinished` is specified in Verif/FramingSpec.lean.
-/
set_option maxRecDepth 10000

namespace Imap

open Frag Spec

/-- The decoder neither asks for more bytes nor for a literal: it has found a message, or it says that there is none. -/
def Outcome.Decided {α : Type} (o : Outcome α) : Prop := (∃ rest m, o = .ok rest m) ∨ o = .failed

namespace Frame

theorem run_finish (lt : Latest) : (St.text lt .out).run b!"x\r\n" = .ended := by
  have h : (lineStep lt 120).1 = .other := by
    have : isDigit 120 = false := by decide
    unfold lineStep; cases lt <;> simp [this]
  have e : (St.text lt .out).step 120 = .text .other .out := by simp [St.step, stepText, h, Quote.step]
  have : (St.text lt .out).run b!"x\r\n" = ((St.text lt .out).step 120).run b!"\r\n" := rfl
  rw [this, e]
  rfl

/-- The number of bytes that certainly suffice to end the message in this state. -/
def St.need : St → Nat
  | .ann a => a.length + 3
  | .lit n => n + 3
  | _ => 5

theorem run_close (s : St) : ∃ y, b!"\r\n" <:+ y ∧ (s.run y = .ended ∨ s.run y = .over) ∧ y.length ≤ s.need := by
  have hx : b!"\r\n" <:+ b!"x\r\n" := ⟨b!"x", rfl⟩
  have within : ∀ lt, (St.text lt .within).run b!"\"x\r\n" = .ended := by
    intro lt
    have : (St.text lt .within).run b!"\"x\r\n" = ((St.text lt .within).step 34).run b!"x\r\n" := rfl
    rw [this, show (St.text lt .within).step 34 = .text (lineStep lt 34).1 .out by simp [St.step, stepText, Quote.step], run_finish]
  cases s with
  | text lt q =>
    cases q with
    | out => exact ⟨b!"x\r\n", hx, .inl (run_finish lt), by simp [St.need]⟩
    | within => exact ⟨b!"\"x\r\n", hx.trans ⟨b!"\"", rfl⟩, .inl (within lt), by simp [St.need]⟩
    | escape =>
      refine ⟨b!"x\"x\r\n", hx.trans ⟨b!"x\"", rfl⟩, .inl ?_, by simp [St.need]⟩
      have : (St.text lt .escape).run b!"x\"x\r\n" = ((St.text lt .escape).step 120).run b!"\"x\r\n" := rfl
      rw [this, show (St.text lt .escape).step 120 = .text (lineStep lt 120).1 .within by simp [St.step, stepText, Quote.step], within]
  | ann a =>
    refine ⟨List.replicate a.length 120 ++ b!"x\r\n", hx.trans ⟨_, rfl⟩, .inl ?_, by simp [St.need]⟩
    rw [run_ann_rest (by simp) (by simp)]
    rfl
  | lit n =>
    refine ⟨List.replicate n 120 ++ b!"x\r\n", hx.trans ⟨_, rfl⟩, .inl ?_, by simp [St.need]⟩
    cases n with
    | zero => rfl
    | succ n =>
      have := run_lit_eq (List.replicate (n + 1) 120) (by simp)
      rw [List.length_replicate] at this
      rw [run_append, this]
      rfl
  | ended => exact ⟨b!"\r\n", List.suffix_rfl, .inr rfl, by simp [St.need]⟩
  | over => exact ⟨b!"\r\n", List.suffix_rfl, .inr rfl, by simp [St.need]⟩

/-- Where a literal began. -/
theorem run_lit_back {x : Bytes} : ∀ {k : Nat}, start.run x = .lit k →
    ∃ u v a, x = u ++ v ∧ start.run u = .ann a ∧ v.length + k = a.length := by
  induction x using List.reverseRecOn with
  | nil => intro k h; simp [start] at h
  | append_singleton x d ih =>
    intro k h
    rw [run_append] at h
    cases e : start.run x with
    | text lt q =>
      rw [e] at h
      simp only [run_cons, run_nil, St.step, stepText] at h
      split at h
      · split at h <;> simp at h
      · simp at h
    | ann a =>
      obtain ⟨m, n⟩ := a
      rw [e] at h
      rcases n with _ | _ | n
      · simp only [run_cons, run_nil, St.step, stepText] at h
        split at h
        · split at h <;> simp at h
        · simp at h
      · simp [St.step] at h
      · simp only [run_cons, run_nil, St.step, St.lit.injEq] at h
        exact ⟨x, [d], _, rfl, e, by simp; omega⟩
    | lit n =>
      obtain ⟨u, v, a, rfl, hu, hv⟩ := ih e
      rw [e] at h
      rcases n with _ | _ | n
      · simp [St.step] at h
      · simp [St.step] at h
      · simp only [run_cons, run_nil, St.step, St.lit.injEq] at h
        exact ⟨u, v ++ [d], a, by simp, hu, by simp; omega⟩
    | ended => rw [e] at h; simp [St.step] at h
    | over => rw [e] at h; simp [St.step] at h

variable [Quirks]

theorem decided_of {k : Codec} {x : Bytes} (hc : b!"\r\n" <:+ x) (h : start.run x = .ended ∨ start.run x = .over) : (k.decode x).Decided := by
  have hw : ¬ Waiting (start.run x) := by rcases h with h | h <;> simp [h, Waiting]
  have ha : ∀ a, start.run x ≠ .ann a := by intro a; rcases h with h | h <;> simp [h]
  have client : FromClient k → (k.decode x).Decided := by
    intro hk
    obtain ⟨-, h2, h3⟩ := decode_run hk x
    cases e : k.decode x with
    | ok r m => exact .inl ⟨r, m, rfl⟩
    | incomplete => exact absurd (h2 e) hw
    | literalFound t n m =>
      obtain ⟨-, m', -, hm⟩ := h3 t n m e
      exact absurd hm (ha _)
    | failed => exact .inr rfl
    | panicked => exact absurd e (C08_decode_never_panics k x)
  cases k with
  | greeting =>
    obtain ⟨-, h2, h3⟩ := C45_greeting x
    cases e : Codec.greeting.decode x with
    | ok r m => exact .inl ⟨r, m, rfl⟩
    | incomplete =>
      obtain ⟨t, rfl⟩ := hc
      exact absurd (h2 e) (by simp)
    | literalFound t n m => exact absurd e (h3 t n m)
    | failed => exact .inr rfl
    | panicked => exact absurd e (C08_decode_never_panics _ x)
  | response =>
    cases e : Codec.response.decode x with
    | ok r m => exact .inl ⟨r, m, rfl⟩
    | incomplete =>
      rcases C45_incomplete_partial x e with hu | ⟨-, t, rfl, ht⟩
      · exact absurd ((run_qunfinished hu).2 rfl) hw
      · refine absurd ?_ ht
        obtain ⟨w, hw⟩ := hc
        rcases w with _ | ⟨c, _ | ⟨c', w⟩⟩
        · simp at hw
        · simp at hw
        · simp at hw
          exact ⟨w, [], by simp [hw.2.2]⟩
    | literalFound t n m =>
      obtain ⟨m', hu⟩ := C45_literal x t n m e
      exact absurd ((run_qunfinished hu).1 _ rfl) (ha _)
    | failed => exact .inr rfl
    | panicked => exact absurd e (C08_decode_never_panics _ x)
  | command => exact client (.inl rfl)
  | authenticateData => exact client (.inr (.inl rfl))
  | idleDone => exact client (.inr (.inr rfl))

end Frame

variable [Quirks]

/-- C67: whatever the input, there is a continuation after which the decoder has decided for good. Five bytes suffice, unless the input ends in a
literal: then the missing bytes of the literal and three more suffice. -/
theorem C67_ends (k : Codec) (x : Bytes) :
    ∃ y, (y.length ≤ 5 ∨
        ∃ before literal a, x = before ++ literal ∧ QuotedUnfinished before (some a) ∧ literal.length ≤ a.length ∧
          y.length ≤ a.length - literal.length + 3) ∧
      ∀ z, (k.decode (x ++ y ++ z)).Decided := by
  obtain ⟨y, hc, hr, hl⟩ := Frame.run_close (Frame.start.run x)
  rw [← Frame.run_append] at hr
  refine ⟨y, ?_, fun z => ?_⟩
  · cases e : Frame.start.run x with
    | ann a =>
      rw [e] at hl
      exact .inr ⟨x, [], a, by simp, Frame.run_ann e, by simp, by simpa [Frame.St.need] using hl⟩
    | lit n =>
      rw [e] at hl
      obtain ⟨u, v, a, hx, hu, hv⟩ := Frame.run_lit_back e
      exact .inr ⟨u, v, a, hx, Frame.run_ann hu, by omega, by simp only [Frame.St.need] at hl; omega⟩
    | _ => rw [e] at hl; exact .inl hl
  · rcases Frame.decided_of (k := k) (hc.trans (List.suffix_append x y)) hr with ⟨r, m, e⟩ | e
    · exact .inl ⟨_, _, C05_ok_stable k _ z r m e⟩
    · exact .inr (C06_failed_stable k _ z e)

/-- C67: after a literal was signalled, the bytes of the literal and three more suffice. -/
theorem C67_literal (k : Codec) (x : Bytes) (tag : Option Bytes) (n : Nat) (mode : Option Mode) (h : k.decode x = .literalFound tag n mode) :
    ∃ y, y.length ≤ n + 3 ∧ ∀ z, (k.decode (x ++ y ++ z)).Decided := by
  have hr : ∃ m, Frame.start.run x = .ann ⟨m, n⟩ := by
    have client : FromClient k → ∃ m, Frame.start.run x = .ann ⟨m, n⟩ := by
      intro hk
      obtain ⟨-, m', -, hm⟩ := (Frame.decode_run hk x).2.2 tag n mode h
      exact ⟨m', hm⟩
    cases k with
    | greeting => exact absurd h ((C45_greeting x).2.2 tag n mode)
    | response =>
      obtain ⟨m', hu⟩ := C45_literal x tag n mode h
      exact ⟨m', (Frame.run_qunfinished hu).1 _ rfl⟩
    | command => exact client (.inl rfl)
    | authenticateData => exact client (.inr (.inl rfl))
    | idleDone => exact client (.inr (.inr rfl))
  obtain ⟨m, hm⟩ := hr
  obtain ⟨y, hc, hy, hl⟩ := Frame.run_close (Frame.start.run x)
  rw [← Frame.run_append] at hy
  rw [hm] at hl
  refine ⟨y, hl, fun z => ?_⟩
  rcases Frame.decided_of (k := k) (hc.trans (List.suffix_append x y)) hy with ⟨r, m, e⟩ | e
  · exact .inl ⟨_, _, C05_ok_stable k _ z r m e⟩
  · exact .inr (C06_failed_stable k _ z e)

/-! ### The Fragmentizer -/

namespace Frag

omit [Quirks] in
theorem progress_idle {s s' : State} (h : s.progress = (s', none)) : ∃ p, s'.parser = some p ∧ s'.unparsed = [] := by
  unfold State.progress at h
  split at h
  · obtain ⟨p, h1, h2, -⟩ := progressWith_none _ _ _ [] h
    exact ⟨p, h1, h2⟩
  · obtain ⟨p, h1, h2, -⟩ := progressWith_none _ _ _ [] h
    exact ⟨p, h1, h2⟩

omit [Quirks] in
theorem progress_finish {s : State} {p : LineParser} (hp : s.parser = some (.line p)) (hu : s.unparsed = b!"x\r\n") :
    (s.run [.progress]).1.complete = true := by
  have hl : annOf (scan p.latest b!"x\r") = none := by
    have h : (lineStep p.latest 120).1 = .other := by
      have : isDigit 120 = false := by decide
      unfold lineStep; cases p.latest <;> simp [this]
    simp only [scan, List.foldl_cons, List.foldl_nil, h]
    rfl
  have hparse : (Parser.line p).parse s.unparsed =
      (.line ⟨p.start, p.stop + 3, .other⟩, 3, some (.line p.start (p.stop + 3) none (endOf (scan p.latest b!"x\r")))) := by
    have := parse_LF p b!"x\r" [] (by decide)
    rw [hl] at this
    rw [hu]
    exact congrArg (fun r : LineParser × Nat × Option Info => (Parser.line r.1, r.2)) this
  have e : s.progress = s.progressWith (.line p) := by simp [State.progress, hp]
  have e' := progressWith_eq s (.line p) _ _ _ hparse
  simp only [State.run, State.exec]
  rw [e, e']
  rfl

omit [Quirks] in
theorem progress_literal_finish {s : State} {p : LiteralParser} (hp : s.parser = some (.literal p))
    (hu : s.unparsed = List.replicate p.remaining 120 ++ b!"x\r\n") : (s.run [.progress, .progress]).1.complete = true := by
  have hparse : (Parser.literal p).parse s.unparsed =
      (.literal ⟨p.start, p.stop + p.remaining, 0⟩, p.remaining, some (.literal p.start (p.stop + p.remaining))) := by
    rw [hu]
    simp [Parser.parse, LiteralParser.parse]
  have e : s.progress = s.progressWith (.literal p) := by simp [State.progress, hp]
  have e' := progressWith_eq s (.literal p) _ _ _ hparse
  simp only [finish, nextParser] at e'
  have : (s.run [.progress, .progress]).1 = (s.progress.1.run [.progress]).1 := by
    simp only [State.run, State.exec]
    rcases s.progress with ⟨s', _ | i⟩ <;> rfl
  rw [this, e, e']
  refine progress_finish rfl ?_
  simp only [dequeue_unparsed, hu]
  simp

end Frag

omit [Quirks] in
/-- C67: the Fragmentizer never waits for ever either. Whatever was done with it before: once `progress` has nothing more to report, there are a few
more bytes after which at most two calls of `progress` report that the message is complete. Three bytes suffice, unless the last fragment announced a
literal: then the bytes of the literal and three more suffice. -/
theorem C67_fragmentizer (max : Option Nat) (ops : List Op) (hd : Drained ((State.init max).run ops).1) :
    ∃ y n, n ≤ 2 ∧
      (y.length ≤ 3 ∨
        ∃ before start stop a ending, ((State.init max).run ops).2.map (·.info) = before ++ [.line start stop (some a) ending] ∧
          y.length ≤ a.length + 3) ∧
      ((State.init max).run (ops ++ [.progress, .enqueue y] ++ List.replicate n .progress)).1.complete = true := by
  have hpr : ((State.init max).run ops).1.progress = (((State.init max).run ops).1.progress.1, none) := Prod.ext rfl hd
  obtain ⟨p, h1, h2⟩ := Frag.progress_idle hpr
  have e1 : (((State.init max).run ops).1.run [.progress]).1 = ((State.init max).run ops).1.progress.1 := by
    simp only [State.run, State.exec]
    rw [hpr]
  have e2 : (((State.init max).run ops).1.run [.progress]).2 = [] := by
    simp only [State.run, State.exec]
    rw [hpr]
    rfl
  obtain ⟨segs, cur, infos, hh, -⟩ := hist_init max (ops ++ [.progress])
  have hag := hh.inv.agrees
  have hev := hh.evs_eq
  rw [run_append_fst, e1, h1] at hag
  rw [run_append_snd, e2, List.append_nil] at hev
  have hrun : ∀ y n, ((State.init max).run (ops ++ [.progress, .enqueue y] ++ List.replicate n .progress)).1 =
      ((((State.init max).run ops).1.progress.1.enqueue y).run (List.replicate n .progress)).1 := by
    intro y n
    rw [run_append_fst, show ops ++ [.progress, .enqueue y] = (ops ++ [.progress]) ++ [.enqueue y] by simp, run_append_fst, run_append_fst, e1]
    rfl
  cases p with
  | line p =>
    refine ⟨b!"x\r\n", 1, by omega, .inl (by simp), ?_⟩
    rw [hrun]
    exact Frag.progress_finish h1 (by simp [State.enqueue, h2])
  | literal p =>
    obtain ⟨b, is, l, a, e, lit, -, -, -, -, -, hi, -, -, hr⟩ := hag
    refine ⟨List.replicate p.remaining 120 ++ b!"x\r\n", 2, by omega, .inr ⟨(segs.map (·.2)).flatten ++ is, b.length, b.length + l.length, a, e, ?_, ?_⟩, ?_⟩
    · rw [hev, hi, List.append_assoc]
    · simp
      omega
    · rw [hrun]
      exact Frag.progress_literal_finish h1 (by simp [State.enqueue, h2])

section Examples

omit [Quirks] in
/-- An input for which the decoder waits, in a quoted string and after a backslash: the five bytes `x"x`, CR and LF end it. -/
theorem C67_example : @Codec.decode Quirks.default .command b!"A LOGIN a \"b\\" = .incomplete ∧
    (@Codec.decode Quirks.default .command (b!"A LOGIN a \"b\\" ++ b!"x\"x\r\n")).Decided :=
  ⟨by with_unfolding_all rfl, .inr (by with_unfolding_all rfl)⟩

/-- The hypothesis is met, and the message can be completed with fewer bytes than the bound. -/
example := @C67_literal Quirks.default .command b!"A LOGIN {1}\r\n" (some b!"A") 1 (some .sync) (by with_unfolding_all rfl)

example : @Codec.decode Quirks.default .command (b!"A LOGIN {1}\r\n" ++ b!"a") = .incomplete := by with_unfolding_all rfl

/-- A continuation request that ends with LF, for which the decoder waits although it would reject a status response that ends like that: the wait
ends with CRLF. -/
example : @Codec.decode Quirks.default .response b!"+ a\n" = .incomplete ∧
    (@Codec.decode Quirks.default .response (b!"+ a\n" ++ b!"\r\n")).Decided :=
  ⟨by with_unfolding_all rfl, .inr (by with_unfolding_all rfl)⟩

/-- The bound for literals can not be improved to the length of the literal: the line has to be ended, too. -/
example : @Codec.decode Quirks.default .command b!"A LOGIN {1}\r\na {1}\r\nb\r" = .incomplete := by with_unfolding_all rfl

omit [Quirks] in
/-- The hypothesis is met in the middle of a literal that is longer than the size limit. -/
theorem C67_example_fragmentizer : Drained ((State.init (some 4)).run [.enqueue b!"A LOGIN {20}\r\nabc", .progress, .progress]).1 := by
  unfold Drained
  decide

example := C67_fragmentizer (some 4) [.enqueue b!"A LOGIN {20}\r\nabc", .progress, .progress] C67_example_fragmentizer

omit [Quirks] in
/-- What C67 does not say, and what does not hold: that a decoder asks for more bytes only if there is a message that begins with its input. Here it
asks for one more byte, after the 31st of February, and fails for each of them. -/
theorem C67_fails_hope : @Codec.decode Quirks.default .command b!"A APPEND a \"31-Feb-2020 00:00:00 +0000" = .incomplete ∧
    ∀ d y, @Codec.decode Quirks.default .command (b!"A APPEND a \"31-Feb-2020 00:00:00 +0000" ++ d :: y) = .failed := by
  refine ⟨by with_unfolding_all rfl, fun d y => ?_⟩
  have key : ∀ n : Fin 256,
      ((@Codec.decode Quirks.default .command (b!"A APPEND a \"31-Feb-2020 00:00:00 +0000" ++ [UInt8.ofNat n])) matches .failed) = true := by
    decide +kernel
  have hd := key ⟨d.toNat, d.toNat_lt⟩
  simp only [UInt8.ofNat_toNat] at hd
  have e : @Codec.decode Quirks.default .command (b!"A APPEND a \"31-Feb-2020 00:00:00 +0000" ++ [d]) = .failed := by
    generalize @Codec.decode Quirks.default .command (b!"A APPEND a \"31-Feb-2020 00:00:00 +0000" ++ [d]) = o at hd
    cases o <;> simp_all
  have := @C06_failed_stable Quirks.default .command _ y e
  rwa [List.append_assoc] at this

end Examples

end Imap
