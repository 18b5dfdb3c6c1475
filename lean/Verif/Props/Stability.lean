import Verif.Codec
import Verif.NoFail
/-
Properties C05 to C09 and C36: the decoders of the five codecs and the stream of bytes they read.
-/
set_option maxRecDepth 10000

namespace Imap

variable [Quirks]

/-! ### The parser of commands -/

/-- The parser after the tag and the space. -/
def taggedBody (t : Bytes) : P Command := do
  let b ← commandBody
  return ⟨t, b⟩

instance (t : Bytes) : Nice (taggedBody t) := by unfold taggedBody; infer_instance

theorem command_eq (x : Bytes) : command x = (tagImap x).andThen fun t i => (sp i).andThen fun _ i =>
    fillTag t (taggedBody t i) := rfl

omit [Quirks] in
theorem tagImap_ok {x i t : Bytes} (h : tagImap x = .ok i t) : x = t ++ i ∧ isTagStr t = true := by
  obtain ⟨h1, h2, h3⟩ := exists_of_takeWhile1 h
  exact ⟨h1, by simp [isTagStr, h2, h3]⟩

instance : NoFail tagImap := by unfold tagImap; infer_instance

/-- The shape of each result of the parser of commands: there is a tag and a space and the rest decides; or the input is too
short for that; or it starts differently. -/
theorem command_cases (x : Bytes) :
    (∃ t i, x = t ++ 32 :: i ∧ isTagStr t = true ∧
      ∀ y, command (x ++ y) = fillTag t (taggedBody t (i ++ y))) ∨
    command x = .incomplete ∨ ∀ y, command (x ++ y) = .error := by
  cases e : tagImap x with
  | incomplete => exact .inr (.inl (by simp [command_eq, e]))
  | error => exact .inr (.inr fun y => by simp [command_eq, (inferInstance : Nice tagImap).err e y])
  | failure k => exact absurd e (NoFail.out _ _)
  | ok i t =>
    obtain ⟨rfl, ht⟩ := tagImap_ok e
    cases i with
    | nil => exact .inr (.inl (by rw [command_eq, e]; rfl))
    | cons c i =>
      have e' : ∀ y, tagImap (t ++ c :: i ++ y) = .ok (c :: i ++ y) t := (inferInstance : Nice tagImap).ok e
      by_cases hc : c = 32
      · subst hc
        refine .inl ⟨t, i, rfl, ht, fun y => ?_⟩
        rw [command_eq, e' y]
        rfl
      · refine .inr (.inr fun y => ?_)
        rw [command_eq, e' y]
        simp [sp, char, hc]

omit [Quirks] in
theorem fillTag_ok {α : Type} {t rem : Bytes} {r : Res α} {v : α} : fillTag t r = .ok rem v ↔ r = .ok rem v := by
  cases r with
  | failure k => cases k <;> simp [fillTag]
  | _ => simp [fillTag]

omit [Quirks] in
theorem fillTag_error {α : Type} {t : Bytes} {r : Res α} : fillTag t r = .error ↔ r = .error := by
  cases r with
  | failure k => cases k <;> simp [fillTag]
  | _ => simp [fillTag]

omit [Quirks] in
theorem fillTag_failure {α : Type} {t : Bytes} {r : Res α} {k : Fail} (h : fillTag t r = .failure k) :
    (∃ t' n m, r = .failure (.literal t' n m) ∧ k = .literal (some t) n m) ∨
      (r = .failure k ∧ ∀ t n m, k ≠ .literal t n m) := by
  cases r with
  | failure k' => cases k' <;> simp_all [fillTag] <;> simp [← h]
  | _ => simp [fillTag] at h

/-! ### C05 -/

/-- C05. A message that was decoded stays decoded, with the same value, when more bytes arrive; these are part of the
remainder. -/
theorem C05_ok_stable (k : Codec) (x y rem : Bytes) (m : k.Message) (h : k.decode x = .ok rem m) :
    k.decode (x ++ y) = .ok (rem ++ y) m := by
  have plain : ∀ {α : Type} {p : P α} [Nice p] {m : α}, outcomePlain (p x) = .ok rem m → outcomePlain (p (x ++ y)) = .ok (rem ++ y) m := by
    intro α p _ m h
    cases e : p x <;> rw [e] at h <;> simp [outcomePlain] at h
    rw [Nice.ok e y]
    simp [outcomePlain, h]
  cases k with
  | greeting => exact plain h
  | authenticateData => exact plain h
  | idleDone => exact plain h
  | response =>
    simp only [Codec.decode] at h ⊢
    cases e : response x with
    | ok r v =>
      rw [e] at h
      rw [Nice.ok e y]
      simp only [outcomeResponse, Outcome.ok.injEq] at h ⊢
      simp [h]
    | failure k => rw [e] at h; cases k <;> simp [outcomeResponse] at h
    | _ => rw [e] at h; simp [outcomeResponse] at h
  | command =>
    simp only [Codec.decode] at h ⊢
    cases e : command x with
    | ok r v =>
      rw [e] at h
      simp only [outcomeCommand, Outcome.ok.injEq] at h
      obtain ⟨rfl, rfl⟩ := h
      rcases command_cases x with ⟨t, i, rfl, ht, hc⟩ | hc | hc
      · have h0 := hc []
        simp only [List.append_nil, e] at h0
        have h1 := Nice.ok (p := taggedBody t) (fillTag_ok.1 h0.symm) y
        rw [hc y, fillTag_ok.2 h1]
        rfl
      · rw [e] at hc; simp at hc
      · have := hc []
        simp [e] at this
    | failure k => rw [e] at h; rcases k with ⟨_ | _, _, _⟩ | _ | _ | _ | _ <;> simp [outcomeCommand] at h
    | _ => rw [e] at h; simp [outcomeCommand] at h

/-- The hypothesis is met by a command and the start of another. -/
example := @C05_ok_stable Quirks.default .command b!"A LOGIN {1}\r\na \"b\"\r\nB" b!" NOOP\r\n" b!"B"
  ⟨b!"A", .login (.string (.literal ⟨b!"a", .sync⟩)) (.string (.quoted b!"b"))⟩ (by with_unfolding_all rfl)

/-! ### C06 -/

/-- C06. Once a decoder has returned `Failed`, it returns `Failed` however the input continues. -/
theorem C06_failed_stable (k : Codec) (x y : Bytes) (h : k.decode x = .failed) : k.decode (x ++ y) = .failed := by
  have plain : ∀ {α : Type} {p : P α} [Nice p] [NoFail p], outcomePlain (p x) = .failed → outcomePlain (p (x ++ y)) = .failed := by
    intro α p _ _ h
    cases e : p x with
    | error => rw [Nice.err e y]; rfl
    | failure k => exact absurd e (NoFail.out _ _)
    | _ => rw [e] at h; simp [outcomePlain] at h
  cases k with
  | greeting => exact plain h
  | authenticateData => exact plain h
  | idleDone => exact plain h
  | response =>
    simp only [Codec.decode] at h ⊢
    cases e : response x with
    | error => rw [Nice.err e y]; rfl
    | failure k =>
      rw [e] at h
      have hk : ∀ t n m, k ≠ .literal t n m := by
        rintro t n m rfl
        simp [outcomeResponse] at h
      rw [Nice.fail e hk y]
      exact h
    | _ => rw [e] at h; simp [outcomeResponse] at h
  | command =>
    simp only [Codec.decode] at h ⊢
    rcases command_cases x with ⟨t, i, rfl, ht, hc⟩ | hc | hc
    · have h0 := hc []
      simp only [List.append_nil] at h0
      have hp : Nice (taggedBody t) := inferInstance
      cases e : command (t ++ 32 :: i) with
      | error =>
        rw [e] at h0
        have h1 := hp.err (fillTag_error.1 h0.symm) y
        rw [hc y, fillTag_error.2 h1]
        rfl
      | failure k =>
        rw [e] at h0 h
        rcases fillTag_failure h0.symm with ⟨t', n, m, h1, rfl⟩ | ⟨h1, h2⟩
        · simp [outcomeCommand] at h
        · have h3 := hp.fail h1 h2 y
          rw [hc y, h3]
          cases k with
          | literal t n m => exact absurd rfl (h2 t n m)
          | _ => rfl
      | _ => rw [e] at h; simp [outcomeCommand] at h
    · rw [hc] at h; simp [outcomeCommand] at h
    · rw [hc y]; rfl

/-- The hypothesis is met by a command with a wrong argument. -/
example := @C06_failed_stable Quirks.default .command b!"A COPY 0 x" b!"\r\nA NOOP\r\n" (by with_unfolding_all rfl)

/-! ### C08 -/

/-- `x` ends with the announcement of a literal of length `n` and mode `mode`: `{n}` or `{n+}`, and the end of the line (CRLF; or
just LF with quirk_crlf_relaxed). -/
def Announces (x : Bytes) (n : Nat) (mode : Mode) : Prop :=
  ∃ pre digits eol, x = pre ++ b!"{" ++ digits ++ (if mode = .nonSync then b!"+" else []) ++ b!"}" ++ eol ∧
    (eol = b!"\r\n" ∨ Quirks.crlfRelaxed = true ∧ eol = b!"\n") ∧
    digits ≠ [] ∧ (∀ d ∈ digits, 48 ≤ d ∧ d ≤ 57) ∧ digits.foldl (fun a d => a * 10 + (d.toNat - 48)) 0 = n ∧ n ≤ 4294967295

theorem announces_of_ends {x : Bytes} {n : Nat} {m : Mode} (h : EndsAnnouncing x n m) : Announces x n m := by
  obtain ⟨pre, ds, e, hx, he, hne, hd, hv, hn⟩ := h
  refine ⟨pre, ds, Frag.endingBytes e, ?_, ?_, hne, fun d h => by simpa [isDigit] using hd d h, hv, by omega⟩
  · rw [hx]
    cases m <;> simp [Frag.modeBytes]
  · cases e with
    | crlf => exact .inl rfl
    | lf =>
      cases hq : Quirks.crlfRelaxed with
      | true => exact .inr ⟨rfl, rfl⟩
      | false => exact absurd (he hq) (by simp)

/-- C08. If the decoder of commands signals a literal, the input ends with exactly this announcement, and it starts with the
tag that is reported, followed by a space. -/
theorem C08_command_literal_honest (x : Bytes) (tag : Option Bytes) (n : Nat) (mode : Option Mode)
    (h : Codec.command.decode x = .literalFound tag n mode) :
    (∃ m, mode = some m ∧ Announces x n m) ∧
    (∃ t rest, tag = some t ∧ x = t ++ b!" " ++ rest ∧ isTagStr t = true) := by
  simp only [Codec.decode] at h
  rcases command_cases x with ⟨t, i, rfl, ht, hc⟩ | hc | hc
  · have h0 := hc []
    simp only [List.append_nil] at h0
    rw [h0] at h
    cases e : fillTag t (taggedBody t i) with
    | failure k =>
      rw [e] at h
      rcases fillTag_failure e with ⟨t', n', m, h1, rfl⟩ | ⟨h1, h2⟩
      · simp only [outcomeCommand, Outcome.literalFound.injEq] at h
        obtain ⟨rfl, rfl, rfl⟩ := h
        refine ⟨⟨m, rfl, announces_of_ends ?_⟩, ⟨t, i, rfl, by simp, ht⟩⟩
        have := (Nice.lit h1).2.prepend (c := t ++ [32])
        simpa using this
      · rcases k with ⟨_ | _, _, _⟩ | _ | _ | _ | _
        · simp [outcomeCommand] at h
        · exact absurd rfl (h2 _ _ _)
        all_goals simp [outcomeCommand] at h
    | _ => rw [e] at h; simp [outcomeCommand] at h
  · rw [hc] at h; simp [outcomeCommand] at h
  · have := hc []
    simp only [List.append_nil] at this
    rw [this] at h
    simp [outcomeCommand] at h

/-- The hypothesis is met by the announcement of a user name. -/
example := @C08_command_literal_honest Quirks.default b!"A LOGIN {12+}\r\n" (some b!"A") 12 (some .nonSync) (by with_unfolding_all rfl)

/-- C08. If the decoder of responses signals a literal, the input ends with the announcement of a literal of this length. -/
theorem C08_response_literal_honest (x : Bytes) (tag : Option Bytes) (n : Nat) (mode : Option Mode)
    (h : Codec.response.decode x = .literalFound tag n mode) : ∃ m, Announces x n m := by
  simp only [Codec.decode] at h
  cases e : response x with
  | failure k =>
    rw [e] at h
    rcases k with ⟨t, l, m⟩ | _ | _ | _ | _
    · simp only [outcomeResponse, Outcome.literalFound.injEq] at h
      obtain ⟨_, rfl, _⟩ := h
      exact ⟨m, announces_of_ends (Nice.lit e).2⟩
    all_goals simp [outcomeResponse] at h
  | _ => rw [e] at h; simp [outcomeResponse] at h

/-- The hypothesis is met by the announcement of the name of a mailbox. -/
example := @C08_response_literal_honest Quirks.default b!"* LIST () \"/\" {2}\r\n" none 2 none (by with_unfolding_all rfl)

/-- C08. Only the decoders of commands and responses signal literals. -/
theorem C08_others_no_literal (k : Codec) (hk : k ≠ .command ∧ k ≠ .response) (x : Bytes) (tag : Option Bytes) (n : Nat)
    (mode : Option Mode) : k.decode x ≠ .literalFound tag n mode := by
  have plain : ∀ {α : Type} (r : Res α), outcomePlain r ≠ .literalFound tag n mode := by
    intro α r
    cases r <;> simp [outcomePlain]
  cases k with
  | command => exact absurd rfl hk.1
  | response => exact absurd rfl hk.2
  | _ => exact plain _

/-- The hypothesis is met by greetings. -/
example := @C08_others_no_literal Quirks.default .greeting ⟨by decide, by decide⟩

/-- C08. The `expect` on the tag of a literal never panics. -/
theorem C08_decode_never_panics (k : Codec) (x : Bytes) : k.decode x ≠ .panicked := by
  have plain : ∀ {α : Type} (r : Res α), outcomePlain r ≠ .panicked := by
    intro α r
    cases r <;> simp [outcomePlain]
  cases k with
  | greeting => exact plain _
  | authenticateData => exact plain _
  | idleDone => exact plain _
  | response =>
    simp only [Codec.decode]
    cases response x with
    | failure k => cases k <;> simp [outcomeResponse]
    | _ => simp [outcomeResponse]
  | command =>
    simp only [Codec.decode]
    intro h
    rcases command_cases x with ⟨t, i, rfl, ht, hc⟩ | hc | hc
    · have h0 := hc []
      simp only [List.append_nil] at h0
      rw [h0] at h
      cases e : fillTag t (taggedBody t i) with
      | failure k =>
        rw [e] at h
        rcases fillTag_failure e with ⟨t', n', m, h1, rfl⟩ | ⟨h1, h2⟩
        · simp [outcomeCommand] at h
        · rcases k with ⟨_ | _, _, _⟩ | _ | _ | _ | _
          · exact absurd rfl (h2 _ _ _)
          all_goals simp [outcomeCommand] at h
      | _ => rw [e] at h; simp [outcomeCommand] at h
    · rw [hc] at h; simp [outcomeCommand] at h
    · have := hc []
      simp only [List.append_nil] at this
      rw [this] at h
      simp [outcomeCommand] at h

/-! ### C07 -/

/-- C07. If a message was decoded with nothing left over, then no proper prefix of it was decoded or rejected: the decoder
asks for more bytes, directly or by announcing a literal. -/
theorem C07_prefix_never_rejected (k : Codec) (p q : Bytes) (hq : q ≠ []) (m : k.Message) (h : k.decode (p ++ q) = .ok [] m) :
    k.decode p = .incomplete ∨ ∃ tag n mode, k.decode p = .literalFound tag n mode := by
  cases e : k.decode p with
  | ok r v =>
    have := C05_ok_stable k p q r v e
    rw [h] at this
    simp [hq] at this
  | incomplete => exact .inl rfl
  | literalFound t n m => exact .inr ⟨t, n, m, rfl⟩
  | failed =>
    have := C06_failed_stable k p q e
    rw [h] at this
    simp at this
  | panicked => exact absurd e (C08_decode_never_panics k p)

/-- The hypotheses are met by a command that is cut after the announcement of a literal. -/
example := @C07_prefix_never_rejected Quirks.default .command b!"A LOGIN {1}\r\n" b!"a \"b\"\r\n" (by decide)
  ⟨b!"A", .login (.string (.literal ⟨b!"a", .sync⟩)) (.string (.quoted b!"b"))⟩ (by with_unfolding_all rfl)

/-! ### C09 -/

/-- C09. A decoder consumes at least one byte and returns the rest of the input unchanged. -/
theorem C09_progress (k : Codec) (x rem : Bytes) (m : k.Message) (h : k.decode x = .ok rem m) :
    ∃ consumed, consumed ≠ [] ∧ x = consumed ++ rem := by
  have main : ∀ {α : Type} {p : P α} {v : α}, Nice p → Eats p → p x = .ok rem v → ∃ consumed, consumed ≠ [] ∧ x = consumed ++ rem := by
    intro α p v hn he h
    obtain ⟨c, rfl⟩ := hn.suf h
    have := he.out _ _ _ h
    refine ⟨c, ?_, rfl⟩
    rintro rfl
    simp at this
  have plain : ∀ {α : Type} {p : P α} {v : α}, Nice p → Eats p → outcomePlain (p x) = .ok rem v →
      ∃ consumed, consumed ≠ [] ∧ x = consumed ++ rem := by
    intro α p v hn he h
    cases e : p x <;> rw [e] at h <;> simp [outcomePlain] at h
    obtain ⟨rfl, rfl⟩ := h
    exact main hn he e
  cases k with
  | greeting => exact plain inferInstance eats_greeting h
  | authenticateData => exact plain inferInstance eats_authenticateData h
  | idleDone => exact plain inferInstance eats_idleDone h
  | response =>
    simp only [Codec.decode] at h
    cases e : response x with
    | ok r v =>
      rw [e] at h
      simp only [outcomeResponse, Outcome.ok.injEq] at h
      obtain ⟨rfl, rfl⟩ := h
      exact main inferInstance eats_response e
    | failure k => rw [e] at h; cases k <;> simp [outcomeResponse] at h
    | _ => rw [e] at h; simp [outcomeResponse] at h
  | command =>
    simp only [Codec.decode] at h
    cases e : command x with
    | ok r v =>
      rw [e] at h
      simp only [outcomeCommand, Outcome.ok.injEq] at h
      obtain ⟨rfl, rfl⟩ := h
      rcases command_cases x with ⟨t, i, rfl, ht, hc⟩ | hc | hc
      · have h0 := hc []
        simp only [List.append_nil, e] at h0
        obtain ⟨c, rfl⟩ := Nice.suf (fillTag_ok.1 h0.symm)
        exact ⟨t ++ 32 :: c, by simp, by simp⟩
      · rw [e] at hc; simp at hc
      · have := hc []
        simp [e] at this
    | failure k => rw [e] at h; rcases k with ⟨_ | _, _, _⟩ | _ | _ | _ | _ <;> simp [outcomeCommand] at h
    | _ => rw [e] at h; simp [outcomeCommand] at h

/-- The hypothesis is met by a command and the start of another. -/
example := @C09_progress Quirks.default .command b!"A NOOP\r\nB" b!"B" ⟨b!"A", .noop⟩ (by with_unfolding_all rfl)

/-! ### C36 -/

/-- C36. After a literal has been signalled, the decoder asks for more bytes until the announced number of bytes is there: it
neither decodes nor rejects the message, nor signals another literal. -/
theorem C36_literal_needs_its_length (k : Codec) (x d : Bytes) (tag : Option Bytes) (n : Nat) (mode : Option Mode)
    (h : k.decode x = .literalFound tag n mode) (hd : d ≠ []) (hl : d.length < n) : k.decode (x ++ d) = .incomplete := by
  cases k with
  | greeting => exact absurd h (C08_others_no_literal .greeting (by simp) _ _ _ _)
  | authenticateData => exact absurd h (C08_others_no_literal .authenticateData (by simp) _ _ _ _)
  | idleDone => exact absurd h (C08_others_no_literal .idleDone (by simp) _ _ _ _)
  | response =>
    simp only [Codec.decode] at h ⊢
    cases e : response x with
    | failure k =>
      rw [e] at h
      rcases k with ⟨t, l, m⟩ | _ | _ | _ | _
      · simp only [outcomeResponse, Outcome.literalFound.injEq] at h
        obtain ⟨_, rfl, _⟩ := h
        rw [Nice.more e d hd hl]
        rfl
      all_goals simp [outcomeResponse] at h
    | _ => rw [e] at h; simp [outcomeResponse] at h
  | command =>
    simp only [Codec.decode] at h ⊢
    rcases command_cases x with ⟨t, i, rfl, ht, hc⟩ | hc | hc
    · have h0 := hc []
      simp only [List.append_nil] at h0
      rw [h0] at h
      cases e : fillTag t (taggedBody t i) with
      | failure k =>
        rw [e] at h
        rcases fillTag_failure e with ⟨t', n', m, h1, rfl⟩ | ⟨h1, h2⟩
        · simp only [outcomeCommand, Outcome.literalFound.injEq] at h
          obtain ⟨rfl, rfl, rfl⟩ := h
          rw [hc d, Nice.more h1 d hd hl]
          rfl
        · rcases k with ⟨_ | _, _, _⟩ | _ | _ | _ | _
          · simp [outcomeCommand] at h
          · exact absurd rfl (h2 _ _ _)
          all_goals simp [outcomeCommand] at h
      | _ => rw [e] at h; simp [outcomeCommand] at h
    · rw [hc] at h; simp [outcomeCommand] at h
    · have := hc []
      simp only [List.append_nil] at this
      rw [this] at h
      simp [outcomeCommand] at h

/-- The hypotheses are met by two of three bytes. -/
example := @C36_literal_needs_its_length Quirks.default .command b!"A LOGIN {3}\r\n" b!"\r\n" (some b!"A") 3 (some .sync)
  (by with_unfolding_all rfl) (by decide) (by decide)

end Imap

namespace Imap

/-! ### The hypotheses are met -/

section
local instance : Quirks := Quirks.default

/-- A message followed by the start of another one (C05, C09). -/
example : Codec.command.decode b!"A1 LOGIN alice {3}\r\nabc\r\nA2 " = .ok b!"A2 " ⟨b!"A1", .login (.atom b!"alice") (.string (.literal ⟨b!"abc", .sync⟩))⟩ :=
  rfl

example : Codec.response.decode b!"* 23 EXISTS\r\n* 5" = .ok b!"* 5" (.data (.exists_ 23)) := by
  rfl

example : Codec.greeting.decode b!"* PREAUTH [ALERT] hi\r\n" = .ok [] ⟨.preAuth, some .alert, b!"hi"⟩ := by
  rfl

/-- Rejected inputs (C06). -/
example : Codec.command.decode b!"A1 FOO" = .failed := rfl
example : Codec.greeting.decode b!"* NO" = .failed := rfl
example : Codec.response.decode b!"* 0 EXPUNGE" = .failed := rfl

/-- A literal is announced (C08, C36), and a prefix of its data is not enough. -/
example : Codec.command.decode b!"A1 LOGIN alice {3+}\r\n" = .literalFound (some b!"A1") 3 (some .nonSync) := rfl
example : Codec.command.decode b!"A1 LOGIN alice {3+}\r\nab" = .incomplete := rfl
example : Codec.response.decode b!"* 1 FETCH (RFC822 {5}\r\n" = .literalFound none 5 none := rfl

end

end Imap
