import Verif.StreamSpec
import Verif.Props.RoundTrip
/-
Property C56: decoding a stream without the Fragmentizer. The loop is in Verif/Stream.lean, the specification in Verif/StreamSpec.lean.
-/
set_option maxRecDepth 10000

namespace Imap
open Stream
variable [Quirks]

namespace Stream

theorem messages_append {k : Codec} (a b : List (Event k)) : messages (a ++ b) = messages a ++ messages b := by
  simp [messages]

theorem messages_literal {k : Codec} (t n md) (evs : List (Event k)) : messages (.literal t n md :: evs) = messages evs := rfl

/-- The specification is a function. -/
theorem Reads.unique {k : Codec} {x : Bytes} {ms ms' r r'} (h : Reads k x ms r) (h' : Reads k x ms' r') : ms = ms' ∧ r = r' := by
  induction h generalizing ms' with
  | stop hs =>
    cases h' with
    | stop _ => exact ⟨rfl, rfl⟩
    | next e _ => exact absurd e (hs _ _)
  | next e _ ih =>
    cases h' with
    | stop hs => exact absurd e (hs _ _)
    | next e' h' =>
      rw [e] at e'
      cases e'
      obtain ⟨rfl, rfl⟩ := ih h'
      exact ⟨rfl, rfl⟩

/-- What one pass over the buffer gives. -/
theorem decodeAll_spec (k : Codec) (fuel : Nat) (x : Bytes) (h : x.length < fuel) :
    ∃ ms rest, (decodeAll k fuel x).1 = ms.map .message ∧ (decodeAll k fuel x).2 = (rest, k.decode rest) ∧
      (∀ rem m, k.decode rest ≠ .ok rem m) ∧
      (∀ y ms' rest', Reads k (rest ++ y) ms' rest' → Reads k (x ++ y) (ms ++ ms') rest') ∧ rest <:+ x := by
  induction fuel generalizing x with
  | zero => omega
  | succ fuel ih =>
    cases e : k.decode x with
    | ok rem m =>
      obtain ⟨c, hc, rfl⟩ := C09_progress k x rem m e
      have hl : rem.length < fuel := by
        have := List.length_pos_iff.2 hc
        simp at h
        omega
      obtain ⟨ms, rest, h1, h2, h3, h4, h5⟩ := ih rem hl
      refine ⟨m :: ms, rest, ?_, ?_, h3, ?_, h5.trans (List.suffix_append _ _)⟩
      · simp [decodeAll, e, h1]
      · simp [decodeAll, e, h2]
      · intro y ms' rest' hr
        exact .next (C05_ok_stable k _ y _ m e) (h4 y ms' rest' hr)
    | _ =>
      refine ⟨[], x, ?_, ?_, ?_, ?_, List.suffix_rfl⟩
      · simp [decodeAll, e]
      · simp [decodeAll, e]
      · simp [e]
      · intro y ms' rest' hr
        simpa using hr

theorem messages_map {k : Codec} (ms : List k.Message) : messages (ms.map Event.message) = ms := by
  induction ms with
  | nil => rfl
  | cons m ms ih => simp only [messages, List.map_cons, List.filterMap_cons] at ih ⊢; rw [ih]

/-- The bytes that are left when the loop ends. -/
def End.rest : End → Bytes
  | .exhausted b => b
  | .failed b unread => b ++ unread.flatten
  | .panicked => []

theorem loop_spec (k : Codec) (buffer : Bytes) (chunks : List Bytes) :
    Reads k (buffer ++ chunks.flatten) (messages (loop k buffer chunks).1) (loop k buffer chunks).2.rest ∧
    (match (loop k buffer chunks).2 with
      | .exhausted b => k.decode b ≠ .failed
      | .failed b _ => k.decode b = .failed
      | .panicked => False) := by
  induction chunks generalizing buffer with
  | nil =>
    obtain ⟨ms, rest, h1, h2, h3, h4, _⟩ := decodeAll_spec k (buffer.length + 1) buffer (by omega)
    have hr := h4 [] [] rest (by simpa using Reads.stop h3)
    rw [loop]
    rcases hd : decodeAll k (buffer.length + 1) buffer with ⟨evs, b, o⟩
    rw [hd] at h1 h2
    simp only [Prod.mk.injEq] at h1 h2
    obtain ⟨rfl, rfl⟩ := h2
    subst h1
    cases e : k.decode b with
    | ok rem m => exact absurd e (h3 _ _)
    | panicked => exact absurd e (C08_decode_never_panics k b)
    | incomplete => simpa [End.rest, messages_map, e] using hr
    | failed => simpa [End.rest, messages_map, e] using hr
    | literalFound t n md => simpa [End.rest, messages_append, messages_map, e, messages_literal, show messages ([] : List (Event k)) = [] from rfl] using hr
  | cons c chunks ih =>
    obtain ⟨ms, rest, h1, h2, h3, h4, _⟩ := decodeAll_spec k (buffer.length + 1) buffer (by omega)
    rw [loop]
    rcases hd : decodeAll k (buffer.length + 1) buffer with ⟨evs, b, o⟩
    rw [hd] at h1 h2
    simp only [Prod.mk.injEq] at h1 h2
    obtain ⟨rfl, rfl⟩ := h2
    subst h1
    have hi := ih (b ++ c)
    cases e : k.decode b with
    | ok rem m => exact absurd e (h3 _ _)
    | panicked => exact absurd e (C08_decode_never_panics k b)
    | failed =>
      refine ⟨?_, by simpa using e⟩
      have hf : Reads k (b ++ (c :: chunks).flatten) [] (b ++ (c :: chunks).flatten) :=
        .stop fun r m h => by rw [C06_failed_stable k b _ e] at h; simp at h
      simpa [End.rest, messages_map] using h4 _ _ _ hf
    | incomplete =>
      refine ⟨?_, hi.2⟩
      have := h4 (c :: chunks).flatten _ _ (by simpa using hi.1)
      simpa [messages_append, messages_map] using this
    | literalFound t n md =>
      refine ⟨?_, hi.2⟩
      have := h4 (c :: chunks).flatten _ _ (by simpa using hi.1)
      simpa [messages_append, messages_map, messages_literal] using this

end Stream

/-- C56: whatever the chunks in which bytes arrive, and whatever the bytes are, the loop delivers exactly the messages that are in them, and
what it leaves is the rest of the bytes, in the buffer or not read yet. It stops early only if the decoder rejects the rest. It never panics. -/
theorem C56_delivers (k : Codec) (chunks : List Bytes) :
    ∃ rest, Reads k chunks.flatten (messages (loop k [] chunks).1) rest ∧
      (((loop k [] chunks).2 = .exhausted rest ∧ k.decode rest ≠ .failed) ∨
       ∃ buffer unread, (loop k [] chunks).2 = .failed buffer unread ∧ rest = buffer ++ unread.flatten ∧
         k.decode buffer = .failed ∧ k.decode rest = .failed) := by
  have h := loop_spec k [] chunks
  simp only [List.nil_append] at h
  refine ⟨_, h.1, ?_⟩
  have h2 := h.2
  cases e : (loop k [] chunks).2 with
  | exhausted b => rw [e] at h2; exact .inl ⟨rfl, h2⟩
  | failed b u => rw [e] at h2; exact .inr ⟨b, u, rfl, rfl, h2, C06_failed_stable k b _ h2⟩
  | panicked => rw [e] at h2; exact h2.elim

/-- C56: how the bytes are cut into chunks changes neither the messages that are delivered, nor whether the loop fails, nor the bytes
that are left. -/
theorem C56_chunking_independent (k : Codec) (chunks chunks' : List Bytes) (h : chunks.flatten = chunks'.flatten) :
    messages (loop k [] chunks).1 = messages (loop k [] chunks').1 ∧
    (∀ rest, (loop k [] chunks).2 = .exhausted rest ↔ (loop k [] chunks').2 = .exhausted rest) := by
  obtain ⟨rest, h1, h2⟩ := C56_delivers k chunks
  obtain ⟨rest', h1', h2'⟩ := C56_delivers k chunks'
  rw [← h] at h1'
  obtain ⟨e1, rfl⟩ := h1.unique h1'
  refine ⟨e1, fun r => ?_⟩
  rcases h2 with ⟨h2, hn⟩ | ⟨b, u, h2, _, _, hf⟩
  · rcases h2' with ⟨h2', _⟩ | ⟨b', u', _, _, _, hf'⟩
    · rw [h2, h2']
    · exact absurd hf' hn
  · rcases h2' with ⟨_, hn'⟩ | ⟨b', u', h2', _, _, _⟩
    · exact absurd hf hn'
    · rw [h2, h2']; simp

/-- The hypothesis is met by two ways to cut a command. -/
example := @C56_chunking_independent Quirks.default .command [b!"A NO", b!"OP\r\nB"] [b!"A ", b!"NOOP\r\n", b!"B"] rfl

theorem Stream.decode_empty (k : Codec) : k.decode [] = .incomplete := by
  cases k with
  | response =>
    have : response [] = .incomplete := by
      unfold response
      cases Quirks.emptyContinueReq <;> with_unfolding_all rfl
    simp [Codec.decode, this, outcomeResponse]
  | _ => with_unfolding_all rfl

theorem Stream.decode_nil (k : Codec) (rem : Bytes) (m : k.Message) : k.decode [] ≠ .ok rem m := by
  intro h
  obtain ⟨c, hc, e⟩ := C09_progress k [] rem m h
  simp at e
  exact hc e.1

/-- C56: the encodings of any sequence of supported messages, sent one after the other and cut into any chunks, are delivered as these
messages, in order, and nothing is left. -/
theorem C56_sent_messages (k : Codec) (ms : List k.Message) (h : ∀ m ∈ ms, Supported k m) (chunks : List Bytes)
    (hc : chunks.flatten = ms.flatMap fun m => dump (k.encode m)) :
    messages (loop k [] chunks).1 = ms.map k.norm ∧ (loop k [] chunks).2 = .exhausted [] := by
  obtain ⟨rest, h1, h2⟩ := C56_delivers k chunks
  have hr : Reads k (ms.flatMap fun m => dump (k.encode m)) (ms.map k.norm) [] := by
    clear hc h1 h2
    induction ms with
    | nil => exact .stop (Stream.decode_nil k)
    | cons m ms ih =>
      exact .next (round_trip k m (h m (by simp)) _) (ih fun m hm => h m (by simp [hm]))
  rw [hc] at h1
  obtain ⟨e1, rfl⟩ := h1.unique hr
  refine ⟨e1, ?_⟩
  rcases h2 with ⟨h2, _⟩ | ⟨b, u, _, e, hf, _⟩
  · exact h2
  · exfalso
    obtain ⟨rfl, _⟩ := List.append_eq_nil_iff.1 e.symm
    rw [Stream.decode_empty] at hf
    simp at hf

/-- C56: each announcement that the loop reports is honest: at this point the bytes that were read end with exactly this announcement. -/
theorem C56_literals_honest (chunks : List Bytes) (t : Option Bytes) (n : Nat) (mode : Option Mode)
    (h : Event.literal t n mode ∈ (loop .command [] chunks).1) :
    ∃ read m, read <+: chunks ∧ mode = some m ∧ Announces read.flatten n m := by
  have main : ∀ (chunks : List Bytes) (buffer : Bytes), Event.literal t n mode ∈ (loop .command buffer chunks).1 →
      ∃ read b m, read <+: chunks ∧ b <:+ buffer ++ read.flatten ∧ mode = some m ∧ Announces b n m := by
    intro chunks
    induction chunks with
    | nil =>
      intro buffer h
      obtain ⟨ms, rest, h1, h2, h3, h4, h5⟩ := decodeAll_spec .command (buffer.length + 1) buffer (by omega)
      rw [loop] at h
      rcases hd : decodeAll .command (buffer.length + 1) buffer with ⟨evs, b, o⟩
      rw [hd] at h1 h2 h
      simp only [Prod.mk.injEq] at h1 h2
      obtain ⟨rfl, rfl⟩ := h2
      subst h1
      cases e : Codec.command.decode b with
      | literalFound t' n' md =>
        rw [e] at h
        simp at h
        obtain ⟨rfl, rfl, rfl⟩ := h
        obtain ⟨⟨m, hm, ha⟩, _⟩ := C08_command_literal_honest b t n mode e
        exact ⟨[], b, m, List.prefix_rfl, by simpa using h5, hm, ha⟩
      | _ => rw [e] at h; simp at h
    | cons c chunks ih =>
      intro buffer h
      obtain ⟨ms, rest, h1, h2, h3, h4, h5⟩ := decodeAll_spec .command (buffer.length + 1) buffer (by omega)
      rw [loop] at h
      rcases hd : decodeAll .command (buffer.length + 1) buffer with ⟨evs, b, o⟩
      rw [hd] at h1 h2 h
      simp only [Prod.mk.injEq] at h1 h2
      obtain ⟨rfl, rfl⟩ := h2
      subst h1
      have later : Event.literal t n mode ∈ (loop .command (b ++ c) chunks).1 →
          ∃ read b m, read <+: c :: chunks ∧ b <:+ buffer ++ read.flatten ∧ mode = some m ∧ Announces b n m := by
        intro h
        obtain ⟨read, b', m, i1, i2, i3, i4⟩ := ih (b ++ c) h
        refine ⟨c :: read, b', m, by simpa using i1, i2.trans ?_, i3, i4⟩
        obtain ⟨u, hu⟩ := h5
        exact ⟨u, by simp [← hu]⟩
      cases e : Codec.command.decode b with
      | literalFound t' n' md =>
        rw [e] at h
        simp only [List.mem_append, List.mem_map, reduceCtorEq, and_false, exists_false, false_or, List.mem_cons,
          Event.literal.injEq] at h
        rcases h with ⟨rfl, rfl, rfl⟩ | h
        · obtain ⟨⟨m, hm, ha⟩, _⟩ := C08_command_literal_honest b t n mode e
          exact ⟨[], b, m, List.nil_prefix, by simpa using h5, hm, ha⟩
        · exact later h
      | incomplete => rw [e] at h; simp at h; exact later h
      | ok r m => exact absurd e (h3 _ _)
      | _ => rw [e] at h; simp at h
  obtain ⟨read, b, m, i1, i2, i3, i4⟩ := main chunks [] h
  refine ⟨read, m, i1, i3, ?_⟩
  simp only [List.nil_append] at i2
  obtain ⟨u, hu⟩ := i2
  obtain ⟨pre, ds, eol, hb, hrest⟩ := i4
  exact ⟨u ++ pre, ds, eol, by rw [← hu, hb]; simp, hrest⟩

/-- The hypothesis is met by a command with a literal. -/
example := @C56_literals_honest Quirks.default [b!"A LOGIN {", b!"1}\r\n", b!"a b\r\n"] (some b!"A") 1 (some .sync)
  (by
    have : (@Stream.loop Quirks.default .command [] [b!"A LOGIN {", b!"1}\r\n", b!"a b\r\n"]).1 =
        [.literal (some b!"A") 1 (some .sync), .message ⟨b!"A", .login (.string (.literal ⟨b!"a", .sync⟩)) (.atom b!"b")⟩] := by
      with_unfolding_all rfl
    rw [this]
    simp)

end Imap

/-! ### The hypotheses are met -/

namespace Imap
open Stream
section
attribute [local instance] Quirks.default

/-- Two commands, one with a literal, in four chunks. -/
example : loop .command [] [b!"A LOGIN {1}\r\n", b!"a b\r", b!"\nB NO", b!"OP\r\nC"] =
    ([.literal (some b!"A") 1 (some .sync), .message ⟨b!"A", .login (.string (.literal ⟨b!"a", .sync⟩)) (.atom b!"b")⟩,
      .message ⟨b!"B", .noop⟩], .exhausted b!"C") := by
  with_unfolding_all rfl

/-- A command that is rejected: the loop stops. -/
example : loop .command [] [b!"A NOOP\r\nB FOO\r\n", b!"C NOOP\r\n"] =
    ([.message ⟨b!"A", .noop⟩], .failed b!"B FOO\r\n" [b!"C NOOP\r\n"]) := by
  with_unfolding_all rfl

/-- Supported messages, for `C56_sent_messages`. -/
example : ∀ m ∈ [(⟨b!"A", .noop⟩ : Command), ⟨b!"B", .login (.atom b!"a") (.string (.literal ⟨b!"x", .sync⟩))⟩], Supported .command m := by
  intro m hm
  simp only [List.mem_cons, List.not_mem_nil, or_false] at hm
  rcases hm with rfl | rfl
  · exact (Spec.Command.inv_iff _).1 (by decide)
  · exact (Spec.Command.inv_iff _).1 (by decide)
end
end Imap
