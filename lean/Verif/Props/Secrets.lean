import Verif.Debug
import Verif.Props.RoundTrip
import Verif.Props.Strings

/-!
# C47: secrets are not printed by `Debug`
-/

set_option maxRecDepth 10000

namespace Imap
namespace Spec

/-- Two commands that differ, at most, in a password or in the initial response of a SASL exchange. -/
inductive SameButSecrets : Command → Command → Prop where
  | refl (c : Command) : SameButSecrets c c
  | login (tag : Bytes) (user password password' : AString) : SameButSecrets ⟨tag, .login user password⟩ ⟨tag, .login user password'⟩
  | authenticate (tag : Bytes) (mechanism : AuthMechanism) (response response' : Bytes) :
    SameButSecrets ⟨tag, .authenticate mechanism (some response)⟩ ⟨tag, .authenticate mechanism (some response')⟩

/-- Two results of `decode_message` that differ, at most, in secrets of the commands and in the bytes that came with an error. -/
inductive SameResult {ε : Type} : Frag.Decoded ε Command → Frag.Decoded ε Command → Prop where
  | ok {c c' : Command} (h : SameButSecrets c c') : SameResult (.ok c) (.ok c')
  | decodingFailure (e : ε) : SameResult (.decodingFailure e) (.decodingFailure e)
  | decodingRemainder {c c' : Command} (h : SameButSecrets c c') (r r' : Bytes) : SameResult (.decodingRemainder c r) (.decodingRemainder c' r')
  | messageTooLong (b b' : Bytes) : SameResult (.messageTooLong b) (.messageTooLong b')
  | messagePoisoned (b b' : Bytes) : SameResult (.messagePoisoned b) (.messagePoisoned b')

/-- A command that holds a secret. -/
def HoldsSecret (c : Command) : Prop := (∃ u p, c.body = .login u p) ∨ ∃ m d, c.body = .authenticate m (some d)

end Spec
open Spec

variable {env : DebugEnv}

/-- Without debug assertions, what `Debug` prints of a command does not depend on its secret. The documents are equal, and with them the texts, in any layout. -/
theorem C47_command (h : env.debugAssertions = false) (c c' : Command) (hc : SameButSecrets c c') : Doc.ofCommand env c = Doc.ofCommand env c' := by
  cases hc <;> simp [Doc.ofCommand, Doc.ofBody, Doc.secret, Doc.ofOption, h]

/-- The same for SASL data. -/
theorem C47_authenticateData (h : env.debugAssertions = false) (d d' : Bytes) :
    Doc.ofAuthenticateData env (.continue_ d) = Doc.ofAuthenticateData env (.continue_ d') := by
  simp [Doc.ofAuthenticateData, Doc.secret, h]

/-- The same for the results of `decode_message`, including the bytes that come with an error. -/
theorem C47_decode_message {ε : Type} (h : env.debugAssertions = false) (e : ε → Doc) (r r' : Frag.Decoded ε Command) (hr : SameResult r r') :
    Doc.ofDecoded env e (Doc.ofCommand env) r = Doc.ofDecoded env e (Doc.ofCommand env) r' := by
  cases hr with
  | ok hc => simp [Doc.ofDecoded, C47_command h _ _ hc]
  | decodingRemainder hc => simp [Doc.ofDecoded, Doc.secret, h, C47_command h _ _ hc]
  | _ => simp [Doc.ofDecoded, Doc.secret, h]

/-- Nothing but the secrets is hidden: if the texts of strings are faithful, and `Debug` prints the same of two commands with secrets, then they differ in their secrets only. -/
theorem C47_only_secrets (hs : ∀ s t : Bytes, env.str s = env.str t → s = t) (c c' : Command) (hc : HoldsSecret c) (hc' : HoldsSecret c')
    (h : Doc.ofCommand env c = Doc.ofCommand env c') : SameButSecrets c c' := by
  have htag : ∀ s t : Bytes, Doc.ofTag env s = Doc.ofTag env t → s = t := fun s t h => hs s t (by simpa [Doc.ofTag] using h)
  have hesc : ∀ s t : Bytes, escapeByteString s = escapeByteString t → s = t := C34_injective
  have hmode : ∀ s t : Mode, Doc.ofMode s = Doc.ofMode t → s = t := by intro s t; cases s <;> cases t <;> simp [Doc.ofMode]
  have hlit : ∀ s t : Literal, Doc.ofLiteral s = Doc.ofLiteral t → s = t := by
    intro s t h
    simp [Doc.ofLiteral] at h
    obtain ⟨s, m⟩ := s
    obtain ⟨t, n⟩ := t
    simp only [Literal.mk.injEq]
    exact ⟨hesc _ _ h.1, hmode _ _ h.2⟩
  have hstr : ∀ s t : IString, Doc.ofIString env s = Doc.ofIString env t → s = t := by
    intro s t h
    cases s <;> cases t <;> simp [Doc.ofIString] at h
    · rw [hlit _ _ h]
    · rw [hs _ _ h]
    · rw [hs _ _ h]
  have hastr : ∀ s t : AString, Doc.ofAString env s = Doc.ofAString env t → s = t := by
    intro s t h
    cases s <;> cases t <;> simp [Doc.ofAString] at h
    · rw [hs _ _ h]
    · rw [hstr _ _ h]
  have hmech : ∀ s t : AuthMechanism, Doc.ofMechanism env s = Doc.ofMechanism env t → s = t := by
    intro s t h
    cases s <;> cases t <;> simp [Doc.ofMechanism] at h ⊢
    exact hs _ _ h
  obtain ⟨t, b⟩ := c
  obtain ⟨t', b'⟩ := c'
  simp only [Doc.ofCommand, Doc.struct.injEq, true_and, List.cons.injEq, Prod.mk.injEq, and_true] at h
  obtain rfl := htag _ _ h.1
  replace h := h.2
  rcases hc with ⟨u, p, rfl⟩ | ⟨m, d, rfl⟩ <;> rcases hc' with ⟨u', p', rfl⟩ | ⟨m', d', rfl⟩ <;>
    simp [Doc.ofBody] at h
  · obtain rfl := hastr _ _ h.1
    exact .login _ _ _ _
  · obtain rfl := hmech _ _ h.1
    exact .authenticate _ _ _ _

/-- From the wire to the log: a server that decodes what a client has sent, and prints the command with `Debug`, prints the same whatever the secret is. -/
theorem C47_wire [Quirks] (h : env.debugAssertions = false) (c c' : Command) (hc : SameButSecrets c c') (h1 : Supported .command c) (h2 : Supported .command c') :
    ∃ m m', Codec.command.decode (dump (Codec.command.encode c)) = .ok [] m ∧ Codec.command.decode (dump (Codec.command.encode c')) = .ok [] m' ∧
      Doc.ofCommand env m = Doc.ofCommand env m' := by
  have e1 := C01_command_round_trip_partial c h1 []
  have e2 := C01_command_round_trip_partial c' h2 []
  rw [List.append_nil] at e1 e2
  refine ⟨_, _, e1, e2, C47_command h _ _ ?_⟩
  cases hc with
  | refl => exact .refl _
  | login => exact .login _ _ _ _
  | authenticate => exact .authenticate _ _ _ _

/-- With debug assertions, the secrets are printed: `debug_assertions` is what protects them, not the type alone. -/
theorem C47_fails_debug_assertions (h : env.debugAssertions = true) :
    ∃ c c', SameButSecrets c c' ∧ (Doc.ofCommand env c).show ≠ (Doc.ofCommand env c').show := by
  refine ⟨_, _, .authenticate b!"A" .plain b!"x" b!"y", fun e => ?_⟩
  simp [Doc.ofCommand, Doc.ofBody, Doc.secret, h, Doc.show, Doc.show.showFields, Doc.show.shows, Doc.ofOption, Doc.ofBytes] at e
  revert e
  with_unfolding_all decide

/-- An encoded command is no longer protected, with or without debug assertions: `Debug for Encoded` prints its bytes. -/
theorem C47_fails_encoded : ∃ c c', SameButSecrets c c' ∧
    (Doc.ofEncoded (@Codec.encode Quirks.default .command c)).show ≠ (Doc.ofEncoded (@Codec.encode Quirks.default .command c')).show := by
  refine ⟨_, _, .login b!"A" (.atom b!"u") (.atom b!"x") (.atom b!"y"), ?_⟩
  with_unfolding_all decide

/-- Nor is the content of a Fragmentizer: `Debug for Fragmentizer` prints the bytes in its buffers. -/
theorem C47_fails_fragmentizer : ∃ x y : Bytes,
    (∃ c c', SameButSecrets c c' ∧ @Codec.decode Quirks.default .command x = .ok [] c ∧ @Codec.decode Quirks.default .command y = .ok [] c') ∧
    (Doc.ofFragmentizer env ((Frag.State.init none).enqueue x)).show ≠ (Doc.ofFragmentizer env ((Frag.State.init none).enqueue y)).show := by
  refine ⟨b!"A LOGIN u x\r\n", b!"A LOGIN u y\r\n", ⟨_, _, .login b!"A" (.atom b!"u") (.atom b!"x") (.atom b!"y"), by with_unfolding_all rfl,
    by with_unfolding_all rfl⟩, fun e => ?_⟩
  simp [Doc.ofFragmentizer, Doc.show, Doc.show.showFields, Frag.State.enqueue, Frag.State.init, Doc.ofBytes, Doc.show.shows] at e
  revert e
  with_unfolding_all decide

end Imap

namespace Imap.SecretsExamples
open Spec

/-- The text of strings, for ASCII characters other than quotes and backslashes. -/
def env (d : Bool) : DebugEnv := ⟨d, fun s => b!"\"" ++ s ++ b!"\"", fun _ => .text [], fun _ => .text []⟩

example : (env false).debugAssertions = false ∧ ∀ s t : Bytes, (env false).str s = (env false).str t → s = t := by simp [env]

/-- What is printed of a LOGIN without debug assertions, and with them. -/
example : (Doc.ofCommand (env false) ⟨b!"A", .login (.atom b!"alice") (.string (.quoted b!"xyz 123"))⟩).show =
    b!"Command { tag: Tag(\"A\"), body: Login { username: Atom(AtomExt(\"alice\")), password: /* REDACTED */ } }" := by with_unfolding_all rfl

example : (Doc.ofCommand (env true) ⟨b!"A", .login (.atom b!"alice") (.string (.quoted b!"xyz 123"))⟩).show =
    b!"Command { tag: Tag(\"A\"), body: Login { username: Atom(AtomExt(\"alice\")), password: String(Quoted(Quoted(\"xyz 123\"))) } }" := by
  with_unfolding_all rfl

example : SameButSecrets ⟨b!"A", .login (.atom b!"alice") (.string (.quoted b!"xyz 123"))⟩ ⟨b!"A", .login (.atom b!"alice") (.atom b!"pass")⟩ := .login ..

example : HoldsSecret ⟨b!"A", .login (.atom b!"alice") (.string (.quoted b!"xyz 123"))⟩ := Or.inl ⟨_, _, rfl⟩

end Imap.SecretsExamples
