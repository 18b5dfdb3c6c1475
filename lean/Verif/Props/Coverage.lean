import Verif.ArbitraryTypical
import Verif.WellFormedLemmas
set_option maxRecDepth 10000
/-
Property C59: which messages the generators (feature `arbitrary`) can make. `Typical` is in Verif/ArbitrarySpec.lean, `Supported` in
Verif/WellFormed.lean. `message k (.ok m)` says that some random bytes make the generator return `m`.
-/
namespace Imap.Arb
open Imap.Spec

/-- C59: with enough random bytes, and without the feature `arbitrary_simplified`, each message that the round trip supports and that has
none of the parts listed in `Typical` can be generated. -/
theorem C59_reached [q : Quirks] (k : Codec) (m : k.Message) (h : Supported k m) (ht : Typical k m) :
    ∃ n, ∀ e : Entropy, n ≤ e.size → e.simplified = false → message k (.ok m) :=
  reach_message k h ht

/-- C59: no message with one of the parts listed in `Typical` can be generated, by any number of random bytes, in any build. -/
theorem C59_typical [q : Quirks] [e : Entropy] (k : Codec) (m : k.Message) (h : message k (.ok m)) : Typical k m :=
  only_message k m h

/-- C59: so the blind spots of the generators, among the messages that the round trip supports, are exactly the messages with one of the
parts listed in `Typical`. -/
theorem C59_exactly [q : Quirks] (k : Codec) (m : k.Message) (h : Supported k m) :
    (∃ e : Entropy, message k (.ok m)) ↔ Typical k m := by
  constructor
  · rintro ⟨e, he⟩
    exact C59_typical k m he
  · intro ht
    obtain ⟨n, hn⟩ := C59_reached k m h ht
    exact ⟨⟨n, false⟩, hn ⟨n, false⟩ (Nat.le_refl n) rfl⟩

section
attribute [local instance] Quirks.default

/-- A command with a nested search key, `A1 UID SEARCH OR NOT SEEN (SUBJECT "a b" 3:*)`. -/
def nestedSearch : Command := ⟨b!"A1", .search none [.or (.not .seen) (.and [.subject (.string (.quoted b!"a b")),
  .sequenceSet [.range (.value 3) .asterisk]])] true⟩

theorem nestedSearch_supported : Supported .command nestedSearch := (Spec.Command.inv_iff _).1 (by decide)

/-- A case that meets the hypotheses of `C59_reached`. -/
example : ∃ n, ∀ e : Entropy, n ≤ e.size → e.simplified = false → message .command (.ok nestedSearch) :=
  C59_reached .command _ nestedSearch_supported (by
    show KeysWithin _
    simp [KeysWithin, KeyWithin, KeyWithin.go])

/-- A command with two different mailboxes in the simplest form, one of them quoted. -/
example : ∃ n, ∀ e : Entropy, n ≤ e.size → e.simplified = false →
    message .command (.ok ⟨b!"A1", .rename .inbox (.other (.string (.quoted b!"a b")))⟩) :=
  C59_reached .command _ ((Spec.Command.inv_iff _).1 (by decide)) ⟨trivial, fun h => by
    have := h.2 32 (by decide)
    revert this
    unfold AStringChar AtomChar Ctl
    decide⟩

/-- The response `* THREAD (3 6 (4)(4))`. -/
def twinThread : Response := .data (.thread [.members [3, 6] [.members [4] [], .members [4] []]])

/-- A thread of two equal threads can be generated. -/
example : ∃ n, ∀ e : Entropy, n ≤ e.size → e.simplified = false → message .response (.ok twinThread) :=
  C59_reached .response twinThread ((Spec.Response.inv_iff twinThread).1 (by decide)) (by
    show ∀ t ∈ _, Twins 7 t
    simp [Twins])

/-- The response `* THREAD (3 6 (4)(5))`. -/
def forkedThread : Response := .data (.thread [.members [3, 6] [.members [4] [], .members [5] []]])

/-- C59, a blind spot: a thread with two different subthreads, which the round trip supports, is never generated. So the fuzz targets never
see most of the threads. -/
theorem C59_negation_thread : Supported .response forkedThread ∧ ∀ _ : Entropy, ¬ message .response (.ok forkedThread) := by
  have hs : Supported .response forkedThread := (Spec.Response.inv_iff forkedThread).1 (by decide)
  refine ⟨hs, fun _ h => ?_⟩
  have : ∀ t ∈ _, Twins 7 t := C59_typical .response forkedThread h
  simp [Twins] at this

/-- The response `* OK [X-FOO bar] x`. -/
def otherCode : Response := .status (.untagged .ok (some (.other b!"X-FOO bar")) b!"x")

/-- C59, a blind spot: no unknown code is generated except one constant. -/
theorem C59_negation_code : Supported .response otherCode ∧ ∀ _ : Entropy, ¬ message .response (.ok otherCode) := by
  have hs : Supported .response otherCode := (Spec.Response.inv_iff otherCode).1 (by decide)
  refine ⟨hs, fun _ h => ?_⟩
  have : TypicalCode _ := C59_typical .response otherCode h
  exact absurd (this _ rfl) (by decide)

/-- The greeting `* OK [ALERT] [x`. -/
def bracketGreeting : Greeting := ⟨.ok, some .alert, b!"[x"⟩

/-- C59, a blind spot: no greeting has a text that starts with `[`, although the round trip supports it after a code. -/
theorem C59_negation_greeting : Supported .greeting bracketGreeting ∧ ∀ _ : Entropy, ¬ message .greeting (.ok bracketGreeting) := by
  have hs : Supported .greeting bracketGreeting := (Spec.RespText.inv_iff _ _).1 (by decide)
  exact ⟨hs, fun _ h => (C59_typical .greeting bracketGreeting h).2 rfl⟩

end

end Imap.Arb
