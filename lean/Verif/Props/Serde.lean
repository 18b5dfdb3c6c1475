import Verif.SerdeLawsResponse
import Verif.SerdeWF
import Verif.Props.RoundTrip
/-
Properties C51 and C52: serialization and deserialization of messages with serde.

`k.serde.ser` and `k.serde.de` are the implementations of `Serialize` and `Deserialize` for the messages of the codec `k`
(Verif/SerdeTypes.lean). The invariants of the messages are specified in Verif/WellFormed.lean, and the messages that can be deserialized
in Verif/SerdeSpec.lean.
-/
set_option maxRecDepth 10000

namespace Imap

open Serde

section

variable [Quirks] [Complete]

/-! ### C51 -/

/-- C51. Each message that satisfies the invariants of its type is deserialized from what it is serialized to. -/
theorem C51_serde_round_trip (k : Codec) (m : k.Message) (h : WellFormed k m) : k.serde.de (k.serde.ser m) = some m :=
  (lawful k).rt m (dom k m h)

/-- C51. Each decoded message survives serialization. -/
theorem C51_serde_decoded (k : Codec) (x rem : Bytes) (m : k.Message) (h : k.decode x = .ok rem m) : k.serde.de (k.serde.ser m) = some m :=
  C51_serde_round_trip k m (C10_decoded_well_formed k x rem m h)

/-- The hypothesis is met by a command. -/
example := @C51_serde_decoded Quirks.default (@Complete.mk Quirks.default rfl rfl rfl rfl rfl rfl rfl rfl) .command b!"A LOGIN {1}\r\na b\r\n" []
  ⟨b!"A", .login (.string (.literal ⟨b!"a", .sync⟩)) (.atom b!"b")⟩ (by with_unfolding_all rfl)

/-- C51. Different messages are serialized to different values. -/
theorem C51_serde_injective (k : Codec) (m m' : k.Message) (h : WellFormed k m) (h' : WellFormed k m')
    (e : k.serde.ser m = k.serde.ser m') : m = m' := by
  have h1 := C51_serde_round_trip k m h
  rw [e, C51_serde_round_trip k m' h'] at h1
  exact (Option.some.inj h1).symm

/-- C51. A deserialized message survives another serialization. -/
theorem C51_serde_again (k : Codec) (v : Value) (m : k.Message) (h : k.serde.de v = some m) : k.serde.de (k.serde.ser m) = some m :=
  (lawful k).rt m ((lawful k).sound v m h)

/-- The hypothesis is met by a value with the fields in another order. -/
example := @C51_serde_again Quirks.default (@Complete.mk Quirks.default rfl rfl rfl rfl rfl rfl rfl rfl) .greeting
  (.object [(b!"text", .str b!"x"), (b!"y", .null), (b!"kind", .str b!"Ok")]) ⟨.ok, none, b!"x"⟩ (by with_unfolding_all rfl)

/-! ### C52 -/

/-- C52, the exact set of the messages that can be deserialized. The full statement has `WellFormed` in place of `Deserializable`; it is
false, see `C52_negation`. What is missing is the check that the name in a value for unknown names is not the name of a known value. -/
theorem C52_deserialized_partial (k : Codec) (m : k.Message) : (∃ v, k.serde.de v = some m) ↔ Deserializable k m :=
  ⟨fun ⟨v, h⟩ => (lawful k).sound v m h, fun h => ⟨_, (lawful k).rt m h⟩⟩

/-- C52. All messages that satisfy the invariants can be deserialized. -/
theorem C52_well_formed (k : Codec) (m : k.Message) (h : WellFormed k m) : ∃ v, k.serde.de v = some m :=
  ⟨_, C51_serde_round_trip k m h⟩

/-- The command `A STORE 1 FLAGS (\seen)` whose flag is an extension flag. -/
def shadowed : Command := ⟨b!"A", .store [.single (.value 1)] .replace .answer [.extension b!"seen"] false []⟩

/-- The command `A STORE 1 FLAGS (\Seen)`. -/
def shadowing : Command := ⟨b!"A", .store [.single (.value 1)] .replace .answer [.seen] false []⟩

/-- The value from which `shadowed` is deserialized, in JSON:
`{"tag":"A","body":{"type":"Store","content":{"sequence_set":[{"type":"Single","content":{"type":"Value","content":1}}],"kind":"Replace",`
`"response":"Answer","flags":[{"type":"Extension","content":"seen"}],"uid":false,"modifiers":[]}}}` -/
def shadowedValue : Value :=
  .object [(b!"tag", .str b!"A"), (b!"body", .object [(b!"type", .str b!"Store"), (b!"content", .object
    [(b!"sequence_set", .array [.object [(b!"type", .str b!"Single"), (b!"content", .object [(b!"type", .str b!"Value"), (b!"content", .nat 1)])]]),
     (b!"kind", .str b!"Replace"),
     (b!"response", .str b!"Answer"),
     (b!"flags", .array [.object [(b!"type", .str b!"Extension"), (b!"content", .str b!"seen")]]),
     (b!"uid", .bool false),
     (b!"modifiers", .array [])])])]

/-- C52 is false as stated: `FlagExtension`, and the other types for unknown names, are deserialized without a check of the name. -/
theorem C52_negation : ∃ (v : Value) (c : Command), Codec.command.serde.de v = some c ∧ ¬ WellFormed .command c := by
  refine ⟨shadowedValue, shadowed, by with_unfolding_all rfl, fun h => ?_⟩
  have := (h.2.2.1 (.extension b!"seen") (by simp)).2
  exact this (by decide)

end

/-! ### Concrete cases -/

section

attribute [local instance] Quirks.default

/-- What the missing check leads to: the deserialized command is not the one that the peer decodes. -/
theorem C52_negation_decoded : Codec.command.serde.de shadowedValue = some shadowed ∧
    Codec.command.decode (dump (Codec.command.encode shadowed)) = .ok [] shadowing ∧ shadowed ≠ shadowing :=
  ⟨by with_unfolding_all rfl, by with_unfolding_all rfl, fun h => by simp [shadowed, shadowing] at h⟩

/-- A FETCH response with a body structure that contains a message, a thread and a greeting: the hypotheses are met. -/
example : WellFormed .response (.data (.thread [.members [1, 2] [.members [3] [], .nested [.members [4] [], .members [5] []]]])) ∧
    WellFormed .greeting ⟨.ok, some (.referral b!"imap://example"), b!"hello"⟩ ∧
    WellFormed .command ⟨b!"A", .login (.string (.literal ⟨b!"a\r\n", .sync⟩)) (.atom b!"b")⟩ := by
  refine ⟨?_, ?_, ?_⟩
  · intro t ht
    simp only [List.mem_singleton] at ht
    subst ht
    exact ⟨by simp [Spec.Thread.Inv, Spec.Thread.Inv.go, Spec.All1, Spec.NZ32], nofun⟩
  · exact ⟨by decide, by simp [Spec.Opt, Spec.Code.Inv]; decide, nofun⟩
  · exact ⟨by decide, ⟨by decide, nofun⟩, (by decide : Spec.Str1 Spec.AStringChar b!"b")⟩

/-- A command and its value. -/
example : Codec.command.serde.ser shadowed = shadowedValue := by with_unfolding_all rfl

/-- The fields may be in any order, further fields are ignored, and a field of the type `Option` may be missing. -/
example : Codec.greeting.serde.de (.object [(b!"text", .str b!"x"), (b!"y", .null), (b!"kind", .str b!"Ok")]) = some ⟨.ok, none, b!"x"⟩ := by
  with_unfolding_all rfl

/-- A text with a line break is rejected. -/
example : Codec.greeting.serde.de (.object [(b!"kind", .str b!"Ok"), (b!"text", .str b!"x\r\n* BYE y")]) = none := by
  with_unfolding_all rfl

/-- A tag with a plus sign is rejected. -/
example : Codec.command.serde.de (.object [(b!"tag", .str b!"A+"), (b!"body", .object [(b!"type", .str b!"Noop")])]) = none := by
  with_unfolding_all rfl

/-- The message number zero is rejected. -/
example : Codec.response.serde.de (.object [(b!"type", .str b!"Data"), (b!"content", .object [(b!"type", .str b!"Expunge"),
    (b!"content", .nat 0)])]) = none := by
  with_unfolding_all rfl

end

end Imap
