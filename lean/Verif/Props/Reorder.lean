import Verif.ReorderTypes
import Verif.Props.Serde
/-
C63: the order of fields and unknown fields do not matter for the deserialization; a field that occurs twice is an error.
-/
set_option maxRecDepth 10000

namespace Imap

open Serde (Value Reorder Step)

/-- C63. A value and the same value with the fields of all objects in it in any other order are deserialized to the same message, or are both
rejected. -/
theorem C63_order (k : Codec) (v w : Value) (h : Reorder v w) : k.serde.de v = k.serde.de w := by
  induction h with
  | refl => rfl
  | step _ s ih => exact ih.trans (Serde.Respects.de _ _ s)

/-- The hypothesis is met: the fields of the inner object are swapped, then those of the outer one. -/
example := C63_order .greeting
  (.object [(b!"code", .object [(b!"type", .str b!"UidNext"), (b!"content", .nat 7)]), (b!"text", .str b!"x"), (b!"kind", .str b!"Ok")])
  (.object [(b!"text", .str b!"x"), (b!"code", .object [(b!"content", .nat 7), (b!"type", .str b!"UidNext")]), (b!"kind", .str b!"Ok")])
  (.step (.step (.refl _) (.field [] _ _ (.swap [] _ _ []))) (.swap [] _ _ _))

/-- Both are deserialized. -/
example : (Codec.serde .greeting).de
    (.object [(b!"text", .str b!"x"), (b!"code", .object [(b!"content", .nat 7), (b!"type", .str b!"UidNext")]), (b!"kind", .str b!"Ok")]) =
    some ⟨.ok, some (.uidNext 7), b!"x"⟩ := by with_unfolding_all rfl

/-- Any permutation of the fields of an object is a reordering. -/
theorem reorder_perm {l l' : List (Bytes × Value)} (h : l.Perm l') : Reorder (.object l) (.object l') := by
  have trans : ∀ {u v w}, Reorder u v → Reorder v w → Reorder u w := by
    intro u v w h1 h2
    induction h2 with
    | refl => exact h1
    | step _ s ih => exact .step ih s
  have key : ∀ {l l' : List (Bytes × Value)}, l.Perm l' → ∀ a, Reorder (.object (a ++ l)) (.object (a ++ l')) := by
    intro l l' h
    induction h with
    | nil => exact fun a => .refl _
    | cons x _ ih => exact fun a => by simpa using ih (a ++ [x])
    | swap x y l => exact fun a => .step (.refl _) (.swap a y x l)
    | trans _ _ ih1 ih2 => exact fun a => trans (ih1 a) (ih2 a)
  exact key h []

/-- C63. A message survives a format that stores the fields of objects in another order, e.g. sorted by their names. -/
theorem C63_round_trip [Quirks] [Complete] (k : Codec) (m : k.Message) (h : WellFormed k m) (v : Value) (r : Reorder (k.serde.ser m) v) :
    k.serde.de v = some m := by
  rw [← C63_order k _ v r]
  exact C51_serde_round_trip k m h

/-- The hypotheses are met: the tag after the body. -/
example := @C63_round_trip Quirks.default (@Complete.mk Quirks.default rfl rfl rfl rfl rfl rfl rfl rfl) .command ⟨b!"A", .noop⟩
  ⟨by decide, trivial⟩ (.object [(b!"body", .object [(b!"type", .str b!"Noop")]), (b!"tag", .str b!"A")]) (.step (.refl _) (.swap [] _ _ []))

theorem collect_twice {names : List Bytes} {l : List (Bytes × Value)} {n : Bytes} (hn : n ∈ names)
    (h : 2 ≤ (l.filter fun x => x.1 == n).length) : Serde.collect names (.object l) = none := by
  have hf : Serde.find l n = none := by
    unfold Serde.find
    split
    · simp_all
    · simp_all
    · rfl
  simp only [Serde.collect]
  induction names with
  | nil => simp at hn
  | cons a names ih =>
    rw [List.mapM_cons]
    rcases List.mem_cons.1 hn with rfl | hn
    · rw [hf]; rfl
    · rw [ih hn]
      cases Serde.find l a <;> rfl

/-- A message is deserialized from the values of its fields, or not from an object. -/
theorem de_fields (k : Codec) : (∃ f, ∀ v, k.serde.de v = (Serde.collect k.fields v).bind f) ∨ ∀ l, k.serde.de (.object l) = none := by
  have untag : ∀ {α : Type} (vs : List (Serde.Variant α)), ∃ f, ∀ v, Serde.untag vs v = (Serde.collect [b!"type", b!"content"] v).bind f := by
    intro α vs
    refine ⟨fun
      | [some (.str n), c] => (vs.find? (fun x => x.name == n)).bind fun x => x.de c
      | _ => none, fun v => ?_⟩
    unfold Serde.untag
    cases Serde.collect [b!"type", b!"content"] v with
    | none => rfl
    | some l => rcases l with _ | ⟨_ | ⟨⟨⟩⟩, _ | ⟨_, _ | _⟩⟩ <;> rfl
  have record : ∀ {α β : Type} (fs : Serde.Fields β) (mk : β → α), ∃ f, ∀ v, ((Serde.record fs).de v).map mk =
      (Serde.collect fs.names v).bind f := by
    intro α β fs mk
    refine ⟨fun l => (fs.de l).map mk, fun v => ?_⟩
    simp only [Serde.record]
    cases Serde.collect fs.names v <;> rfl
  cases k with
  | greeting => exact .inl (record _ _)
  | command => exact .inl (record _ _)
  | authenticateData => exact .inl (untag _)
  | response => exact .inl (untag _)
  | idleDone => exact .inr fun _ => rfl

/-- C63. An object in which one of the fields of the message occurs more than once is rejected. -/
theorem C63_twice (k : Codec) (l : List (Bytes × Value)) (n : Bytes) (hn : n ∈ k.fields) (h : 2 ≤ (l.filter fun x => x.1 == n).length) :
    k.serde.de (.object l) = none := by
  rcases de_fields k with ⟨f, hf⟩ | h
  · rw [hf, collect_twice hn h]
    rfl
  · exact h l

/-- The hypothesis is met by a second text, which is the same. -/
example := C63_twice .greeting [(b!"kind", .str b!"Ok"), (b!"text", .str b!"x"), (b!"code", .null), (b!"text", .str b!"x")] b!"text"
  (by decide) (by decide)

theorem collect_unknown (names : List Bytes) (l : List (Bytes × Value)) :
    Serde.collect names (.object (l.filter fun x => x.1 ∈ names)) = Serde.collect names (.object l) := by
  simp only [Serde.collect]
  have : ∀ n ∈ names, Serde.find (l.filter fun x => x.1 ∈ names) n = Serde.find l n := by
    intro n hn
    unfold Serde.find
    rw [List.filter_filter]
    have : (fun x : Bytes × Value => (x.1 == n) && decide (x.1 ∈ names)) = fun x => x.1 == n := by
      funext x
      by_cases h : x.1 = n <;> simp [h, hn]
    rw [this]
  generalize l.filter (fun x => decide (x.1 ∈ names)) = l' at this
  induction names with
  | nil => rfl
  | cons a names ih =>
    rw [List.mapM_cons, List.mapM_cons, this a (by simp), ih fun n hn => this n (by simp [hn])]

/-- C63. Fields with other names are ignored. -/
theorem C63_unknown (k : Codec) (l : List (Bytes × Value)) :
    k.serde.de (.object (l.filter fun x => x.1 ∈ k.fields)) = k.serde.de (.object l) := by
  rcases de_fields k with ⟨f, hf⟩ | h
  · rw [hf, hf, collect_unknown]
  · rw [h, h]

/-- A field is ignored, and the greeting is deserialized. -/
example : (Codec.serde .greeting).de (.object [(b!"kind", .str b!"Ok"), (b!"y", .nat 1), (b!"text", .str b!"x"), (b!"y", .null)]) =
    some ⟨.ok, none, b!"x"⟩ := by with_unfolding_all rfl

end Imap
