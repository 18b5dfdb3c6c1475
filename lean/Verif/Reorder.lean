import Verif.ReorderSpec
import Verif.SerdeTypes
import Mathlib.Data.List.Forall2
set_option maxRecDepth 10000
/-! The order of fields does not matter for the deserialization of any type. -/
namespace Imap.Serde

open Imap

variable {α β : Type}

/-- The type is deserialized in the same way if fields are swapped. -/
class Respects (s : S α) : Prop where
  de : ∀ v w, Step v w → s.de v = s.de w

/-- The same value of a field that may be missing, or one with swapped fields in it. -/
inductive Rel : Option Value → Option Value → Prop
  | refl (r) : Rel r r
  | step {v w} (h : Step v w) : Rel (some v) (some w)

/-- The same for the fields of a struct. -/
class RespectsF (fs : Fields β) : Prop where
  de : ∀ l l', List.Forall₂ Rel l l' → fs.de l = fs.de l'

/-- The same for a variant of an enum. -/
class RespectsV (x : Variant α) : Prop where
  de : ∀ c c', Rel c c' → x.de c = x.de c'

/-- The same for the variants of an enum. -/
class RespectsVs (vs : List (Variant α)) : Prop where
  de : ∀ x ∈ vs, RespectsV x

theorem read_rel (s : S α) [h : Respects s] {c c' : Option Value} (r : Rel c c') : s.read c = s.read c' := by
  cases r with
  | refl => rfl
  | step r => exact h.de _ _ r

instance (n : Bytes) (s : S α) [Respects s] : RespectsF (.one n s) where
  de l l' h := by
    match l, l', h with
    | _, _, .nil => rfl
    | _, _, .cons h .nil => exact read_rel s h
    | _, _, .cons _ (.cons _ _) => rfl

instance (n : Bytes) (s : S α) (fs : Fields β) [Respects s] [hf : RespectsF fs] : RespectsF (.cons n s fs) where
  de l l' h := by
    cases h with
    | nil => rfl
    | cons h t => simp [Fields.cons, read_rel s h, hf.de _ _ t]

instance (n : Bytes) (a : α) : RespectsV (.unit n a) where
  de c c' h := by
    cases h with
    | refl => rfl
    | step h => cases h <;> rfl

instance (n : Bytes) (s : S β) (mk : β → α) [Respects s] : RespectsV (.of n s mk) where
  de c c' h := by simp [Variant.of, read_rel s h]

instance : RespectsVs ([] : List (Variant α)) := ⟨by simp⟩

instance (x : Variant α) (vs : List (Variant α)) [hx : RespectsV x] [hs : RespectsVs vs] : RespectsVs (x :: vs) :=
  ⟨List.forall_mem_cons.2 ⟨hx, hs.de⟩⟩

/-- What is found in an object: an error in both cases, or related values. -/
inductive RelO : Option (Option Value) → Option (Option Value) → Prop
  | none : RelO none none
  | some {c c'} (h : Rel c c') : RelO (some c) (some c')

theorem RelO.rfl {r : Option (Option Value)} : RelO r r := by
  cases r with
  | none => exact .none
  | some r => exact .some (.refl r)

theorem find_swap (a x y b) (n : Bytes) : find (a ++ x :: y :: b) n = find (a ++ y :: x :: b) n := by
  unfold find
  by_cases hx : x.1 == n <;> by_cases hy : y.1 == n <;> simp only [List.filter_append, List.filter_cons, hx, hy, if_true, if_false,
    Bool.false_eq_true]
  generalize a.filter (fun x => x.1 == n) = a
  rcases a with _ | ⟨_, _ | _⟩ <;> rfl

theorem find_field {v w : Value} (h : Step v w) (a m b) (n : Bytes) : RelO (find (a ++ (m, v) :: b) n) (find (a ++ (m, w) :: b) n) := by
  unfold find
  by_cases hx : m == n
  · simp only [List.filter_append, List.filter_cons, hx, if_true]
    generalize a.filter (fun x => x.1 == n) = a
    generalize b.filter (fun x => x.1 == n) = b
    rcases a with _ | ⟨_, _ | _⟩ <;> rcases b with _ | ⟨_, _ | _⟩ <;> first | exact .none | exact .some (.step h)
  · simp only [List.filter_append, List.filter_cons, hx, if_false, Bool.false_eq_true]
    exact .rfl

/-- What is collected from a value: an error in both cases, or related values. -/
inductive RelL : Option (List (Option Value)) → Option (List (Option Value)) → Prop
  | none : RelL none none
  | some {l l'} (h : List.Forall₂ Rel l l') : RelL (some l) (some l')

theorem Rel.all (l : List (Option Value)) : List.Forall₂ Rel l l := by
  induction l with
  | nil => exact .nil
  | cons r l ih => exact .cons (.refl r) ih

theorem mapM_rel {f g : Bytes → Option (Option Value)} (h : ∀ n, RelO (f n) (g n)) (l : List Bytes) : RelL (l.mapM f) (l.mapM g) := by
  induction l with
  | nil => exact .some .nil
  | cons n l ih =>
    simp only [List.mapM_cons]
    have h := h n
    revert h ih
    generalize f n = c
    generalize g n = c'
    generalize l.mapM f = r
    generalize l.mapM g = r'
    intro ih h
    cases h with
    | none => exact .none
    | some h =>
      cases ih with
      | none => exact .none
      | some t => exact .some (.cons h t)

theorem collect_rel (names : List Bytes) {v w : Value} (h : Step v w) : RelL (collect names v) (collect names w) := by
  cases h with
  | swap a x y b => exact mapM_rel (fun n => find_swap a x y b n ▸ .rfl) names
  | field a n b h => exact mapM_rel (find_field h a n b) names
  | item a b h =>
    simp only [collect, List.length_append, List.length_cons]
    split
    · refine .some ?_
      simp only [List.map_append, List.map_cons]
      exact List.rel_append (Rel.all _) (.cons (.step h) (Rel.all _))
    · exact .none

instance (fs : Fields β) [h : RespectsF fs] : Respects (record fs) where
  de v w r := by
    simp only [record]
    have := collect_rel fs.names r
    revert this
    generalize collect fs.names v = c
    generalize collect fs.names w = c'
    intro this
    cases this with
    | none => rfl
    | some l => exact h.de _ _ l

theorem untag_respects (vs : List (Variant α)) [h : RespectsVs vs] {v w : Value} (r : Step v w) : untag vs v = untag vs w := by
  unfold untag
  have := collect_rel [b!"type", b!"content"] r
  revert this
  generalize collect [b!"type", b!"content"] v = c
  generalize collect [b!"type", b!"content"] w = c'
  intro this
  cases this with
  | none => rfl
  | some l =>
    match l with
    | .nil => rfl
    | .cons _ .nil => simp
    | .cons _ (.cons _ (.cons _ _)) => simp
    | .cons (.step h) (.cons _ .nil) => cases h <;> rfl
    | .cons (.refl none) (.cons _ .nil) => rfl
    | .cons (.refl (some v)) (.cons hc .nil) =>
      cases v with
      | str n =>
        dsimp only
        cases e : vs.find? (fun x => x.name == n) with
        | none => rfl
        | some x => exact (h.de x (List.mem_of_find?_eq_some e)).de _ _ hc
      | _ => rfl

instance (ser : α → Bytes × Option Value) (vs : List (Variant α)) [RespectsVs vs] : Respects (enum ser vs) where
  de _ _ := untag_respects vs

instance (ser : α → Bytes) (vs : List (Bytes × α)) : Respects (names ser vs) where
  de v w r := by
    cases r with
    | swap a x y b => rcases a with _ | ⟨_, _ | _⟩ <;> simp [names]
    | item a b h => rfl
    | field a n b h =>
      rcases a with _ | ⟨_, _ | _⟩
      · rcases b with _ | _
        · cases h <;> rfl
        · simp [names]
      · simp [names]
      · simp [names]

instance : Respects bool := ⟨fun _ _ h => by cases h <;> rfl⟩
instance (lo hi : Nat) : Respects (uint lo hi) := ⟨fun _ _ h => by cases h <;> rfl⟩
instance : Respects string := ⟨fun _ _ h => by cases h <;> rfl⟩
instance : Respects unit := ⟨fun _ _ h => by cases h <;> rfl⟩
instance : Respects u8 := ⟨fun _ _ h => by cases h <;> rfl⟩
instance : Respects quotedChar := ⟨fun _ _ h => by cases h <;> rfl⟩
instance : Respects naiveDate := ⟨fun _ _ h => by cases h <;> rfl⟩
instance : Respects dateTime := ⟨fun _ _ h => by cases h <;> rfl⟩

instance (s : S α) [hs : Respects s] : Respects (opt s) where
  de v w h := by
    have := hs.de v w h
    cases h <;> simp only [opt, this]

instance (s : S α) [hs : Respects s] : Respects (list s) where
  de v w h := by
    cases h with
    | item a b h => simp only [list, List.mapM_append, List.mapM_cons, hs.de _ _ h]
    | _ => rfl

instance (s : S α) (t : S β) [hs : Respects s] [ht : Respects t] : Respects (pair s t) where
  de v w h := by
    cases h with
    | item a b h =>
      rcases a with _ | ⟨x, _ | ⟨y, a⟩⟩
      · rcases b with _ | ⟨y, _ | _⟩
        · rfl
        · simp [pair, hs.de _ _ h]
        · rfl
      · rcases b with _ | _
        · simp [pair, ht.de _ _ h]
        · rfl
      · simp [pair]
    | _ => rfl

instance (s : S β) (mk : β → α) (inner : α → β) [hs : Respects s] : Respects (s.newtype mk inner) where
  de v w h := by simp only [S.newtype, hs.de _ _ h]

instance (s : S α) (check : α → Bool) [hs : Respects s] : Respects (s.tryFrom check) where
  de v w h := by simp only [S.tryFrom, hs.de _ _ h]

theorem depthItems_append (a b : List Value) : depthItems (a ++ b) = max (depthItems a) (depthItems b) := by
  induction a with
  | nil => simp [depthItems]
  | cons v a ih => simp [depthItems, ih, Nat.max_assoc]

theorem depthEntries_append (a b : List (Bytes × Value)) : depthEntries (a ++ b) = max (depthEntries a) (depthEntries b) := by
  induction a with
  | nil => simp [depthEntries]
  | cons v a ih => simp [depthEntries, ih, Nat.max_assoc]

theorem step_depth {v w : Value} (h : Step v w) : v.depth = w.depth := by
  induction h with
  | swap a x y b => simp only [Value.depth, depthEntries_append, depthEntries]; omega
  | item a b h ih => simp only [Value.depth, depthItems_append, depthItems, ih]
  | field a n b h ih => simp only [Value.depth, depthEntries_append, depthEntries, ih]

end Imap.Serde
