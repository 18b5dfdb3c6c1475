import Verif.CaseSpec
import Verif.Post
/-
Parsers that treat inputs which differ in the letter case only alike. Property theorems are in Props/Case.lean.
-/
set_option maxRecDepth 10000

namespace Imap

open Spec

variable {α β γ : Type}

/-! ### Letters -/

theorem lower_eq_small : ∀ b : UInt8, lower b = small b := forall_byte (by decide)

theorem lowerAll_eq (s : Bytes) : lowerAll s = fold s := List.map_congr_left fun b _ => lower_eq_small b

theorem Spec.SameLetters.nil_iff {x : Bytes} : SameLetters [] x ↔ x = [] := by simp [SameLetters, eq_comm]

theorem Spec.SameLetters.cons_iff {a : UInt8} {x y : Bytes} :
    SameLetters (a :: x) y ↔ ∃ b y', y = b :: y' ∧ small a = small b ∧ SameLetters x y' := by
  cases y with
  | nil => simp [SameLetters]
  | cons b y =>
    simp only [SameLetters, List.map_cons, List.cons.injEq]
    exact ⟨fun h => ⟨b, y, ⟨rfl, rfl⟩, h⟩, fun ⟨_, _, ⟨rfl, rfl⟩, h⟩ => h⟩

theorem Spec.SameLetters.refl (x : Bytes) : SameLetters x x := rfl

theorem Spec.SameLetters.length {x y : Bytes} (h : SameLetters x y) : x.length = y.length := by
  have := congrArg List.length h
  simpa using this

/-! ### Results -/

/-- Two results of a parser that are the same except for the letter case. -/
def CRes [Fold α] : Res α → Res α → Prop
  | .ok r v, .ok r' v' => SameLetters r r' ∧ fold v = fold v'
  | .incomplete, .incomplete => True
  | .error, .error => True
  | .failure k, .failure k' => k = k'
  | _, _ => False

/-- Two parsers that give the same results for the same letters. -/
def CI [Fold α] (p q : P α) : Prop := ∀ x y, SameLetters x y → CRes (p x) (q y)

/-- A parser that gives the same results for the same letters. -/
class CIs [Fold α] (p : P α) : Prop where
  ci : CI p p

/-- Classes of bytes that contain both cases of a letter, or none. -/
class Caseless (f : UInt8 → Bool) : Prop where
  eq : ∀ a b, small a = small b → f a = f b

theorem Caseless.of {f : UInt8 → Bool} (h : ∀ a, f (small a) = f a) : Caseless f :=
  ⟨fun a b e => by rw [← h a, e, h b]⟩

section
variable [Fold α] [Fold β] [Fold γ]

theorem CRes.andThen {r s : Res α} {f g : α → P β} (h : CRes r s) (hf : ∀ a b, fold a = fold b → CI (f a) (g b)) :
    CRes (r.andThen f) (s.andThen g) := by
  cases r <;> cases s <;> simp only [CRes] at h ⊢ <;> try trivial
  exact hf _ _ h.2 _ _ h.1

theorem CI.bind {p q : P α} {f g : α → P β} (h : CI p q) (hf : ∀ a b, fold a = fold b → CI (f a) (g b)) : CI (p >>= f) (q >>= g) :=
  fun x y e => (h x y e).andThen hf

theorem CI.pure {a b : α} (h : fold a = fold b) : CI (pure a : P α) (pure b) := fun _ _ e => ⟨e, h⟩

theorem CI.map {p q : P α} {f g : α → β} (h : CI p q) (hf : ∀ a b, fold a = fold b → fold (f a) = fold (g b)) : CI (f <$> p) (g <$> q) :=
  CI.bind h fun a b e => CI.pure (hf a b e)

theorem CRes.orElse {p q : P α} {p' q' : P α} {x y : Bytes} (h : CRes (p x) (q y)) (h' : CRes (p' x) (q' y)) :
    CRes (orElse p p' x) (orElse q q' y) := by
  unfold Imap.orElse
  cases e : p x <;> cases e' : q y <;> rw [e, e'] at h <;> simp only [CRes] at h ⊢ <;> first | trivial | exact h | exact h'

theorem CI.gate {b : Bool} {p q : P α} (h : CI p q) : CI (gate b p) (gate b q) := by
  cases b
  · exact fun x y _ => by rw [gate_false, gate_false]; trivial
  · rw [gate_true, gate_true]; exact h

theorem CI.alt_nil : CI (alt [] : P α) (alt []) := fun _ _ _ => trivial

theorem CI.alt_cons {p q : P α} {ps qs : List (P α)} (h : CI p q) (h' : CI (alt ps) (alt qs)) : CI (alt (p :: ps)) (alt (q :: qs)) :=
  fun x y e => CRes.orElse (h x y e) (h' x y e)

theorem CI.failure {k : Fail} : CI (fun _ => .failure k : P α) (fun _ => .failure k) := fun _ _ _ => rfl

theorem CI.ite {c d : Prop} [Decidable c] [Decidable d] {p q p' q' : P α} (hc : c ↔ d) (hp : c → CI p p') (hq : ¬ c → CI q q') :
    CI (if c then p else q) (if d then p' else q') := by
  by_cases h : c
  · rw [if_pos h, if_pos (hc.1 h)]; exact hp h
  · rw [if_neg h, if_neg fun e => h (hc.2 e)]; exact hq h

theorem CI.opt {p q : P α} (h : CI p q) : CI (opt p) (opt q) := by
  intro x y e
  have := h x y e
  unfold Imap.opt
  cases e1 : p x <;> cases e2 : q y <;> rw [e1, e2] at this <;> simp only [CRes] at this ⊢ <;> first | trivial | skip
  · exact ⟨this.1, congrArg some this.2⟩

theorem CI.value {p q : P α} {v w : β} (h : CI p q) (hv : fold v = fold w) : CI (value v p) (value w q) :=
  CI.bind h fun _ _ _ => CI.pure hv

theorem CI.mapRes {p q : P α} {f g : α → Option β} (h : CI p q) (hf : ∀ a b, fold a = fold b → fold (f a) = fold (g b)) :
    CI (mapRes p f) (mapRes q g) := by
  intro x y e
  have := h x y e
  unfold Imap.mapRes
  cases e1 : p x <;> cases e2 : q y <;> rw [e1, e2] at this <;> simp only [CRes] at this ⊢ <;> first | trivial | exact this | skip
  have hv := hf _ _ this.2
  next r v r' w =>
    cases e3 : f v <;> cases e4 : g w <;> rw [e3, e4] at hv
    · trivial
    · cases hv
    · cases hv
    · exact ⟨this.1, Option.some.inj hv⟩

theorem CI.mapRes_post {p : P α} {f g : α → Option β} {Q : α → Prop} (h : CI p p) (hp : Post p Q)
    (hf : ∀ a b, Q a → Q b → fold a = fold b → fold (f a) = fold (g b)) : CI (Imap.mapRes p f) (Imap.mapRes p g) := by
  intro x y e
  have := h x y e
  unfold Imap.mapRes
  cases e1 : p x <;> cases e2 : p y <;> rw [e1, e2] at this <;> simp only [CRes] at this ⊢ <;> first | trivial | exact this | skip
  have hv := hf _ _ (hp _ _ _ e1) (hp _ _ _ e2) this.2
  next r v r' w =>
    cases e3 : f v <;> cases e4 : g w <;> rw [e3, e4] at hv
    · trivial
    · cases hv
    · cases hv
    · exact ⟨this.1, Option.some.inj hv⟩

theorem CI.map_post {p : P α} {f g : α → β} {Q : α → Prop} (h : CI p p) (hp : Post p Q)
    (hf : ∀ a b, Q a → Q b → fold a = fold b → fold (f a) = fold (g b)) : CI (f <$> p) (g <$> p) := by
  intro x y e
  have := h x y e
  simp only [P.map_apply]
  cases e1 : p x <;> cases e2 : p y <;> rw [e1, e2] at this <;> simp only [CRes] at this ⊢ <;> first | trivial | exact this | skip
  exact ⟨this.1, hf _ _ (hp _ _ _ e1) (hp _ _ _ e2) this.2⟩

theorem CI.many0 {p q : P α} (h : CI p q) : CI (many0 p) (many0 q) := by
  intro x
  induction x using (measure List.length).wf.induction with
  | _ x ih =>
    intro y e
    rw [Imap.many0, Imap.many0]
    have := h x y e
    cases e1 : p x <;> cases e2 : q y <;> rw [e1, e2] at this <;> simp only [CRes] at this ⊢ <;> first | trivial | exact this | skip
    · next r v r' w =>
        rw [this.1.length, e.length]
        by_cases hl : r'.length < y.length
        · rw [if_pos hl, if_pos hl]
          refine CRes.andThen (ih r (by show r.length < x.length; rw [this.1.length, e.length]; exact hl) r' this.1) fun a b hab => ?_
          refine CI.pure (a := v :: a) (b := w :: b) ?_
          show fold v :: _ = fold w :: _
          rw [this.2]
          exact congrArg _ hab
        · rw [if_neg hl, if_neg hl]
          trivial

theorem fold_cons {a b : α} {x y : List α} (h : fold a = fold b) (h' : fold x = fold y) : fold (a :: x) = fold (b :: y) := by
  show fold a :: fold x = fold b :: fold y
  rw [h, h']

theorem CI.many1 {p q : P α} (h : CI p q) : CI (many1 p) (many1 q) :=
  CI.bind h fun _ _ e => CI.bind (CI.many0 h) fun _ _ e' => CI.pure (fold_cons e e')

theorem CI.sepList1 {p q : P α} {s s' : P Unit} (hs : CI s s') (h : CI p q) : CI (sepList1 s p) (sepList1 s' q) :=
  CI.bind h fun _ _ e => CI.bind (CI.many0 (CI.bind hs fun _ _ _ => h)) fun _ _ e' => CI.pure (fold_cons e e')

theorem CI.sepList0 {p q : P α} {s s' : P Unit} (hs : CI s s') (h : CI p q) : CI (sepList0 s p) (sepList0 s' q) := by
  intro x y e
  have := h x y e
  unfold Imap.sepList0
  cases e1 : p x <;> cases e2 : q y <;> rw [e1, e2] at this <;> simp only [CRes] at this ⊢ <;> first | trivial | exact this | skip
  · refine CRes.andThen (CI.many0 (CI.bind hs fun _ _ _ => h) _ _ this.1) fun a b hab => ?_
    exact CI.pure (fold_cons this.2 hab)

instance {p : P α} {v : β} [h : CIs p] : CIs (value v p) := ⟨CI.value h.ci rfl⟩
instance {p : P α} [h : CIs p] : CIs (opt p) := ⟨CI.opt h.ci⟩
instance {p : P α} [h : CIs p] : CIs (many0 p) := ⟨CI.many0 h.ci⟩
instance {p : P α} [h : CIs p] : CIs (many1 p) := ⟨CI.many1 h.ci⟩
instance {p : P α} {s : P Unit} [hs : CIs s] [h : CIs p] : CIs (sepList1 s p) := ⟨CI.sepList1 hs.ci h.ci⟩
instance {p : P α} {s : P Unit} [hs : CIs s] [h : CIs p] : CIs (sepList0 s p) := ⟨CI.sepList0 hs.ci h.ci⟩
instance {p : P Unit} {q : P β} [hs : CIs p] [h : CIs q] : CIs (p >>= fun _ => q) := ⟨CI.bind hs.ci fun _ _ _ => h.ci⟩
instance : CIs (alt [] : P α) := ⟨CI.alt_nil⟩
instance {p : P α} {ps : List (P α)} [h : CIs p] [h' : CIs (alt ps)] : CIs (alt (p :: ps)) := ⟨CI.alt_cons h.ci h'.ci⟩

end

/-! ### Tokens -/

theorem CI.tag {t : Bytes} (h : ∀ b ∈ t, ∀ a, small a = small b → a = b) : CI (tag t) (tag t) := by
  induction t with
  | nil => exact fun x y e => ⟨e, rfl⟩
  | cons b t ih =>
    intro x y e
    cases x with
    | nil => rw [SameLetters.nil_iff] at e; subst e; exact trivial
    | cons a x =>
      obtain ⟨a', y, rfl, ha, e⟩ := SameLetters.cons_iff.1 e
      simp only [Imap.tag]
      have : b = a ↔ b = a' :=
        ⟨fun hb => (h b (by simp) a' (by rw [hb, ha])).symm, fun hb => (h b (by simp) a (by rw [hb, ha])).symm⟩
      by_cases hb : b = a
      · rw [if_pos hb, if_pos (this.1 hb)]
        exact ih (fun b hb => h b (by simp [hb])) x y e
      · rw [if_neg hb, if_neg fun c => hb (this.2 c)]
        trivial

/-- Not a letter. -/
def noLetter (b : UInt8) : Bool := !((65 ≤ b && b ≤ 90) || (97 ≤ b && b ≤ 122))

theorem noLetter_eq {b : UInt8} (h : noLetter b = true) (a : UInt8) (e : small a = small b) : a = b := by
  have k1 : ∀ b, noLetter b = true → small b = b := forall_byte (by decide)
  have k2 : ∀ a, noLetter (small a) = true → small a = a := forall_byte (by decide)
  rw [k1 b h] at e
  rw [← e]
  exact (k2 a (by rw [e, h])).symm

theorem CIs.tag {t : Bytes} (h : t.all noLetter = true) : CIs (tag t) :=
  ⟨CI.tag fun b hb => noLetter_eq (List.all_eq_true.1 h b hb)⟩

instance (t : Bytes) : CIs (tagNC t) := by
  refine ⟨?_⟩
  induction t with
  | nil => exact fun x y e => ⟨e, rfl⟩
  | cons b t ih =>
    intro x y e
    cases x with
    | nil => rw [SameLetters.nil_iff] at e; subst e; exact trivial
    | cons a x =>
      obtain ⟨a', y, rfl, ha, e⟩ := SameLetters.cons_iff.1 e
      simp only [tagNC, lower_eq_small, ha]
      split
      · exact ih x y e
      · trivial

theorem CIs.char {c : UInt8} (h : noLetter c = true) : CIs (char c) := by
  refine ⟨fun x y e => ?_⟩
  cases x with
  | nil => rw [SameLetters.nil_iff] at e; subst e; exact trivial
  | cons a x =>
    obtain ⟨a', y, rfl, ha, e⟩ := SameLetters.cons_iff.1 e
    simp only [Imap.char]
    have : a = c ↔ a' = c := ⟨fun hb => noLetter_eq h a' (by rw [← ha, hb]), fun hb => noLetter_eq h a (by rw [ha, hb])⟩
    by_cases hb : a = c
    · rw [if_pos hb, if_pos (this.1 hb)]
      exact ⟨e, rfl⟩
    · rw [if_neg hb, if_neg fun c => hb (this.2 c)]
      trivial

instance (f : UInt8 → Bool) [hf : Caseless f] : CIs (takeWhile f) := by
  refine ⟨fun x => ?_⟩
  induction x with
  | nil => intro y e; rw [SameLetters.nil_iff] at e; subst e; exact trivial
  | cons a x ih =>
    intro y e
    obtain ⟨a', y, rfl, ha, e'⟩ := SameLetters.cons_iff.1 e
    simp only [takeWhile, hf.eq a a' ha]
    split
    · refine CRes.andThen (ih y e') fun v w hv => CI.pure ?_
      exact fold_cons ha hv
    · exact ⟨e, rfl⟩

instance (f : UInt8 → Bool) [hf : Caseless f] : CIs (takeWhile1 f) := by
  refine ⟨fun x y e => ?_⟩
  cases x with
  | nil => rw [SameLetters.nil_iff] at e; subst e; exact trivial
  | cons a x =>
    obtain ⟨a', y, rfl, ha, e'⟩ := SameLetters.cons_iff.1 e
    simp only [takeWhile1, hf.eq a a' ha]
    split
    · exact CIs.ci _ _ e
    · trivial

instance (f : UInt8 → Bool) [hf : Caseless f] : CIs (satisfy f) := by
  refine ⟨fun x y e => ?_⟩
  cases x with
  | nil => rw [SameLetters.nil_iff] at e; subst e; exact trivial
  | cons a x =>
    obtain ⟨a', y, rfl, ha, e'⟩ := SameLetters.cons_iff.1 e
    simp only [satisfy, hf.eq a a' ha]
    split
    · exact ⟨e', ha⟩
    · trivial

instance (f : UInt8 → Bool) [hf : Caseless f] (n : Nat) : CIs (takeExactly f n) := by
  refine ⟨?_⟩
  induction n with
  | zero => exact fun x y e => ⟨e, rfl⟩
  | succ n ih =>
    intro x y e
    cases x with
    | nil => rw [SameLetters.nil_iff] at e; subst e; exact trivial
    | cons a x =>
      obtain ⟨a', y, rfl, ha, e'⟩ := SameLetters.cons_iff.1 e
      simp only [takeExactly, hf.eq a a' ha]
      split
      · exact CRes.andThen (ih _ _ e') fun v w hv => CI.pure (fold_cons ha hv)
      · trivial

instance (f : UInt8 → Bool) [hf : Caseless f] : CIs (take1or2 f) := by
  refine ⟨fun x y e => ?_⟩
  match x with
  | [] => rw [SameLetters.nil_iff] at e; subst e; exact trivial
  | [a] =>
    obtain ⟨a', y, rfl, ha, e'⟩ := SameLetters.cons_iff.1 e
    rw [SameLetters.nil_iff] at e'
    subst e'
    simp only [take1or2, hf.eq a a' ha]
    split <;> trivial
  | a :: b :: x =>
    obtain ⟨a', y, rfl, ha, e'⟩ := SameLetters.cons_iff.1 e
    obtain ⟨b', y, rfl, hb, e''⟩ := SameLetters.cons_iff.1 e'
    simp only [take1or2, hf.eq a a' ha, hf.eq b b' hb]
    split
    · split
      · exact ⟨e'', fold_cons ha (fold_cons hb rfl)⟩
      · exact ⟨e', fold_cons ha rfl⟩
    · trivial

theorem Spec.SameLetters.drop {x y : Bytes} (h : SameLetters x y) (n : Nat) : SameLetters (x.drop n) (y.drop n) := by
  simp only [SameLetters, List.map_drop] at h ⊢
  rw [h]

theorem Spec.SameLetters.take {x y : Bytes} (h : SameLetters x y) (n : Nat) : SameLetters (x.take n) (y.take n) := by
  simp only [SameLetters, List.map_take] at h ⊢
  rw [h]

instance (n : Nat) : CIs (take n) := by
  refine ⟨fun x y e => ?_⟩
  simp only [take, e.length]
  split
  · trivial
  · exact ⟨e.drop n, e.take n⟩

instance : CIs sp := CIs.char rfl
instance : CIs dquote := CIs.char rfl

instance [q : Quirks] : CIs crlf := by
  unfold crlf
  have h1 : CIs (char 13) := CIs.char rfl
  have h2 : CIs (char 10) := CIs.char rfl
  have h3 : CIs (tag [13, 10]) := CIs.tag rfl
  split
  · exact ⟨CI.bind (CI.opt h1.ci) fun _ _ _ => h2.ci⟩
  · exact h3

theorem CI.escaped (f : UInt8 → Bool) [hf : Caseless f] : CI (escaped f) (escaped f) := by
  have hq : ∀ a b, small a = small b → (a == 92) = (b == 92) :=
    (Caseless.of (f := fun a => a == 92) (forall_byte (by decide))).eq
  have hs : ∀ a b, small a = small b → isQuotedSpecials a = isQuotedSpecials b :=
    (Caseless.of (f := isQuotedSpecials) (forall_byte (by decide))).eq
  intro x
  induction x using (measure List.length).wf.induction with
  | _ x ih =>
    intro y e
    match x with
    | [] => rw [SameLetters.nil_iff] at e; subst e; exact trivial
    | [a] =>
      obtain ⟨a', y, rfl, ha, e'⟩ := SameLetters.cons_iff.1 e
      rw [SameLetters.nil_iff] at e'
      subst e'
      simp only [Imap.escaped, hf.eq a a' ha, hq a a' ha]
      split
      · trivial
      · exact ⟨e, rfl⟩
    | a :: b :: x =>
      obtain ⟨a', y, rfl, ha, e'⟩ := SameLetters.cons_iff.1 e
      obtain ⟨b', y, rfl, hb, e''⟩ := SameLetters.cons_iff.1 e'
      simp only [Imap.escaped, hf.eq a a' ha, hq a a' ha, hs b b' hb]
      split
      · exact CRes.andThen (ih (b :: x) (by show (b :: x).length < (a :: b :: x).length; simp) _ e') fun v w hv => CI.pure (fold_cons ha hv)
      · split
        · split
          · exact CRes.andThen (ih x (by show x.length < (a :: b :: x).length; simp; omega) _ e'') fun v w hv =>
              CI.pure (fold_cons ha (fold_cons hb hv))
          · trivial
        · exact ⟨e, rfl⟩

instance (f : UInt8 → Bool) [Caseless f] : CIs (escaped f) := ⟨CI.escaped f⟩

/-! ### Classes of bytes -/

instance : Caseless isDigit := .of (forall_byte (by decide))
instance : Caseless isAtomChar := .of (forall_byte (by decide))
instance : Caseless isAStringChar := .of (forall_byte (by decide))
instance : Caseless isListChar := .of (forall_byte (by decide))
instance : Caseless isTextChar := .of (forall_byte (by decide))
instance : Caseless isTagChar := .of (forall_byte (by decide))
instance : Caseless isChar8 := .of (forall_byte (by decide))
instance : Caseless isQuotedSpecials := .of (forall_byte (by decide))
instance : Caseless isAnyTextCharExceptQuotedSpecials := .of (forall_byte (by decide))
instance : Caseless fun b => !isQuotedSpecials b := .of (forall_byte (by decide))

theorem all_caseless {f : UInt8 → Bool} [hf : Caseless f] {s t : Bytes} (h : fold s = fold t) : s.all f = t.all f := by
  induction s generalizing t with
  | nil => cases t with
    | nil => rfl
    | cons => cases h
  | cons a s ih =>
    obtain ⟨b, t, rfl, hb, h⟩ := SameLetters.cons_iff.1 h
    simp only [List.all_cons, hf.eq a b hb, ih h]

theorem digits_eq {s t : Bytes} (hs : s.all isDigit = true) (ht : t.all isDigit = true) (h : fold s = fold t) : s = t := by
  have key : ∀ b, isDigit b = true → small b = b := forall_byte (by decide)
  have : ∀ s : Bytes, s.all isDigit = true → fold s = s := by
    intro s hs
    exact (List.map_congr_left fun b hb => key b (List.all_eq_true.1 hs b hb)).trans (List.map_id s)
  rw [this s hs, this t ht] at h
  exact h

end Imap
