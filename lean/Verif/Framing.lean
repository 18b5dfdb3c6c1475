import Verif.FramingSpec
import Verif.FragLemmas
import Verif.NomLemmas
import Verif.CoreLemmas
/-
An automaton that follows the lines, literals and quoted strings of a message, and Hoare triples for parsers over it: what a parser
consumes, and what it asks for, agrees with the automaton.
-/
set_option maxRecDepth 10000

namespace Imap.Frame

open Frag Spec

variable {α β : Type}

inductive St where
  | text (lt : Latest) (q : Quote)
  | ann (a : Ann)
  | lit (k : Nat)
  | ended
  | over
  deriving DecidableEq, Repr

def stepText (lt : Latest) (q : Quote) (b : UInt8) : St :=
  if b = 10 ∧ q = .out then
    match annOf lt with
    | some a => .ann a
    | none => .ended
  else .text (lineStep lt b).1 (q.step b)

def St.step : St → UInt8 → St
  | .text lt q, b => stepText lt q b
  | .ann ⟨_, 0⟩, b => stepText .other .out b
  | .ann ⟨_, 1⟩, _ => .text .other .out
  | .ann ⟨_, n + 2⟩, _ => .lit (n + 1)
  | .lit 0, _ => .text .other .out
  | .lit 1, _ => .text .other .out
  | .lit (n + 2), _ => .lit (n + 1)
  | .ended, _ => .over
  | .over, _ => .over

def St.run (s : St) (x : Bytes) : St := x.foldl St.step s

@[simp] theorem run_nil (s : St) : s.run [] = s := rfl
@[simp] theorem run_cons (s : St) (b : UInt8) (x : Bytes) : s.run (b :: x) = (s.step b).run x := rfl
theorem run_append (s : St) (x y : Bytes) : s.run (x ++ y) = (s.run x).run y := by simp [St.run]
@[simp] theorem run_over (x : Bytes) : St.over.run x = .over := by
  induction x with
  | nil => rfl
  | cons b x ih => simpa [St.step] using ih

/-- Nothing was announced, and the message is not complete. -/
def Waiting (s : St) : Prop := (∃ lt q, s = .text lt q) ∨ ∃ k, s = .lit k

/-- Between two tokens. -/
def Ready (q : Quote) (s : St) (r : Bytes) : Prop :=
  (∃ lt, s = .text lt q ∧ (q = .out → lt = .other)) ∨ (q = .out ∧ r ≠ [] ∧ ∃ m, s = .ann ⟨m, 0⟩)

/-- Within the announcement of a literal. -/
def At (lt : Latest) (s : St) (_ : Bytes) : Prop := s = .text lt .out

structure Tri (A : St → Bytes → Prop) (B : α → St → Bytes → Prop) (p : P α) : Prop where
  ok : ∀ {s x r v}, A s x → p x = .ok r v → ∃ w, x = w ++ r ∧ B v (s.run w) r
  inc : ∀ {s x}, A s x → p x = .incomplete → Waiting (s.run x)
  lit : ∀ {s x t n m}, A s x → p x = .failure (.literal t n m) → s.run x = .ann ⟨m, n⟩

/-- From position `q` to position `q'`. -/
abbrev Fr (q q' : Quote) (p : P α) : Prop := Tri (Ready q) (fun _ => Ready q') p

class Framed (p : P α) : Prop where
  fr : Fr .out .out p

/-! ### Combinators -/

variable {A C : St → Bytes → Prop} {B : α → St → Bytes → Prop} {D : β → St → Bytes → Prop} {p : P α} {q a b c : Quote}

theorem Tri.gate {b : Bool} (h : Tri A B p) : Tri A B (gate b p) := by
  cases b
  · exact ⟨by simp, by simp, by simp⟩
  · rw [gate_true]; exact h

theorem Tri.bind {f : α → P β} (hp : Tri A B p) (hf : ∀ v, Tri (B v) D (f v)) : Tri A D (p >>= f) := by
  constructor
  · intro s x r v hs h
    simp only [P.bind_apply, Res.andThen_eq_ok] at h
    obtain ⟨r1, v1, h1, h2⟩ := h
    obtain ⟨w1, rfl, hw1⟩ := hp.ok hs h1
    obtain ⟨w2, rfl, hw2⟩ := (hf v1).ok hw1 h2
    exact ⟨w1 ++ w2, by simp, by rwa [run_append]⟩
  · intro s x hs h
    simp only [P.bind_apply] at h
    cases h1 : p x with
    | ok r1 v1 =>
      rw [h1] at h
      obtain ⟨w1, rfl, hw1⟩ := hp.ok hs h1
      rw [run_append]
      exact (hf v1).inc hw1 h
    | incomplete => exact hp.inc hs h1
    | error => rw [h1] at h; simp at h
    | failure k => rw [h1] at h; simp at h
  · intro s x t n m hs h
    simp only [P.bind_apply] at h
    cases h1 : p x with
    | ok r1 v1 =>
      rw [h1] at h
      obtain ⟨w1, rfl, hw1⟩ := hp.ok hs h1
      rw [run_append]
      exact (hf v1).lit hw1 h
    | incomplete => rw [h1] at h; simp [Res.andThen] at h
    | error => rw [h1] at h; simp at h
    | failure k =>
      rw [h1] at h
      simp at h
      exact hp.lit hs (h ▸ h1)

theorem Tri.pure {v : α} : Tri (B v) B (Pure.pure v : P α) := by
  constructor
  · intro s x r w hs h
    simp at h
    exact ⟨[], by simp [h.1], by obtain ⟨rfl, rfl⟩ := h; simpa using hs⟩
  · intro s x hs h; simp at h
  · intro s x t n m hs h; simp at h

theorem Tri.map {f : α → β} (hp : Tri A (fun v => D (f v)) p) : Tri A D (f <$> p) := by
  have e : (f <$> p : P β) = (p >>= fun v => Pure.pure (f v) : P β) := by
    funext x; rfl
  rw [e]
  exact Tri.bind hp fun v => Tri.pure

theorem Tri.mono {A' : St → Bytes → Prop} {B' : α → St → Bytes → Prop} (hp : Tri A B p) (hA : ∀ s x, A' s x → A s x)
    (hB : ∀ v s x, B v s x → B' v s x) : Tri A' B' p :=
  ⟨fun hs h => by
    obtain ⟨w, e, hw⟩ := hp.ok (hA _ _ hs) h
    exact ⟨w, e, hB _ _ _ hw⟩, fun hs h => hp.inc (hA _ _ hs) h, fun hs h => hp.lit (hA _ _ hs) h⟩

theorem Fr.value {v : β} (hp : Fr a b p) : Fr a b (Imap.value v p) := Tri.bind hp fun _ => Tri.pure (B := fun _ => Ready b)

theorem Fr.mapf {f : α → β} (hp : Fr a b p) : Fr a b (f <$> p) := Tri.map (D := fun _ => Ready b) hp

theorem Fr.bind {f : α → P β} (hp : Fr a b p) (hf : ∀ v, Fr b c (f v)) : Fr a c (p >>= f) := Tri.bind hp hf

theorem Fr.pure {v : α} : Fr a a (Pure.pure v : P α) := Tri.pure (B := fun _ => Ready a)

theorem Tri.failR : Tri A B (P.fail : P α) := by
  constructor <;> (intros; simp_all [P.fail])

theorem Fr.failR : Fr a b (P.fail : P α) := Tri.failR

theorem Fr.failure {k : Fail} (hk : ∀ t n m, k ≠ .literal t n m) : Fr a b (fun _ => .failure k : P α) := by
  constructor <;> (intros; simp_all)

theorem Tri.orElse {p' : P α} (hp : Tri A B p) (hp' : Tri A B p') : Tri A B (Imap.orElse p p') := by
  constructor
  · intro s x r v hs h
    simp only [Imap.orElse] at h
    split at h
    · exact hp'.ok hs h
    · exact hp.ok hs h
  · intro s x hs h
    simp only [Imap.orElse] at h
    split at h
    · exact hp'.inc hs h
    · exact hp.inc hs h
  · intro s x t n m hs h
    simp only [Imap.orElse] at h
    split at h
    · exact hp'.lit hs h
    · exact hp.lit hs h

theorem Fr.orElse {p' : P α} (hp : Fr a b p) (hp' : Fr a b p') : Fr a b (Imap.orElse p p') := Tri.orElse hp hp'

theorem Fr.alt_nil : Fr a b (alt [] : P α) := Fr.failR

theorem Fr.alt_cons {ps : List (P α)} (hp : Fr a b p) (hps : Fr a b (alt ps)) : Fr a b (alt (p :: ps)) := Fr.orElse hp hps

theorem Fr.ite {t : Prop} [Decidable t] {p' : P α} (hp : Fr a b p) (hp' : Fr a b p') : Fr a b (if t then p else p') := by
  split <;> assumption

theorem Fr.opt (hp : Fr a a p) : Fr a a (Imap.opt p) := by
  constructor
  · intro s x r v hs h
    simp only [Imap.opt] at h
    split at h <;> simp at h
    · next r' v' e =>
      obtain ⟨rfl, rfl⟩ := h
      exact hp.ok hs e
    · obtain ⟨rfl, rfl⟩ := h
      exact ⟨[], by simp, by simpa using hs⟩
  · intro s x hs h
    simp only [Imap.opt] at h
    split at h <;> simp at h
    exact hp.inc hs (by assumption)
  · intro s x t n m hs h
    simp only [Imap.opt] at h
    split at h <;> simp at h
    subst h
    exact hp.lit hs (by assumption)

theorem Fr.mapRes {f : α → Option β} (hp : Fr a b p) : Fr a b (Imap.mapRes p f) := by
  constructor
  · intro s x r v hs h
    simp only [Imap.mapRes] at h
    split at h <;> try simp at h
    split at h <;> simp at h
    next r' v' e _ _ _ =>
      obtain ⟨rfl, rfl⟩ := h
      exact hp.ok hs e
  · intro s x hs h
    simp only [Imap.mapRes] at h
    split at h <;> try simp at h
    · split at h <;> simp at h
    · exact hp.inc hs (by assumption)
  · intro s x t n m hs h
    simp only [Imap.mapRes] at h
    split at h <;> try simp at h
    · split at h <;> simp at h
    · subst h; exact hp.lit hs (by assumption)

theorem Fr.recognize (hp : Fr a b p) : Fr a b (Imap.recognize p) := by
  constructor
  · intro s x r v hs h
    simp only [Imap.recognize, Res.andThen_eq_ok] at h
    obtain ⟨r', v', e, h⟩ := h
    simp at h
    obtain ⟨rfl, rfl⟩ := h
    exact hp.ok hs e
  · intro s x hs h
    simp only [Imap.recognize] at h
    cases e : p x <;> rw [e] at h <;> simp [Res.andThen] at h
    exact hp.inc hs e
  · intro s x t n m hs h
    simp only [Imap.recognize] at h
    cases e : p x <;> rw [e] at h <;> simp [Res.andThen] at h
    subst h
    exact hp.lit hs e

theorem Fr.many0 (hp : Fr a a p) : Fr a a (Imap.many0 p : P (List α)) := by
  constructor
  · intro s x r v hs h
    revert s r v
    fun_induction Imap.many0 p x with
    | case1 x r' v' e hlt ih =>
      intro s r v hs h
      simp only [Res.andThen_eq_ok] at h
      obtain ⟨r2, v2, e2, h⟩ := h
      simp at h
      obtain ⟨rfl, rfl⟩ := h
      obtain ⟨w, rfl, hw⟩ := hp.ok hs e
      obtain ⟨w2, rfl, hw2⟩ := ih hw e2
      exact ⟨w ++ w2, by simp, by rwa [run_append]⟩
    | case2 => intro s r v hs h; simp at h
    | case3 => intro s r v hs h; simp at h; obtain ⟨rfl, rfl⟩ := h; exact ⟨[], by simp, by simpa using hs⟩
    | case4 => intro s r v hs h; simp at h
    | case5 => intro s r v hs h; simp at h
  · intro s x hs h
    revert s
    fun_induction Imap.many0 p x with
    | case1 x r' v' e hlt ih =>
      intro s hs
      obtain ⟨w, rfl, hw⟩ := hp.ok hs e
      rw [run_append]
      refine ih ?_ hw
      revert h
      cases Imap.many0 p r' <;> simp [Res.andThen]
    | case2 => simp at h
    | case3 => simp at h
    | case4 x e => intro s hs; exact hp.inc hs e
    | case5 => simp at h
  · intro s x t n m hs h
    revert s
    fun_induction Imap.many0 p x with
    | case1 x r' v' e hlt ih =>
      intro s hs
      obtain ⟨w, rfl, hw⟩ := hp.ok hs e
      rw [run_append]
      refine ih ?_ hw
      revert h
      cases Imap.many0 p r' <;> simp [Res.andThen]
    | case2 => simp at h
    | case3 => simp at h
    | case4 => simp at h
    | case5 x k e => intro s hs; simp at h; subst h; exact hp.lit hs e

theorem Fr.many1 (hp : Fr a a p) : Fr a a (Imap.many1 p) := by
  unfold Imap.many1
  exact Fr.bind hp fun _ => Fr.bind (Fr.many0 hp) fun _ => Fr.pure

theorem Fr.sepList1 {sep : P Unit} (hs : Fr a a sep) (hp : Fr a a p) : Fr a a (Imap.sepList1 sep p) := by
  unfold Imap.sepList1
  exact Fr.bind hp fun _ => Fr.bind (Fr.many0 (Fr.bind hs fun _ => hp)) fun _ => Fr.pure

theorem Fr.sepList0 {sep : P Unit} (hs : Fr a a sep) (hp : Fr a a p) : Fr a a (Imap.sepList0 sep p) := by
  have hm := Fr.many0 (Fr.bind hs fun _ => hp)
  constructor
  · intro s x r v hs h
    simp only [Imap.sepList0] at h
    split at h <;> try simp at h
    · next r' v' e =>
      simp only [Res.andThen_eq_ok] at h
      obtain ⟨r2, v2, e2, h⟩ := h
      simp at h
      obtain ⟨rfl, rfl⟩ := h
      obtain ⟨w, rfl, hw⟩ := hp.ok hs e
      obtain ⟨w2, rfl, hw2⟩ := hm.ok hw e2
      exact ⟨w ++ w2, by simp, by rwa [run_append]⟩
    · obtain ⟨rfl, rfl⟩ := h; exact ⟨[], by simp, by simpa using hs⟩
  · intro s x hs h
    simp only [Imap.sepList0] at h
    split at h <;> try simp at h
    · next r' v' e =>
      obtain ⟨w, rfl, hw⟩ := hp.ok hs e
      rw [run_append]
      refine hm.inc hw ?_
      revert h
      generalize (Imap.many0 _ r' : Res (List α)) = z
      cases z <;> simp [Res.andThen]
    · exact hp.inc hs (by assumption)
  · intro s x t n m hs h
    simp only [Imap.sepList0] at h
    split at h <;> try simp at h
    · next r' v' e =>
      obtain ⟨w, rfl, hw⟩ := hp.ok hs e
      rw [run_append]
      refine hm.lit (t := t) hw ?_
      revert h
      generalize (Imap.many0 _ r' : Res (List α)) = z
      cases z <;> simp [Res.andThen]
    · subst h; exact hp.lit hs (by assumption)

/-! ### Leaves -/

/-- The byte does not change the position. -/
def Calm : Quote → UInt8 → Bool
  | .out, b => b != 10 && b != 13 && b != 34 && b != 123
  | .within, b => b != 10 && b != 34 && b != 92
  | .escape, _ => false

theorem Ready.calm {s : St} {d : UInt8} {r : Bytes} (h : Ready q s (d :: r)) (hd : Calm q d = true) :
    ∃ lt, s.step d = .text lt q ∧ (q = .out → lt = .other) := by
  rcases h with ⟨lt, rfl, hlt⟩ | ⟨rfl, _, m, rfl⟩
  · cases q with
    | out =>
      obtain rfl := hlt rfl
      simp [Calm] at hd
      exact ⟨.other, by simp [St.step, stepText, lineStep, Quote.step, hd], fun _ => rfl⟩
    | within =>
      simp [Calm] at hd
      exact ⟨(lineStep lt d).1, by simp [St.step, stepText, Quote.step, hd], by simp⟩
    | escape => simp [Calm] at hd
  · simp [Calm] at hd
    exact ⟨.other, by simp [St.step, stepText, lineStep, Quote.step, hd], fun _ => rfl⟩

theorem ready_of {s : St} {lt : Latest} (r : Bytes) (h : s = .text lt q) (hlt : q = .out → lt = .other) : Ready q s r :=
  Or.inl ⟨lt, h, hlt⟩

theorem Ready.run {s : St} {w r : Bytes} (h : Ready q s (w ++ r)) (hw : ∀ d ∈ w, Calm q d = true) : Ready q (s.run w) r := by
  induction w generalizing s with
  | nil => simpa using h
  | cons d w ih =>
    obtain ⟨lt, h1, h2⟩ := Ready.calm h (hw d (by simp))
    exact ih (ready_of _ h1 h2) fun e he => hw e (by simp [he])

theorem Ready.waiting {s : St} (h : Ready q s []) : Waiting s := by
  rcases h with ⟨lt, rfl, hlt⟩ | ⟨rfl, h, m, rfl⟩
  · exact (Or.inl ⟨_, _, rfl⟩)
  · exact absurd rfl h

theorem Fr.of_calm (ok : ∀ {x r v}, p x = .ok r v → ∃ w, x = w ++ r ∧ ∀ d ∈ w, Calm q d = true)
    (inc : ∀ {x}, p x = .incomplete → ∀ d ∈ x, Calm q d = true)
    (lit : ∀ {x t n m}, p x ≠ .failure (.literal t n m)) : Fr q q p := by
  constructor
  · intro s x r v hs h
    obtain ⟨w, rfl, hw⟩ := ok h
    exact ⟨w, rfl, Ready.run hs hw⟩
  · intro s x hs h
    have := Ready.run (w := x) (r := []) (by simpa using hs) (inc h)
    exact Ready.waiting this
  · intro s x t n m hs h
    exact absurd h lit

theorem Fr.char {d : UInt8} (hd : Calm q d = true) : Fr q q (Imap.char d) := by
  apply Fr.of_calm
  · intro x r v h
    cases x with
    | nil => simp [Imap.char] at h
    | cons e x =>
      simp only [Imap.char] at h
      split at h <;> simp at h
      next he =>
        subst he; subst h
        exact ⟨[e], by simp, by simpa using hd⟩
  · intro x h
    cases x with
    | nil => simp
    | cons e x => simp only [Imap.char] at h; split at h <;> simp at h
  · intro x t n m h
    cases x with
    | nil => simp [Imap.char] at h
    | cons e x => simp only [Imap.char] at h; split at h <;> simp at h

theorem Fr.sp (hq : Calm q 32 = true) : Fr q q Imap.sp := Fr.char hq

theorem Fr.tag {t : Bytes} (ht : t.all (Calm q) = true) : Fr q q (Imap.tag t) := by
  apply Fr.of_calm
  · intro x
    induction t generalizing x with
    | nil => intro r v h; simp [Imap.tag] at h; exact ⟨[], by simp [h], by simp⟩
    | cons d t ih =>
      intro r v h
      simp at ht
      cases x with
      | nil => simp [Imap.tag] at h
      | cons e x =>
        simp only [Imap.tag] at h
        split at h <;> try simp at h
        next he =>
          subst he
          obtain ⟨w, rfl, hw⟩ := ih (by simpa using ht.2) h
          exact ⟨d :: w, by simp, by simpa using ⟨ht.1, hw⟩⟩
  · intro x
    induction t generalizing x with
    | nil => intro h; simp [Imap.tag] at h
    | cons d t ih =>
      intro h
      simp at ht
      cases x with
      | nil => simp
      | cons e x =>
        simp only [Imap.tag] at h
        split at h <;> try simp at h
        next he =>
          subst he
          have := ih (by simpa using ht.2) h
          simpa using ⟨ht.1, this⟩
  · intro x
    induction t generalizing x with
    | nil => intro _ _ _ h; simp [Imap.tag] at h
    | cons d t ih =>
      intro _ _ _ h
      simp at ht
      cases x with
      | nil => simp [Imap.tag] at h
      | cons e x =>
        simp only [Imap.tag] at h
        split at h <;> try simp at h
        exact ih (by simpa using ht.2) h

theorem calm_lower {d e : UInt8} (h : lower d = lower e) (hd : Calm q d = true) : Calm q e = true := by
  have k10 : ∀ d : UInt8, (lower d = 10 ↔ d = 10) := forall_byte (by decide)
  have k13 : ∀ d : UInt8, (lower d = 13 ↔ d = 13) := forall_byte (by decide)
  have k34 : ∀ d : UInt8, (lower d = 34 ↔ d = 34) := forall_byte (by decide)
  have k92 : ∀ d : UInt8, (lower d = 92 ↔ d = 92) := forall_byte (by decide)
  have k123 : ∀ d : UInt8, (lower d = 123 ↔ d = 123) := forall_byte (by decide)
  cases q <;> simp [Calm] at hd ⊢
  · rw [← k10, ← k13, ← k34, ← k123, ← h, k10, k13, k34, k123]; exact hd
  · rw [← k10, ← k34, ← k92, ← h, k10, k34, k92]; exact hd

theorem Fr.tagNC {t : Bytes} (ht : t.all (Calm q) = true) : Fr q q (Imap.tagNC t) := by
  apply Fr.of_calm
  · intro x
    induction t generalizing x with
    | nil => intro r v h; simp [Imap.tagNC] at h; exact ⟨[], by simp [h], by simp⟩
    | cons d t ih =>
      intro r v h
      simp at ht
      cases x with
      | nil => simp [Imap.tagNC] at h
      | cons e x =>
        simp only [Imap.tagNC] at h
        split at h <;> try simp at h
        next he =>
          obtain ⟨w, rfl, hw⟩ := ih (by simpa using ht.2) h
          exact ⟨e :: w, by simp, by simpa using ⟨calm_lower he ht.1, hw⟩⟩
  · intro x
    induction t generalizing x with
    | nil => intro h; simp [Imap.tagNC] at h
    | cons d t ih =>
      intro h
      simp at ht
      cases x with
      | nil => simp
      | cons e x =>
        simp only [Imap.tagNC] at h
        split at h <;> try simp at h
        next he =>
          have := ih (by simpa using ht.2) h
          simpa using ⟨calm_lower he ht.1, this⟩
  · intro x
    induction t generalizing x with
    | nil => intro _ _ _ h; simp [Imap.tagNC] at h
    | cons d t ih =>
      intro _ _ _ h
      simp at ht
      cases x with
      | nil => simp [Imap.tagNC] at h
      | cons e x =>
        simp only [Imap.tagNC] at h
        split at h <;> try simp at h
        exact ih (by simpa using ht.2) h

variable {f : UInt8 → Bool}

theorem Fr.satisfy (hf : ∀ d, f d = true → Calm q d = true) : Fr q q (Imap.satisfy f) := by
  apply Fr.of_calm
  · intro x r v h
    cases x with
    | nil => simp [Imap.satisfy] at h
    | cons e x =>
      simp only [Imap.satisfy] at h
      split at h <;> simp at h
      next he =>
        obtain ⟨rfl, rfl⟩ := h
        exact ⟨[e], by simp, by simpa using hf _ he⟩
  · intro x h
    cases x with
    | nil => simp
    | cons e x => simp only [Imap.satisfy] at h; split at h <;> simp at h
  · intro x t n m h
    cases x with
    | nil => simp [Imap.satisfy] at h
    | cons e x => simp only [Imap.satisfy] at h; split at h <;> simp at h

theorem takeWhile_ok {x r v : Bytes} (h : Imap.takeWhile f x = .ok r v) : x = v ++ r ∧ ∀ d ∈ v, f d = true := by
  induction x generalizing r v with
  | nil => simp [Imap.takeWhile] at h
  | cons e x ih =>
    simp only [Imap.takeWhile] at h
    split at h
    · next he =>
      simp only [Res.andThen_eq_ok] at h
      obtain ⟨r', v', h1, h2⟩ := h
      simp at h2
      obtain ⟨rfl, rfl⟩ := h2
      obtain ⟨rfl, hv⟩ := ih h1
      exact ⟨by simp, by simpa using ⟨he, hv⟩⟩
    · simp at h
      obtain ⟨rfl, rfl⟩ := h
      simp

theorem takeWhile_inc {x : Bytes} (h : Imap.takeWhile f x = .incomplete) : ∀ d ∈ x, f d = true := by
  induction x with
  | nil => simp
  | cons e x ih =>
    simp only [Imap.takeWhile] at h
    split at h
    · next he =>
      have : Imap.takeWhile f x = .incomplete := by
        revert h
        cases Imap.takeWhile f x <;> simp [Res.andThen]
      simpa using ⟨he, ih this⟩
    · simp at h

theorem takeWhile_fail {x : Bytes} {k : Fail} (h : Imap.takeWhile f x = .failure k) : False := by
  induction x with
  | nil => simp [Imap.takeWhile] at h
  | cons e x ih =>
    simp only [Imap.takeWhile] at h
    split at h
    · apply ih
      revert h
      cases Imap.takeWhile f x <;> simp [Res.andThen]
    · simp at h

theorem Fr.takeWhile (hf : ∀ d, f d = true → Calm q d = true) : Fr q q (Imap.takeWhile f) := by
  apply Fr.of_calm
  · intro x r v h
    obtain ⟨rfl, hv⟩ := takeWhile_ok h
    exact ⟨v, rfl, fun d hd => hf d (hv d hd)⟩
  · intro x h d hd
    exact hf d (takeWhile_inc h d hd)
  · intro x t n m h
    exact takeWhile_fail h

theorem takeWhile1_ok' {x r v : Bytes} (h : Imap.takeWhile1 f x = .ok r v) : x = v ++ r ∧ v ≠ [] ∧ ∀ d ∈ v, f d = true := by
  cases x with
  | nil => simp [Imap.takeWhile1] at h
  | cons e x =>
    simp only [Imap.takeWhile1] at h
    split at h
    · next he =>
      obtain ⟨e1, e2⟩ := takeWhile_ok h
      refine ⟨e1, ?_, e2⟩
      rintro rfl
      simp only [Imap.takeWhile, he, if_true, Res.andThen_eq_ok] at h
      obtain ⟨r', v', _, h2⟩ := h
      simp at h2
    · simp at h

theorem takeWhile1_inc {x : Bytes} (h : Imap.takeWhile1 f x = .incomplete) : ∀ d ∈ x, f d = true := by
  cases x with
  | nil => simp
  | cons e x =>
    simp only [Imap.takeWhile1] at h
    split at h
    · exact takeWhile_inc h
    · simp at h

theorem takeWhile1_fail {x : Bytes} {k : Fail} (h : Imap.takeWhile1 f x = .failure k) : False := by
  cases x with
  | nil => simp [Imap.takeWhile1] at h
  | cons e x =>
    simp only [Imap.takeWhile1] at h
    split at h
    · exact takeWhile_fail h
    · simp at h

theorem Fr.takeWhile1 (hf : ∀ d, f d = true → Calm q d = true) : Fr q q (Imap.takeWhile1 f) := by
  apply Fr.of_calm
  · intro x r v h
    obtain ⟨rfl, _, hv⟩ := takeWhile1_ok' h
    exact ⟨v, rfl, fun d hd => hf d (hv d hd)⟩
  · intro x h d hd
    exact hf d (takeWhile1_inc h d hd)
  · intro x t n m h
    exact takeWhile1_fail h

theorem Fr.takeExactly {k : Nat} (hf : ∀ d, f d = true → Calm q d = true) : Fr q q (Imap.takeExactly f k) := by
  apply Fr.of_calm
  · intro x
    induction k generalizing x with
    | zero => intro r v h; simp [Imap.takeExactly] at h; exact ⟨[], by simp [h], by simp⟩
    | succ k ih =>
      intro r v h
      cases x with
      | nil => simp [Imap.takeExactly] at h
      | cons e x =>
        simp only [Imap.takeExactly] at h
        split at h
        · next he =>
          simp only [Res.andThen_eq_ok] at h
          obtain ⟨r', v', h1, h2⟩ := h
          simp at h2
          obtain ⟨rfl, rfl⟩ := h2
          obtain ⟨w, rfl, hw⟩ := ih h1
          exact ⟨e :: w, by simp, by simpa using ⟨hf _ he, hw⟩⟩
        · simp at h
  · intro x
    induction k generalizing x with
    | zero => intro h; simp [Imap.takeExactly] at h
    | succ k ih =>
      intro h
      cases x with
      | nil => simp
      | cons e x =>
        simp only [Imap.takeExactly] at h
        split at h
        · next he =>
          have : Imap.takeExactly f k x = .incomplete := by
            revert h
            cases Imap.takeExactly f k x <;> simp [Res.andThen]
          simpa using ⟨hf _ he, ih this⟩
        · simp at h
  · intro x
    induction k generalizing x with
    | zero => intro _ _ _ h; simp [Imap.takeExactly] at h
    | succ k ih =>
      intro t n m h
      cases x with
      | nil => simp [Imap.takeExactly] at h
      | cons e x =>
        simp only [Imap.takeExactly] at h
        split at h
        · apply ih (x := x) (t := t) (n := n) (m := m)
          revert h
          cases Imap.takeExactly f k x <;> simp [Res.andThen]
        · simp at h

theorem Fr.take1or2 (hf : ∀ d, f d = true → Calm q d = true) : Fr q q (Imap.take1or2 f) := by
  apply Fr.of_calm
  · intro x r v h
    rcases x with _ | ⟨d, _ | ⟨e, x⟩⟩ <;> simp only [Imap.take1or2] at h
    · simp at h
    · split at h <;> simp at h
    · split at h
      · split at h <;> simp at h <;> obtain ⟨rfl, rfl⟩ := h
        · exact ⟨[d, e], by simp, by simp_all⟩
        · exact ⟨[d], by simp, by simp_all⟩
      · simp at h
  · intro x h
    rcases x with _ | ⟨d, _ | ⟨e, x⟩⟩ <;> simp only [Imap.take1or2] at h
    · simp
    · split at h <;> simp_all
    · split at h
      · split at h <;> simp at h
      · simp at h
  · intro x t n m h
    rcases x with _ | ⟨d, _ | ⟨e, x⟩⟩ <;> simp only [Imap.take1or2] at h
    · simp at h
    · split at h <;> simp at h
    · split at h
      · split at h <;> simp at h
      · simp at h

/-! ### Quoted strings -/

theorem step_quote (lt : Latest) : (lineStep lt 34).1 = .other := by
  unfold lineStep; grind [isDigit]

theorem Fr.openQuote : Fr .out .within Imap.dquote := by
  constructor
  · intro s x r v hs h
    obtain ⟨rfl⟩ := exists_of_char h
    refine ⟨[34], rfl, ?_⟩
    rcases hs with ⟨lt, rfl, hlt⟩ | ⟨_, _, m, rfl⟩
    · exact (Or.inl ⟨_, rfl, by simp⟩)
    · exact (Or.inl ⟨_, rfl, by simp⟩)
  · intro s x hs h
    cases x with
    | nil => exact Ready.waiting hs
    | cons e x => simp only [Imap.dquote, Imap.char] at h; split at h <;> simp at h
  · intro s x t n m hs h
    cases x with
    | nil => simp [Imap.dquote, Imap.char] at h
    | cons e x => simp only [Imap.dquote, Imap.char] at h; split at h <;> simp at h

theorem Fr.closeQuote : Fr .within .out Imap.dquote := by
  constructor
  · intro s x r v hs h
    obtain ⟨rfl⟩ := exists_of_char h
    refine ⟨[34], rfl, ?_⟩
    rcases hs with ⟨lt, rfl, hlt⟩ | ⟨h, _⟩
    · refine (Or.inl ⟨.other, ?_, by simp⟩)
      simp [St.step, stepText, Quote.step, step_quote]
    · simp at h
  · intro s x hs h
    cases x with
    | nil => exact Ready.waiting hs
    | cons e x => simp only [Imap.dquote, Imap.char] at h; split at h <;> simp at h
  · intro s x t n m hs h
    cases x with
    | nil => simp [Imap.dquote, Imap.char] at h
    | cons e x => simp only [Imap.dquote, Imap.char] at h; split at h <;> simp at h

theorem within_any {s : St} {d : UInt8} {x : Bytes} (r : Bytes) (hs : Ready .within s x) (h34 : d ≠ 34) (h92 : d ≠ 92) :
    Ready .within (s.step d) r := by
  rcases hs with ⟨lt, rfl, hlt⟩ | ⟨h, _⟩
  · exact Or.inl ⟨(lineStep lt d).1, by simp [St.step, stepText, Quote.step, h34, h92], by simp⟩
  · simp at h

theorem within_esc {s : St} {d : UInt8} {x : Bytes} (r : Bytes) (hs : Ready .within s x) (hd : isQuotedSpecials d = true) :
    Ready .within ((s.step 92).step d) r := by
  have k : ∀ d : UInt8, isQuotedSpecials d = true → d = 34 ∨ d = 92 := forall_byte (by decide)
  have hd' := k d hd
  rcases hs with ⟨lt, rfl, hlt⟩ | ⟨h, _⟩
  · refine (Or.inl ⟨(lineStep (lineStep lt 92).1 d).1, ?_, by simp⟩)
    have h10 : d ≠ 10 := by rcases hd' with rfl | rfl <;> decide
    simp [St.step, stepText, Quote.step, h10]
  · simp at h

theorem within_esc_wait {s : St} {x : Bytes} (hs : Ready .within s x) : Waiting (s.step 92) := by
  rcases hs with ⟨lt, rfl, hlt⟩ | ⟨h, _⟩
  · exact (Or.inl ⟨_, _, rfl⟩)
  · simp at h

theorem Fr.escaped (hf : ∀ d, f d = true → d ≠ 34 ∧ d ≠ 92) : Fr .within .within (Imap.escaped f) := by
  constructor
  · intro s x
    fun_induction Imap.escaped f x generalizing s with
    | case1 => intro r v hs h; simp at h
    | case2 d hd => intro r v hs h; simp at h
    | case3 d hd => intro r v hs h; simp at h; obtain ⟨rfl, rfl⟩ := h; exact ⟨[], by simp, by simpa using hs⟩
    | case4 d e x hd ih =>
      intro r v hs h
      simp only [Res.andThen_eq_ok] at h
      obtain ⟨r', v', h1, h2⟩ := h
      simp at h2
      obtain ⟨rfl, rfl⟩ := h2
      obtain ⟨w, hw, hw2⟩ := ih (within_any _ hs (hf _ hd).1 (hf _ hd).2) h1
      exact ⟨d :: w, by simp [hw], by simpa using hw2⟩
    | case5 d e x hd h92 hq ih =>
      intro r v hs h
      simp only [Res.andThen_eq_ok] at h
      obtain ⟨r', v', h1, h2⟩ := h
      simp at h2
      obtain ⟨rfl, rfl⟩ := h2
      simp at h92
      subst h92
      obtain ⟨w, hw, hw2⟩ := ih (within_esc _ hs hq) h1
      exact ⟨92 :: e :: w, by simp [hw], by simpa using hw2⟩
    | case6 => intro r v hs h; simp at h
    | case7 d e x hd h92 => intro r v hs h; simp at h; obtain ⟨rfl, rfl⟩ := h; exact ⟨[], by simp, by simpa using hs⟩
  · intro s x
    fun_induction Imap.escaped f x generalizing s with
    | case1 => intro hs h; exact Ready.waiting hs
    | case2 d hd =>
      intro hs h
      simp at hd
      by_cases h92 : d = 92
      · subst h92; exact within_esc_wait hs
      · have := hf d (by simpa [h92] using hd)
        exact Ready.waiting (within_any [] hs this.1 this.2)
    | case3 d hd => intro hs h; simp at h
    | case4 d e x hd ih =>
      intro hs h
      refine ih (s := s.step d) (within_any _ hs (hf _ hd).1 (hf _ hd).2) ?_
      revert h
      cases Imap.escaped f (e :: x) <;> simp [Res.andThen]
    | case5 d e x hd h92 hq ih =>
      intro hs h
      simp at h92
      subst h92
      refine ih (s := (s.step 92).step e) (within_esc _ hs hq) ?_
      revert h
      cases Imap.escaped f x <;> simp [Res.andThen]
    | case6 => intro hs h; simp at h
    | case7 d e x hd h92 => intro hs h; simp at h
  · intro s x
    fun_induction Imap.escaped f x generalizing s with
    | case1 => intro t n m hs h; simp at h
    | case2 d hd => intro t n m hs h; simp at h
    | case3 d hd => intro t n m hs h; simp at h
    | case4 d e x hd ih =>
      intro t n m hs h
      refine ih (s := s.step d) (t := t) (within_any _ hs (hf _ hd).1 (hf _ hd).2) ?_
      revert h
      cases Imap.escaped f (e :: x) <;> simp [Res.andThen]
    | case5 d e x hd h92 hq ih =>
      intro t n m hs h
      simp at h92
      subst h92
      refine ih (s := (s.step 92).step e) (t := t) (within_esc _ hs hq) ?_
      revert h
      cases Imap.escaped f x <;> simp [Res.andThen]
    | case6 => intro t n m hs h; simp at h
    | case7 d e x hd h92 => intro t n m hs h; simp at h

end Imap.Frame
