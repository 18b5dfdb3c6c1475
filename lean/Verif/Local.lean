import Verif.ResponseLemmas
/-
Parsers whose behaviour does not depend on what follows the current line.

`resp_text` first tries the known codes, and only if they fail the unknown code. A known code may contain a quoted string that extends
beyond the closing bracket, so that the failure may depend on the text after the code. `Local p` says that this is all it can depend on:
up to the end of the line (`k = true`); and, within the code, not even on whether the text after the bracket is missing or is `...`
(`k = false`), as the quirk `missing_text` replaces a missing text by `...`.
-/
set_option maxRecDepth 10000

namespace Imap

variable {α β : Type}

/-- The bytes before the tail. -/
def locX (k : Bool) (b : UInt8) : Bool := b != 13 && b != 10 && (k || b != 93)

/-- The end of the line. -/
def EolTail (y : Bytes) : Prop := ∃ c t, y = c :: t ∧ (c = 13 ∨ c = 10)

/-- The tails among which the parser must not distinguish. -/
def LocY : Bool → Bytes → Prop
  | true, y => EolTail y
  | false, y => ∃ m z, y = 93 :: (m ++ z) ∧ (m = [] ∨ m = b!" ...") ∧ EolTail z

/-- See the header. -/
class Local (p : P α) : Prop where
  loc : ∀ k x, x.all (locX k) = true →
    (∃ r v, r.all (locX k) = true ∧ r.length ≤ x.length ∧ ∀ y, LocY k y → p (x ++ y) = .ok (r ++ y) v) ∨
      ∀ y, LocY k y → p (x ++ y) = .error

theorem LocY.head {k : Bool} {y : Bytes} (h : LocY k y) : ∃ c t, y = c :: t ∧ (c = 13 ∨ c = 10 ∨ c = 93) := by
  cases k with
  | true =>
    obtain ⟨c, t, rfl, h⟩ := h
    exact ⟨c, t, rfl, by tauto⟩
  | false =>
    obtain ⟨m, z, rfl, -⟩ := h
    exact ⟨93, _, rfl, by tauto⟩

instance Local.pure (a : α) : Local (pure a : P α) :=
  ⟨fun _ x hx => Or.inl ⟨x, a, hx, Nat.le_refl _, fun _ _ => rfl⟩⟩

instance Local.bind {p : P α} {f : α → P β} [hp : Local p] [hf : ∀ v, Local (f v)] : Local (p >>= f) := ⟨by
  intro k x hx
  rcases hp.loc k x hx with ⟨r, v, hr, hl, h⟩ | h
  · rcases (hf v).loc k r hr with ⟨r', w, hr', hl', h'⟩ | h'
    · exact Or.inl ⟨r', w, hr', by omega, fun y hy => by simp [P.bind_apply, h y hy, h' y hy]⟩
    · exact Or.inr fun y hy => by simp [P.bind_apply, h y hy, h' y hy]
  · exact Or.inr fun y hy => by simp [P.bind_apply, h y hy]⟩

instance Local.map {p : P α} {f : α → β} [hp : Local p] : Local (f <$> p) := ⟨by
  intro k x hx
  rcases hp.loc k x hx with ⟨r, v, hr, hl, h⟩ | h
  · exact Or.inl ⟨r, f v, hr, hl, fun y hy => by simp [P.map_apply, h y hy]⟩
  · exact Or.inr fun y hy => by simp [P.map_apply, h y hy]⟩

instance Local.value {p : P α} {v : β} [Local p] : Local (value v p) := by unfold Imap.value; infer_instance

instance Local.ite {c : Prop} [Decidable c] {p q : P α} [Local p] [Local q] : Local (if c then p else q) := by
  split <;> infer_instance

instance Local.gate {b : Bool} {p : P α} [h : Local p] : Local (gate b p) := by
  cases b
  · exact ⟨fun _ _ _ => Or.inr fun _ _ => gate_false _ _⟩
  · rw [gate_true]; exact h

instance Local.alt_nil : Local (alt ([] : List (P α))) := ⟨fun _ _ _ => Or.inr fun _ _ => rfl⟩

instance Local.alt_cons {p : P α} {ps : List (P α)} [hp : Local p] [hs : Local (alt ps)] : Local (alt (p :: ps)) := ⟨by
  intro k x hx
  rcases hp.loc k x hx with ⟨r, v, hr, hl, h⟩ | h
  · exact Or.inl ⟨r, v, hr, hl, fun y hy => by simp [Imap.alt, orElse, h y hy]⟩
  · rcases hs.loc k x hx with ⟨r, v, hr, hl, h'⟩ | h'
    · exact Or.inl ⟨r, v, hr, hl, fun y hy => by simp only [Imap.alt_cons, orElse, h y hy, h' y hy]⟩
    · exact Or.inr fun y hy => by simp only [Imap.alt_cons, orElse, h y hy, h' y hy]⟩

instance Local.opt {p : P α} [hp : Local p] : Local (opt p) := ⟨by
  intro k x hx
  rcases hp.loc k x hx with ⟨r, v, hr, hl, h⟩ | h
  · exact Or.inl ⟨r, some v, hr, hl, fun y hy => by simp [Imap.opt, h y hy]⟩
  · exact Or.inl ⟨x, none, hx, Nat.le_refl _, fun y hy => by simp [Imap.opt, h y hy]⟩⟩

instance Local.mapRes {p : P α} {f : α → Option β} [hp : Local p] : Local (mapRes p f) := ⟨by
  intro k x hx
  rcases hp.loc k x hx with ⟨r, v, hr, hl, h⟩ | h
  · cases e : f v with
    | none => exact Or.inr fun y hy => by simp [Imap.mapRes, h y hy, e]
    | some w => exact Or.inl ⟨r, w, hr, hl, fun y hy => by simp [Imap.mapRes, h y hy, e]⟩
  · exact Or.inr fun y hy => by simp [Imap.mapRes, h y hy]⟩

theorem Local.many0_aux {p : P α} [hp : Local p] (k : Bool) (n : Nat) : ∀ x : Bytes, x.length ≤ n → x.all (locX k) = true →
    (∃ r v, r.all (locX k) = true ∧ r.length ≤ x.length ∧ ∀ y, LocY k y → many0 p (x ++ y) = .ok (r ++ y) v) ∨
      ∀ y, LocY k y → many0 p (x ++ y) = .error := by
  induction n with
  | zero =>
    intro x hn hx
    obtain rfl : x = [] := List.length_eq_zero_iff.1 (by omega)
    rcases hp.loc k [] hx with ⟨r, v, hr, hl, h⟩ | h
    · obtain rfl : r = [] := List.length_eq_zero_iff.1 (by simpa using hl)
      exact Or.inr fun y hy => by rw [many0, h y hy]; simp
    · exact Or.inl ⟨[], [], hx, Nat.le_refl _, fun y hy => by rw [many0, h y hy]⟩
  | succ n ih =>
    intro x hn hx
    rcases hp.loc k x hx with ⟨r, v, hr, hl, h⟩ | h
    · by_cases hlt : r.length < x.length
      · rcases ih r (by omega) hr with ⟨r', vs, hr', hl', h'⟩ | h'
        · exact Or.inl ⟨r', v :: vs, hr', by omega, fun y hy => by
            rw [many0, h y hy]
            simp [hlt, h' y hy]⟩
        · exact Or.inr fun y hy => by
            rw [many0, h y hy]
            simp [hlt, h' y hy]
      · exact Or.inr fun y hy => by
          rw [many0, h y hy]
          simp [hlt]
    · exact Or.inl ⟨x, [], hx, Nat.le_refl _, fun y hy => by rw [many0, h y hy]⟩

instance Local.many0 {p : P α} [Local p] : Local (many0 p) := ⟨fun k x hx => Local.many0_aux k x.length x (Nat.le_refl _) hx⟩

instance Local.sepList1 {s : P Unit} {p : P α} [Local s] [Local p] : Local (sepList1 s p) := by
  unfold Imap.sepList1; infer_instance

/-! ### Single bytes and keywords -/

theorem locX_ne {k : Bool} {b : UInt8} (h : locX k b = true) : b ≠ 13 ∧ b ≠ 10 := by
  simp [locX] at h
  tauto

theorem Local.char {c : UInt8} (h : c ≠ 13 ∧ c ≠ 10 ∧ c ≠ 93) : Local (char c) := ⟨by
  intro k x hx
  cases x with
  | nil =>
    refine Or.inr fun y hy => ?_
    obtain ⟨d, t, rfl, hd⟩ := hy.head
    simp only [List.nil_append, Imap.char]
    rw [if_neg]
    rintro rfl
    tauto
  | cons b x =>
    simp only [List.all_cons, Bool.and_eq_true] at hx
    by_cases e : b = c
    · exact Or.inl ⟨x, (), hx.2, by simp, fun y _ => by simp [Imap.char, e]⟩
    · exact Or.inr fun y _ => by simp [Imap.char, e]⟩

theorem Local.tag {t : Bytes} (h : ∀ c ∈ t, c ≠ 13 ∧ c ≠ 10 ∧ c ≠ 93) : Local (tag t) := ⟨by
  intro k
  induction t with
  | nil => exact fun x hx => Or.inl ⟨x, (), hx, Nat.le_refl _, fun y _ => rfl⟩
  | cons a t ih =>
    intro x hx
    have ha := h a (by simp)
    cases x with
    | nil =>
      refine Or.inr fun y hy => ?_
      obtain ⟨d, t, rfl, hd⟩ := hy.head
      simp only [List.nil_append, Imap.tag]
      rw [if_neg]
      rintro rfl
      tauto
    | cons b x =>
      simp only [List.all_cons, Bool.and_eq_true] at hx
      by_cases e : a = b
      · rcases ih (fun c hc => h c (by simp [hc])) x hx.2 with ⟨r, v, hr, hl, h'⟩ | h'
        · exact Or.inl ⟨r, v, hr, by simp; omega, fun y hy => by simp [Imap.tag, e, h' y hy]⟩
        · exact Or.inr fun y hy => by simp [Imap.tag, e, h' y hy]
      · exact Or.inr fun y hy => by simp [Imap.tag, e]⟩

theorem lower_eol {a d : UInt8} (hd : d = 13 ∨ d = 10 ∨ d = 93) (h : lower a = lower d) : a = d := by
  have h13 : ∀ a : UInt8, lower a = lower 13 → a = 13 := forall_byte (by decide)
  have h10 : ∀ a : UInt8, lower a = lower 10 → a = 10 := forall_byte (by decide)
  have h93 : ∀ a : UInt8, lower a = lower 93 → a = 93 := forall_byte (by decide)
  rcases hd with rfl | rfl | rfl
  · exact h13 a h
  · exact h10 a h
  · exact h93 a h

theorem Local.tagNC {t : Bytes} (h : ∀ c ∈ t, c ≠ 13 ∧ c ≠ 10 ∧ c ≠ 93) : Local (tagNC t) := ⟨by
  intro k
  induction t with
  | nil => exact fun x hx => Or.inl ⟨x, (), hx, Nat.le_refl _, fun y _ => rfl⟩
  | cons a t ih =>
    intro x hx
    have ha := h a (by simp)
    cases x with
    | nil =>
      refine Or.inr fun y hy => ?_
      obtain ⟨d, t, rfl, hd⟩ := hy.head
      simp only [List.nil_append, Imap.tagNC]
      rw [if_neg]
      intro he
      obtain rfl := lower_eol hd he
      tauto
    | cons b x =>
      simp only [List.all_cons, Bool.and_eq_true] at hx
      by_cases e : lower a = lower b
      · rcases ih (fun c hc => h c (by simp [hc])) x hx.2 with ⟨r, v, hr, hl, h'⟩ | h'
        · exact Or.inl ⟨r, v, hr, by simp; omega, fun y hy => by simp [Imap.tagNC, e, h' y hy]⟩
        · exact Or.inr fun y hy => by simp [Imap.tagNC, e, h' y hy]
      · exact Or.inr fun y hy => by simp [Imap.tagNC, e]⟩

theorem Local.takeWhile {f : UInt8 → Bool} (h : f 13 = false ∧ f 10 = false ∧ f 93 = false) : Local (takeWhile f) := ⟨by
  intro k x
  have hh : ∀ d : UInt8, (d = 13 ∨ d = 10 ∨ d = 93) → f d = false := by rintro d (rfl | rfl | rfl) <;> tauto
  induction x with
  | nil =>
    refine fun hx => Or.inl ⟨[], [], hx, Nat.le_refl _, fun y hy => ?_⟩
    obtain ⟨d, t, rfl, hd⟩ := hy.head
    simp [Imap.takeWhile, hh d hd]
  | cons b x ih =>
    intro hx
    have hx' := hx
    simp only [List.all_cons, Bool.and_eq_true] at hx'
    by_cases e : f b = true
    · rcases ih hx'.2 with ⟨r, v, hr, hl, h'⟩ | h'
      · exact Or.inl ⟨r, b :: v, hr, by simp; omega, fun y hy => by simp [Imap.takeWhile, e, h' y hy]⟩
      · exact Or.inr fun y hy => by simp [Imap.takeWhile, e, h' y hy]
    · exact Or.inl ⟨b :: x, [], hx, Nat.le_refl _, fun y hy => by simp [Imap.takeWhile, e]⟩⟩

theorem Local.takeWhile1 {f : UInt8 → Bool} (h : f 13 = false ∧ f 10 = false ∧ f 93 = false) : Local (takeWhile1 f) := ⟨by
  intro k x hx
  have hh : ∀ d : UInt8, (d = 13 ∨ d = 10 ∨ d = 93) → f d = false := by rintro d (rfl | rfl | rfl) <;> tauto
  cases x with
  | nil =>
    refine Or.inr fun y hy => ?_
    obtain ⟨d, t, rfl, hd⟩ := hy.head
    simp [Imap.takeWhile1, hh d hd]
  | cons b x =>
    by_cases e : f b = true
    · simpa [Imap.takeWhile1, e] using (Local.takeWhile h).loc k (b :: x) hx
    · exact Or.inr fun y hy => by simp [Imap.takeWhile1, e]⟩

/-! ### Quoted strings -/

theorem escaped_run {f : UInt8 → Bool} {s : Bytes} {c : UInt8} {t : Bytes} (hs : s.all f = true) (hc : f c = false)
    (hc' : c ≠ 92) : escaped f (s ++ c :: t) = .ok (c :: t) s := by
  induction s with
  | nil => cases t <;> simp [escaped, hc, hc']
  | cons b s ih =>
    simp only [List.all_cons, Bool.and_eq_true] at hs
    rcases s with _ | ⟨d, s⟩
    · simp only [List.cons_append, List.nil_append, escaped, hs.1, if_true]
      have := ih hs.2
      simp only [List.nil_append] at this
      rw [this]
      rfl
    · simp only [List.cons_append, escaped, hs.1, if_true]
      have := ih hs.2
      simp only [List.cons_append] at this
      rw [this]
      rfl

/-- The three possible outcomes of `escaped`. -/
def EscOut (k : Bool) (x : Bytes) (e : Bytes → Res Bytes) : Prop :=
  (∃ r v, r ≠ [] ∧ r.all (locX k) = true ∧ r.length ≤ x.length ∧ ∀ y, LocY k y → e y = .ok (r ++ y) v) ∨
    (∀ y, LocY k y → ∃ d t v, e y = .ok (d :: t) v ∧ (d = 13 ∨ d = 10)) ∨ ∀ y, LocY k y → e y = .error

theorem EscOut.cons {k : Bool} {x x' : Bytes} {e : Bytes → Res Bytes} {c : Bytes} (h : EscOut k x e) (hl : x.length ≤ x'.length) :
    EscOut k x' fun y => (e y).andThen fun v i => .ok i (c ++ v) := by
  rcases h with ⟨r, v, h1, h2, h3, h4⟩ | h | h
  · exact Or.inl ⟨r, c ++ v, h1, h2, by omega, fun y hy => by simp [h4 y hy]⟩
  · refine Or.inr (Or.inl fun y hy => ?_)
    obtain ⟨d, t, v, h1, h2⟩ := h y hy
    exact ⟨d, t, c ++ v, by simp [h1], h2⟩
  · exact Or.inr (Or.inr fun y hy => by simp [h y hy])

theorem escaped_tail {k : Bool} {y : Bytes} (hy : LocY k y) :
    ∃ d t v, escaped isAnyTextCharExceptQuotedSpecials y = .ok (d :: t) v ∧ (d = 13 ∨ d = 10) := by
  have key : ∀ (s : Bytes) (z : Bytes), s.all isAnyTextCharExceptQuotedSpecials = true → EolTail z →
      ∃ d t v, escaped isAnyTextCharExceptQuotedSpecials (s ++ z) = .ok (d :: t) v ∧ (d = 13 ∨ d = 10) := by
    rintro s z hs ⟨c, t, rfl, hc⟩
    refine ⟨c, t, s, escaped_run hs ?_ ?_, hc⟩ <;> rcases hc with rfl | rfl <;> decide
  cases k with
  | true => exact key [] y rfl hy
  | false =>
    obtain ⟨m, z, rfl, hm, hz⟩ := hy
    refine key (93 :: m) z ?_ hz
    rcases hm with rfl | rfl <;> decide

theorem escaped_local (k : Bool) (n : Nat) : ∀ x : Bytes, x.length ≤ n → x.all (locX k) = true →
    EscOut k x fun y => escaped isAnyTextCharExceptQuotedSpecials (x ++ y) := by
  induction n with
  | zero =>
    intro x hn hx
    obtain rfl : x = [] := List.length_eq_zero_iff.1 (by omega)
    exact Or.inr (Or.inl fun y hy => escaped_tail hy)
  | succ n ih =>
    intro x hn hx
    rcases x with _ | ⟨b, x⟩
    · exact Or.inr (Or.inl fun y hy => escaped_tail hy)
    have hx' := hx
    simp only [List.all_cons, Bool.and_eq_true] at hx'
    have step : ∀ y, LocY k y → escaped isAnyTextCharExceptQuotedSpecials (b :: x ++ y) =
        if isAnyTextCharExceptQuotedSpecials b then
          (escaped isAnyTextCharExceptQuotedSpecials (x ++ y)).andThen fun v i => .ok i ([b] ++ v)
        else if b == 92 then
          match x ++ y with
          | [] => .incomplete
          | c :: cs =>
            if isQuotedSpecials c then (escaped isAnyTextCharExceptQuotedSpecials cs).andThen fun v i => .ok i ([b, c] ++ v)
            else .error
        else .ok (b :: x ++ y) [] := by
      intro y hy
      obtain ⟨d, t, rfl, hd⟩ := hy.head
      rcases x with _ | ⟨c, x⟩ <;> simp only [List.nil_append, List.cons_append, escaped]
    have cong : ∀ {e e' : Bytes → Res Bytes}, EscOut k (b :: x) e → (∀ y, LocY k y → e' y = e y) → EscOut k (b :: x) e' := by
      rintro e e' (⟨r, v, h1, h2, h3, h4⟩ | h | h) he
      · exact Or.inl ⟨r, v, h1, h2, h3, fun y hy => by rw [he y hy, h4 y hy]⟩
      · exact Or.inr (Or.inl fun y hy => by rw [he y hy]; exact h y hy)
      · exact Or.inr (Or.inr fun y hy => by rw [he y hy, h y hy])
    refine cong ?_ step
    by_cases h1 : isAnyTextCharExceptQuotedSpecials b = true
    · simp only [h1, if_true]
      exact (ih x (by simp at hn; omega) hx'.2).cons (by simp)
    · by_cases h2 : b = 92
      · subst h2
        rcases x with _ | ⟨c, x⟩
        · refine Or.inr (Or.inr fun y hy => ?_)
          obtain ⟨d, t, rfl, hd⟩ := hy.head
          show (if _ then _ else _) = _
          rw [if_neg h1]
          have : isQuotedSpecials d = false := by rcases hd with rfl | rfl | rfl <;> rfl
          simp [this]
        · simp only [h1]
          simp only [List.all_cons, Bool.and_eq_true] at hx'
          by_cases h3 : isQuotedSpecials c = true
          · simp only [Bool.false_eq_true, if_false, beq_self_eq_true, if_true, List.cons_append, h3]
            exact (ih x (by simp only [List.length_cons] at hn; omega) hx'.2.2).cons (c := [92, c]) (x' := 92 :: c :: x) (by simp only [List.length_cons]; omega)
          · exact Or.inr (Or.inr fun y hy => by simp [h3])
      · refine Or.inl ⟨b :: x, [], by simp, hx, Nat.le_refl _, fun y hy => ?_⟩
        show (if _ then _ else _) = _
        rw [if_neg h1, if_neg (by simpa using h2)]

instance Local.quoted : Local quoted := ⟨by
  intro k x hx
  cases x with
  | nil =>
    refine Or.inr fun y hy => ?_
    obtain ⟨d, t, rfl, hd⟩ := hy.head
    rcases hd with rfl | rfl | rfl <;> rfl
  | cons b x =>
    simp only [List.all_cons, Bool.and_eq_true] at hx
    by_cases hb : b = 34
    · subst hb
      have hstep : ∀ y, Imap.quoted (34 :: x ++ y) =
          (escaped isAnyTextCharExceptQuotedSpecials (x ++ y)).andThen fun s => do dquote; return unescapeQuoted s := by
        intro y
        simp only [Imap.quoted, P.bind_apply, dquote, Imap.char, List.cons_append]
        simp
      rcases escaped_local k x.length x (Nat.le_refl _) hx.2 with ⟨r, v, h1, h2, h3, h4⟩ | h | h <;> dsimp only at *
      · rcases r with _ | ⟨c, r⟩
        · exact absurd rfl h1
        simp only [List.all_cons, Bool.and_eq_true] at h2
        by_cases hc : c = 34
        · subst hc
          refine Or.inl ⟨r, unescapeQuoted v, h2.2, by simp only [List.length_cons] at h3 ⊢; omega, fun y hy => ?_⟩
          rw [hstep, h4 y hy]
          simp [dquote, Imap.char]
        · refine Or.inr fun y hy => ?_
          rw [hstep, h4 y hy]
          simp [dquote, Imap.char, hc]
      · refine Or.inr fun y hy => ?_
        obtain ⟨d, t, v, e, hd⟩ := h y hy
        rw [hstep, e]
        rcases hd with rfl | rfl <;> simp [dquote, Imap.char]
      · exact Or.inr fun y hy => by rw [hstep, h y hy]; rfl
    · exact Or.inr fun y hy => by simp [Imap.quoted, dquote, Imap.char, hb]⟩

/-! ### The codes -/

/-- Solve the goals `Local …` for keywords and byte classes. -/
macro "local_leaf" : tactic => `(tactic| first
  | exact Local.tagNC (by decide)
  | exact Local.tag (by decide)
  | exact Local.char (by decide)
  | exact Local.takeWhile1 (by decide))

/-- `Local` along the structure of the parser. -/
macro "local_seq" : tactic => `(tactic| repeat' with_reducible first
  | infer_instance
  | exact Local.tagNC (by decide)
  | exact Local.tag (by decide)
  | exact Local.char (by decide)
  | exact Local.takeWhile1 (by decide)
  | refine @Local.gate _ _ _ ?_
  | refine @Local.alt_cons _ _ _ ?_ ?_
  | refine @Local.value _ _ _ _ ?_
  | refine @Local.map _ _ _ _ ?_
  | refine @Local.opt _ _ ?_
  | refine @Local.sepList1 _ _ _ ?_ ?_
  | refine @Local.mapRes _ _ _ _ ?_
  | refine @Local.ite _ _ _ _ _ ?_ ?_
  | refine @Local.bind _ _ _ _ ?_ (fun _ => ?_))

instance : Local sp := by unfold sp; local_leaf
instance : Local atom := by unfold atom; local_leaf
instance : Local number := by unfold number; local_seq
instance : Local number64 := by unfold number64; local_seq
instance : Local nzNumber := by unfold nzNumber; local_seq
instance : Local modSequenceValue := by unfold modSequenceValue; local_seq
instance : Local charset := by unfold charset; local_seq
instance : Local charsetList := by unfold charsetList; local_seq
instance [Quirks] : Local capability := by unfold capability; local_seq
instance : Local flag := by unfold flag; local_seq
instance : Local flagPerm := by unfold flagPerm; local_seq
instance : Local flagPermList := by unfold flagPermList; local_seq
instance : Local seqNumber := by unfold seqNumber; local_seq
instance : Local seqRange := by unfold seqRange; local_seq
instance : Local sequenceSet := by unfold sequenceSet; local_seq
instance : Local uidRange := by unfold uidRange; local_seq
instance : Local uidSet := by unfold uidSet; local_seq
instance : Local metadataCode := by unfold metadataCode; local_seq
instance : Local respCodeApnd := by unfold respCodeApnd; local_seq
instance : Local respCodeCopy := by unfold respCodeCopy; local_seq

section
variable [Quirks]

instance : Local capabilityData := by unfold capabilityData; local_seq
instance : Local respTextCode := by unfold respTextCode; local_seq

/-- The rejection of a known code depends on the rest of the line only. -/
theorem codeKnown_eol {x y y' : Bytes} (hx : x.all (fun b => b != 13 && b != 10) = true) (hy : EolTail y) (hy' : EolTail y')
    (h : codeKnown (x ++ y) = .error) : codeKnown (x ++ y') = .error := by
  have hx' : x.all (locX true) = true := by simpa [locX] using hx
  simp only [codeKnown, P.bind_apply] at h ⊢
  rcases (inferInstance : Local respTextCode).loc true x hx' with ⟨r, v, hr, hl, e⟩ | e
  · rw [e y hy] at h
    rw [e y' hy']
    rcases r with _ | ⟨c, r⟩
    · obtain ⟨d, t, rfl, hd⟩ := hy'
      rcases hd with rfl | rfl <;> rfl
    · simp only [Res.andThen_ok, List.cons_append, P.bind_apply, tag] at h ⊢
      split at h <;> simp_all
  · rw [e y' hy']
    rfl

/-- Nor does it depend on whether the text is missing or `...`. -/
theorem codeKnown_missing {x y y' : Bytes} (hx : x.all isCodeOtherChar = true) (hy : EolTail y) (hy' : EolTail y')
    (h : codeKnown (x ++ 93 :: y) = .error) : codeKnown (x ++ b!"] ..." ++ y') = .error := by
  have hx' : x.all (locX false) = true := by
    simp only [List.all_eq_true] at hx ⊢
    intro b hb
    have := hx b hb
    simp [isCodeOtherChar] at this
    simp [locX, this]
  have l1 : LocY false (93 :: y) := ⟨[], y, by simp, Or.inl rfl, hy⟩
  have l2 : LocY false (b!"] ..." ++ y') := ⟨b!" ...", y', by simp, Or.inr rfl, hy'⟩
  rw [List.append_assoc]
  simp only [codeKnown, P.bind_apply] at h ⊢
  rcases (inferInstance : Local respTextCode).loc false x hx' with ⟨r, v, hr, hl, e⟩ | e
  · rw [e _ l1] at h
    rw [e _ l2]
    rcases r with _ | ⟨c, r⟩
    · simp [tag] at h
    · simp only [Res.andThen_ok, List.cons_append, P.bind_apply, tag] at h ⊢
      split at h <;> simp_all
  · rw [e _ l2]
    rfl

end

end Imap
