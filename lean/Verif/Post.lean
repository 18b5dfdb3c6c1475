import Verif.NomLemmas
/-
Postconditions of parsers: `Post p Q` says that every value returned by `p` satisfies `Q`.
`Canon p Q` registers the postcondition that is used when `p` occurs within another parser.
-/
namespace Imap

variable {α β γ : Type}

/-- Every value returned by `p` satisfies `Q`. -/
def Post (p : P α) (Q : α → Prop) : Prop := ∀ x r v, p x = .ok r v → Q v

/-- The canonical postcondition of `p`. -/
class Canon (p : P α) (Q : outParam (α → Prop)) : Prop where
  post : Post p Q

theorem Post.canon {p : P α} {Q Q' : α → Prop} [h : Canon p Q'] (hq : ∀ v, Q' v → Q v) : Post p Q :=
  fun x r v e => hq v (h.post x r v e)

theorem Post.bind {p : P α} {f : α → P β} {Q' : α → Prop} {Q : β → Prop} [h : Canon p Q']
    (hf : ∀ v, Q' v → Post (f v) Q) : Post (p >>= f) Q := by
  intro x r v e
  simp only [P.bind_apply] at e
  obtain ⟨i, w, h1, h2⟩ := Res.andThen_eq_ok.1 e
  exact hf w (h.post _ _ _ h1) _ _ _ h2

theorem Post.pure {a : α} {Q : α → Prop} (h : Q a) : Post (pure a : P α) Q := by
  intro x r v e
  simp at e
  exact e.2 ▸ h

theorem Post.map {p : P α} {f : α → β} {Q : β → Prop} (h : Post p fun v => Q (f v)) : Post (f <$> p) Q := by
  intro x r v e
  simp only [P.map_apply] at e
  obtain ⟨i, w, h1, h2⟩ := Res.andThen_eq_ok.1 e
  simp at h2
  exact h2.2 ▸ h _ _ _ h1

theorem Post.orElse {p q : P α} {Q : α → Prop} (hp : Post p Q) (hq : Post q Q) : Post (orElse p q) Q := by
  intro x r v e
  unfold Imap.orElse at e
  cases h : p x <;> rw [h] at e <;> simp at e
  · exact e.2 ▸ hp _ _ _ h
  · exact hq _ _ _ e

theorem Post.alt_nil {Q : α → Prop} : Post (alt []) Q := by
  intro x r v e
  simp at e

theorem Post.alt_cons {p : P α} {ps : List (P α)} {Q : α → Prop} (hp : Post p Q) (hq : Post (alt ps) Q) :
    Post (alt (p :: ps)) Q := Post.orElse hp hq

theorem Post.mapRes {p : P α} {f : α → Option β} {Q' : α → Prop} {Q : β → Prop} [h : Canon p Q']
    (hf : ∀ v, Q' v → ∀ w, f v = some w → Q w) : Post (mapRes p f) Q := by
  intro x r v e
  unfold Imap.mapRes at e
  cases e1 : p x <;> rw [e1] at e <;> simp at e
  next r' w =>
    cases e2 : f w <;> rw [e2] at e <;> simp at e
    exact e.2 ▸ hf w (h.post _ _ _ e1) _ e2

theorem Post.failure {k : Fail} {Q : α → Prop} : Post (fun _ => .failure k) Q := by
  intro x r v e
  simp at e

theorem Post.ite {c : Prop} [Decidable c] {p q : P α} {Q : α → Prop} (hp : c → Post p Q) (hq : ¬ c → Post q Q) :
    Post (if c then p else q) Q := by
  split
  · next h => exact hp h
  · next h => exact hq h

theorem Post.gate {b : Bool} {p : P α} {Q : α → Prop} (h : b = true → Post p Q) : Post (gate b p) Q :=
  fun x r v e => h (gate_ok e).1 x r v (gate_ok e).2

theorem Post.value {p : P α} {v : β} {Q : β → Prop} (h : Q v) : Post (value v p) Q := by
  intro x r w e
  simp only [Imap.value, P.bind_apply] at e
  obtain ⟨i, u, h1, h2⟩ := Res.andThen_eq_ok.1 e
  simp at h2
  exact h2.2 ▸ h

/-! ### Canonical postconditions of the combinators -/

/-- Fallback: nothing is known. -/
instance (priority := low) Canon.trivial (p : P α) : Canon p fun _ => True := ⟨fun _ _ _ _ => True.intro⟩

instance Canon.seq {p : P α} {q : P β} {Q : β → Prop} [h : Canon q Q] : Canon (p >>= fun _ => q) Q :=
  ⟨Post.bind fun _ _ => h.post⟩

instance Canon.value {p : P α} {v : β} : Canon (value v p) (fun w => w = v) := ⟨Post.value rfl⟩

instance Canon.satisfy {f : UInt8 → Bool} : Canon (satisfy f) (fun b => f b = true) := ⟨by
  intro x r v e
  cases x with
  | nil => simp [Imap.satisfy] at e
  | cons b bs =>
    simp only [Imap.satisfy] at e
    split at e <;> simp at e
    exact e.2 ▸ by assumption⟩

theorem many0_post {p : P α} {Q : α → Prop} (h : Post p Q) : Post (many0 p) fun l => ∀ v ∈ l, Q v := by
  intro x
  fun_induction Imap.many0 p x with
  | case1 i r v e hl ih =>
    intro r' vs h1
    obtain ⟨i', w, h2, h3⟩ := Res.andThen_eq_ok.1 h1
    simp at h3
    intro u hu
    rw [← h3.2] at hu
    rcases List.mem_cons.1 hu with rfl | hu
    · exact h _ _ _ e
    · exact ih _ _ h2 u hu
  | case2 => simp
  | case3 i e =>
    intro r' vs h1
    simp at h1
    simp [h1.2]
  | case4 => simp
  | case5 => simp

instance Canon.many0 {p : P α} {Q : α → Prop} [h : Canon p Q] : Canon (many0 p) fun l => ∀ v ∈ l, Q v :=
  ⟨many0_post h.post⟩

instance Canon.many1 {p : P α} {Q : α → Prop} [h : Canon p Q] : Canon (many1 p) fun l => l ≠ [] ∧ ∀ v ∈ l, Q v :=
  ⟨Post.bind fun v hv => Post.bind fun vs hvs => Post.pure ⟨by simp, by
    intro w hw
    rcases List.mem_cons.1 hw with rfl | hw
    · exact hv
    · exact hvs w hw⟩⟩

instance Canon.many2 {p : P α} {Q : α → Prop} [h : Canon p Q] : Canon (many2 p) fun l => 2 ≤ l.length ∧ ∀ v ∈ l, Q v :=
  ⟨by
    intro x r v e
    simp only [Imap.many2] at e
    split at e
    · next r' vs e1 =>
      split at e <;> simp at e
      exact e.2 ▸ ⟨by assumption, many0_post h.post _ _ _ e1⟩
    · next r' hne =>
      exact absurd e (by intro h'; exact hne _ _ h')⟩

instance Canon.sepList1 {s : P Unit} {p : P α} {Q : α → Prop} [h : Canon p Q] :
    Canon (sepList1 s p) fun l => l ≠ [] ∧ ∀ v ∈ l, Q v :=
  ⟨Post.bind fun v hv => Post.bind fun vs hvs => Post.pure ⟨by simp, by
    intro w hw
    rcases List.mem_cons.1 hw with rfl | hw
    · exact hv
    · exact hvs w hw⟩⟩

instance Canon.sepList0 {s : P Unit} {p : P α} {Q : α → Prop} [h : Canon p Q] :
    Canon (sepList0 s p) fun l => ∀ v ∈ l, Q v :=
  ⟨by
    intro x r v e
    simp only [Imap.sepList0] at e
    split at e
    · next r' v' e1 =>
      obtain ⟨i, w, h1, h2⟩ := Res.andThen_eq_ok.1 e
      simp at h2
      rw [← h2.2]
      intro u hu
      rcases List.mem_cons.1 hu with rfl | hu
      · exact h.post _ _ _ e1
      · exact many0_post (p := (do s; p)) (Canon.seq (p := s) (q := p)).post _ _ _ h1 u hu
    all_goals simp at e
    simp [e.2]⟩

instance Canon.opt {p : P α} {Q : α → Prop} [h : Canon p Q] : Canon (opt p) fun o => ∀ v, o = some v → Q v :=
  ⟨by
    intro x r v e
    unfold Imap.opt at e
    cases h1 : p x <;> rw [h1] at e <;> simp at e
    · simp only [← e.2]
      intro w hw
      cases hw
      exact h.post _ _ _ h1
    · simp [← e.2]⟩

instance Canon.takeWhile {f : UInt8 → Bool} : Canon (takeWhile f) fun l => l.all f = true := ⟨by
  rw [takeWhile_eq]
  refine Post.canon fun l hl => ?_
  simpa [List.all_eq_true] using hl⟩

instance Canon.takeWhile1 {f : UInt8 → Bool} : Canon (takeWhile1 f) fun l => l ≠ [] ∧ l.all f = true := ⟨by
  rw [takeWhile1_eq]
  refine Post.canon fun l hl => ?_
  simpa [List.all_eq_true] using hl⟩

theorem takeExactly_post (f : UInt8 → Bool) (n : Nat) :
    Post (takeExactly f n) fun l => l.length = n ∧ l.all f = true := by
  induction n with
  | zero => intro x r v e; simp [Imap.takeExactly] at e; simp [e.2]
  | succ n ih =>
    intro x r v e
    cases x with
    | nil => simp [Imap.takeExactly] at e
    | cons b bs =>
      simp only [Imap.takeExactly] at e
      split at e
      · next hb =>
        obtain ⟨i, w, h1, h2⟩ := Res.andThen_eq_ok.1 e
        simp at h2
        have := ih _ _ _ h1
        simp [← h2.2, hb, this]
      · simp at e

instance Canon.takeExactly {f : UInt8 → Bool} {n : Nat} :
    Canon (takeExactly f n) fun l => l.length = n ∧ l.all f = true := ⟨takeExactly_post f n⟩

instance Canon.take1or2 {f : UInt8 → Bool} :
    Canon (take1or2 f) fun l => (l.length = 1 ∨ l.length = 2) ∧ l.all f = true := ⟨by
  intro x r v e
  rcases x with _ | ⟨b, _ | ⟨c, r⟩⟩
  · simp [Imap.take1or2] at e
  · simp only [Imap.take1or2] at e
    split at e <;> simp at e
  · simp only [Imap.take1or2] at e
    split at e
    · split at e <;> simp at e <;> simp_all [← e.2]
    · simp at e⟩

instance Canon.take {n : Nat} : Canon (take n) fun l => l.length = n := ⟨by
  intro x r v e
  simp only [Imap.take] at e
  split at e <;> simp at e
  simp [← e.2]
  omega⟩

theorem Post.of_eq {p q : P α} {Q : α → Prop} (h : p = q) (hq : Post q Q) : Post p Q := h ▸ hq

set_option hygiene false in
/-- Break down a `Post` goal along the structure of the parser. -/
macro "post" : tactic => `(tactic| repeat' with_reducible first
  | exact Post.alt_nil
  | exact Post.failure
  | refine Post.gate (fun hb => ?_)
  | refine Post.alt_cons ?_ ?_
  | refine Post.value ?_
  | refine Post.map ?_
  | refine Post.ite (fun _ => ?_) (fun _ => ?_)
  | refine Post.mapRes (fun v hv w hw => ?_)
  | refine Post.bind (fun v hv => ?_)
  | refine Post.pure ?_
  | refine Post.canon (fun v hv => ?_))

end Imap
