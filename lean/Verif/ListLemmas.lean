import Verif.CoreLemmas
/-
Round trips of lists: `join` is parsed by `sepList1`/`sepList0`, concatenation by `many0`.
-/
set_option maxRecDepth 10000

namespace Imap

variable {α β γ : Type}

theorem bytes_join (s : Bytes) (xs : List (List W)) :
    bytes (join s xs) = match xs with
      | [] => []
      | x :: xs => bytes x ++ xs.flatMap fun y => s ++ bytes y := by
  cases xs <;> simp [join, bytes_flatMap]

/-- `many0` parses a concatenation; the value parsed may differ from the value encoded (`g`). -/
theorem many0_concat {p : P β} {e : α → Bytes} {g : α → β} {F : Bytes → Prop} {rest : Bytes}
    (l : List α) (hp : ∀ v ∈ l, ∀ r, F r → p (e v ++ r) = .ok r (g v))
    (hne : ∀ v ∈ l, e v ≠ []) (hF : ∀ v ∈ l, ∀ r, F (e v ++ r)) (hrest : F rest) (hstop : p rest = .error) :
    many0 p (l.flatMap e ++ rest) = .ok rest (l.map g) := by
  have key : ∀ l : List α, (∀ v ∈ l, ∀ r, F r → p (e v ++ r) = .ok r (g v)) → (∀ v ∈ l, e v ≠ []) →
      (∀ v ∈ l, ∀ r, F (e v ++ r)) → F (l.flatMap e ++ rest) ∧ many0 p (l.flatMap e ++ rest) = .ok rest (l.map g) := by
    intro l
    induction l with
    | nil => intro _ _ _; exact ⟨by simpa using hrest, by simpa using many0_stop hstop⟩
    | cons v l ih =>
      intro hp hne hF
      have ih := ih (fun w hw => hp w (List.mem_cons_of_mem _ hw)) (fun w hw => hne w (List.mem_cons_of_mem _ hw))
        (fun w hw => hF w (List.mem_cons_of_mem _ hw))
      rw [List.flatMap_cons, List.append_assoc]
      refine ⟨hF v (by simp) _, ?_⟩
      rw [many0_step (hp v (by simp) _ ih.1), ih.2]
      · simp
      · have := hne v (by simp)
        have : 0 < (e v).length := List.length_pos_iff.2 this
        simp [this]
  exact (key l hp hne hF).2

/-- `sepList1` parses what `join` writes. -/
theorem sepList1_join {sep : P Unit} {p : P β} {e : α → List W} {g : α → β} {F : Bytes → Prop} {s rest : Bytes}
    {l : List α} (hl : l ≠ []) (hs : ∀ r, sep (s ++ r) = .ok r ()) (hs0 : s ≠ [])
    (hp : ∀ v ∈ l, ∀ r, F r → p (bytes (e v) ++ r) = .ok r (g v))
    (hF : ∀ r, F (s ++ r)) (hrest : F rest) (hstop : (do sep; p : P β) rest = .error) :
    sepList1 sep p (bytes (join s (l.map e)) ++ rest) = .ok rest (l.map g) := by
  cases l with
  | nil => exact absurd rfl hl
  | cons v l =>
    simp only [List.map_cons, bytes_join, List.flatMap_map]
    have hm : many0 (do sep; p : P β) (l.flatMap (fun y => s ++ bytes (e y)) ++ rest) = .ok rest (l.map g) := by
      refine many0_concat (F := F) l ?_ ?_ ?_ hrest hstop
      · intro v hv r hr
        simp only [P.bind_apply, List.append_assoc, hs, Res.andThen_ok]
        exact hp v (by simp [hv]) r hr
      · simp [hs0]
      · intro v _ r
        rw [List.append_assoc]
        exact hF _
    have hF' : F (l.flatMap (fun y => s ++ bytes (e y)) ++ rest) := by
      cases l with
      | nil => simpa using hrest
      | cons w l =>
        simp only [List.flatMap_cons, List.append_assoc]
        exact hF _
    simp only [sepList1, P.bind_apply, List.append_assoc]
    rw [hp v (by simp) _ hF', Res.andThen_ok, P.bind_apply, hm]
    rfl

/-- `sepList0` parses what `join` writes. -/
theorem sepList0_join {sep : P Unit} {p : P β} {e : α → List W} {g : α → β} {F : Bytes → Prop} {s rest : Bytes}
    {l : List α} (hs : ∀ r, sep (s ++ r) = .ok r ()) (hs0 : s ≠ [])
    (hp : ∀ v ∈ l, ∀ r, F r → p (bytes (e v) ++ r) = .ok r (g v))
    (hF : ∀ r, F (s ++ r)) (hrest : F rest) (hstop : (do sep; p : P β) rest = .error) (hstop' : p rest = .error) :
    sepList0 sep p (bytes (join s (l.map e)) ++ rest) = .ok rest (l.map g) := by
  by_cases hl : l = []
  · subst hl
    simp [join, sepList0, hstop']
  · have := sepList1_join hl hs hs0 hp hF hrest hstop
    have e : ∀ x v, sepList1 sep p x = .ok rest v → sepList0 sep p x = .ok rest v := by
      intro x v h
      simp only [sepList1, P.bind_apply] at h
      obtain ⟨i, w, h1, h2⟩ := Res.andThen_eq_ok.1 h
      simp only [sepList0, h1]
      exact h2
    exact e _ _ this

/-- Lists separated by a space. -/
theorem sepList1_sp {p : P β} {e : α → List W} {g : α → β} {F : Bytes → Prop} {rest : Bytes} {l : List α}
    (hl : l ≠ []) (hp : ∀ v ∈ l, ∀ r, F r → p (bytes (e v) ++ r) = .ok r (g v))
    (hF : ∀ r, F (32 :: r)) (hrest : F rest) (hstop : Stops (· == 32) rest = true) :
    sepList1 sp p (bytes (join b!" " (l.map e)) ++ rest) = .ok rest (l.map g) := by
  refine sepList1_join hl (fun r => rfl) (by simp) hp hF hrest ?_
  obtain ⟨b, bs, rfl, hb⟩ := exists_of_stops hstop
  simp at hb
  simp [sp, char, hb]

/-- Lists separated by a space. -/
theorem sepList0_sp {p : P β} {e : α → List W} {g : α → β} {F : Bytes → Prop} {rest : Bytes} {l : List α}
    (hp : ∀ v ∈ l, ∀ r, F r → p (bytes (e v) ++ r) = .ok r (g v))
    (hF : ∀ r, F (32 :: r)) (hrest : F rest) (hstop : Stops (· == 32) rest = true) (hstop' : p rest = .error) :
    sepList0 sp p (bytes (join b!" " (l.map e)) ++ rest) = .ok rest (l.map g) := by
  refine sepList0_join (fun r => rfl) (by simp) hp hF hrest ?_ hstop'
  obtain ⟨b, bs, rfl, hb⟩ := exists_of_stops hstop
  simp at hb
  simp [sp, char, hb]

@[simp] theorem alt_singleton (p : P α) : alt [p] = p := by
  funext i
  simp only [alt_cons, orElse]
  cases p i <;> rfl

/-! ### Alternatives -/

theorem alt_skip {p : P α} {ps : List (P α)} {i : Bytes} (h : p i = .error) : alt (p :: ps) i = alt ps i := orElse_error h

theorem alt_hit {p : P α} {ps : List (P α)} {i r : Bytes} {v : α} (h : p i = .ok r v) : alt (p :: ps) i = .ok r v := orElse_ok h

/-- Skip the first `k` alternatives, which fail by computation. -/
macro "skip_alts " k:num : tactic => `(tactic| iterate $k (refine Eq.trans (alt_skip (by rfl)) ?_))

/-- The alternative number `k` (counting from zero) succeeds. -/
macro "alt_at " k:num : tactic => `(tactic| ((iterate $k (refine Eq.trans (alt_skip (by rfl)) ?_)); refine alt_hit ?_))

/-! ### Keywords -/

theorem lower_lower : ∀ b, lower (lower b) = lower b := forall_byte (by decide)
theorem lower_upper : ∀ b, lower (upper b) = lower b := forall_byte (by decide)
theorem upper_lower : ∀ b, upper (lower b) = upper b := forall_byte (by decide)

/-- ASCII letters. -/
def isLetter (b : UInt8) : Bool := (65 ≤ b && b ≤ 90) || (97 ≤ b && b ≤ 122)

/-- A keyword does not match an input that starts with another character. -/
theorem tagNC_nonletter {b c : UInt8} {t r : Bytes} (hb : isLetter b = false) (h1 : 65 ≤ c) (h2 : c ≤ 90) :
    tagNC (c :: t) (b :: r) = .error := by
  have key : ∀ c, 65 ≤ c → c ≤ 90 → isLetter (lower c) = true := forall_byte (by decide)
  have key' : ∀ b, isLetter (lower b) = isLetter b := forall_byte (by decide)
  have : ¬ lower c = lower b := by
    intro h
    have := key c h1 h2
    rw [h, key', hb] at this
    simp at this
  simp [tagNC, this]

/-- Skip the first `k` alternatives, which start with a keyword, if the input starts with another character. -/
macro "skip_alts " k:num " using " h:term : tactic => `(tactic|
  iterate $k (refine Eq.trans (alt_skip (by simp [value, tagNC_nonletter $h])) ?_))

theorem isAtomChar_lower : ∀ b, isAtomChar (lower b) = isAtomChar b := forall_byte (by decide)

/-- A keyword that continues beyond the atom in the input does not match. -/
theorem tagNC_longer {t s r : Bytes} {c : UInt8} (hc : isAtomChar c = true) (hr : Stops isAtomChar r = true) :
    tagNC (t ++ c :: s) (t ++ r) = .error := by
  induction t with
  | nil =>
    obtain ⟨b, bs, rfl, hb⟩ := exists_of_stops hr
    have : ¬ lower c = lower b := by
      intro h
      have := isAtomChar_lower c
      rw [h, isAtomChar_lower, hb, hc] at this
      simp at this
    simp [tagNC, this]
  | cons b t ih => simp [tagNC, ih]

/-- A weaker stop condition. -/
theorem Stops.mono {f g : UInt8 → Bool} {r : Bytes} (hr : Stops f r = true) (h : ∀ b, f b = false → g b = false) :
    Stops g r = true := by
  obtain ⟨b, bs, rfl, hb⟩ := exists_of_stops hr
  simp [h b hb]

theorem Stops.ne_nil {f : UInt8 → Bool} {r : Bytes} (hr : Stops f r = true) : r ≠ [] := by
  rintro rfl
  simp at hr

end Imap
