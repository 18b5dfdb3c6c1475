import Verif.TimedInst
/-
Recursive parsers pay for what they do from the bytes that they consume: with a weight `W` for each byte. The weight covers everything that
one level of the recursion does by itself.
-/
namespace Imap.Timed

variable {α β : Type}

/-- On inputs of at most `N` bytes, the parser counts at most `W` for each byte that it consumes, and once more, if it succeeds; and at most
`W` for each byte of the input, and once more, in any case. -/
structure Amo (W N : Nat) (t : T α) : Prop where
  ok : ∀ x r v, x.length ≤ N → t.res x = .ok r v → r.length ≤ x.length ∧ t.cost x + 5 + W * r.length ≤ W * x.length + W
  all : ∀ x, x.length ≤ N → t.cost x ≤ W * x.length + W

theorem sp_nil : sp.run [] = (.incomplete, 2) := rfl

theorem sp_sp (z : Bytes) : sp.run (32 :: z) = (.ok z (), 2) := rfl

theorem sp_other {b : UInt8} (hb : b ≠ 32) (z : Bytes) : sp.run (b :: z) = (.error, 2) := by
  show (Imap.char 32 (b :: z), 2) = _
  simp [Imap.char, hb]

theorem res_spThen (t : T α) (x : Bytes) :
    (do sp; t : T α).res x = match x with | [] => .incomplete | b :: z => if b = 32 then t.res z else .error := by
  rw [res_bind]
  match x with
  | [] => rfl
  | b :: z =>
    by_cases hb : b = 32
    · subst hb; rfl
    · unfold T.res; rw [sp_other hb]; simp [hb, Res.andThen]

theorem cost_spThen (t : T α) (x : Bytes) :
    (do sp; t : T α).cost x = 2 + (match x with | [] => 0 | b :: z => if b = 32 then t.cost z else 0) := by
  rw [cost_bind]
  match x with
  | [] => rfl
  | b :: z =>
    by_cases hb : b = 32
    · subst hb; rfl
    · unfold T.cost T.res; rw [sp_other hb]; simp [hb]

/-- A list with spaces: if the last element failed after its space then the space is left. -/
theorem Amo.many {W N : Nat} {t : T α} (_hW : 5 ≤ W) (h : Amo W N t) (x : Bytes) (hx : x.length ≤ N) :
    (many0 (do sp; t : T α)).cost x ≤ W * x.length + 4 ∧
    ∀ r v, (many0 (do sp; t : T α)).res x = .ok r v → r.length ≤ x.length ∧
      ((many0 (do sp; t : T α)).cost x + W * r.length ≤ W * x.length + 4 ∨ ∃ z, r = 32 :: z) := by
  induction n : x.length using Nat.strongRecOn generalizing x with
  | _ n ih =>
    subst n
    rw [cost_many0, res_many0, cost_spThen, res_spThen]
    match x with
    | [] => simp
    | b :: z =>
      by_cases hb : b = 32
      · subst hb
        simp only [if_true]
        simp only [List.length_cons] at hx ih ⊢
        have ha := h.all z (by omega)
        rcases e : t.res z with ⟨r', v'⟩ | _ | _ | k
        · obtain ⟨h1, h2⟩ := h.ok z r' v' (by omega) e
          have hr := ih r'.length (by omega) r' (by omega) rfl
          simp only [show r'.length < z.length + 1 by omega, if_true]
          rw [Nat.mul_add, Nat.mul_one]
          refine ⟨by omega, fun r v hv => ?_⟩
          rcases e2 : (many0 (do sp; t : T α)).res r' with ⟨r2, v2⟩ | _ | _ | k <;> rw [e2] at hv <;>
            simp only [Res.andThen, reduceCtorEq, Res.ok.injEq] at hv
          obtain ⟨h3, h4⟩ := hr.2 r2 v2 e2
          obtain ⟨rfl, _⟩ := hv
          refine ⟨by omega, ?_⟩
          rcases h4 with h4 | h4
          · left; omega
          · right; exact h4
        all_goals
          simp only [Nat.add_zero]
          rw [Nat.mul_add, Nat.mul_one]
          refine ⟨by omega, fun r v hv => ?_⟩
          simp only [reduceCtorEq, Res.ok.injEq] at hv
        exact ⟨by rw [← hv.1]; simp, Or.inr ⟨z, hv.1.symm⟩⟩
      · simp only [hb, if_false, Nat.add_zero]
        refine ⟨by omega, fun r v hv => ?_⟩
        simp only [Res.ok.injEq] at hv
        rw [← hv.1]
        exact ⟨Nat.le_refl _, Or.inl (by omega)⟩

/-- `separated_list1` with spaces. -/
theorem Amo.list {W N : Nat} {t : T α} (hW : 5 ≤ W) (h : Amo W N t) (x : Bytes) (hx : x.length ≤ N) :
    (sepList1 sp t).cost x ≤ W * x.length + W ∧
    ∀ r v, (sepList1 sp t).res x = .ok r v → r.length ≤ x.length ∧
      ((sepList1 sp t).cost x + W * r.length ≤ W * x.length + W ∨ ∃ z, r = 32 :: z) := by
  unfold sepList1
  rw [cost_bind, res_bind]
  have ha := h.all x hx
  rcases e : t.res x with ⟨r1, v1⟩ | _ | _ | k <;> simp only [Res.andThen, reduceCtorEq, false_imp_iff, implies_true, and_true, Nat.add_zero] <;>
    try exact ha
  obtain ⟨h1, h2⟩ := h.ok x r1 v1 hx e
  have hm := h.many hW r1 (by omega)
  rw [cost_bind, res_bind]
  rcases e2 : (many0 (do sp; t : T α)).res r1 with ⟨r2, v2⟩ | _ | _ | k <;>
    simp only [Res.andThen, reduceCtorEq, false_imp_iff, implies_true, and_true, Nat.add_zero, cost_pure, res_pure] <;>
    try omega
  refine ⟨by omega, fun r v hv => ?_⟩
  simp only [Res.ok.injEq] at hv
  obtain ⟨rfl, _⟩ := hv
  obtain ⟨h3, h4⟩ := hm.2 r2 v2 e2
  refine ⟨by omega, ?_⟩
  rcases h4 with h4 | h4
  · left; omega
  · right; exact h4

theorem cost_alt_append (ts us : List (T α)) (x : Bytes) :
    (alt (ts ++ us)).cost x = (alt ts).cost x + (match (alt ts).res x with | .error => (alt us).cost x | _ => 0) := by
  induction ts with
  | nil => show _ = 0 + (alt us).cost x; simp
  | cons t ts ih =>
    simp only [List.cons_append, alt, cost_orElse, res_orElse]
    rw [ih]
    cases t.res x <;> simp only [Nat.add_zero, Nat.add_assoc]

theorem res_alt_append (ts us : List (T α)) (x : Bytes) :
    (alt (ts ++ us)).res x = match (alt ts).res x with | .error => (alt us).res x | r => r := by
  induction ts with
  | nil => rfl
  | cons t ts ih =>
    simp only [List.cons_append, alt, res_orElse]
    rw [ih]
    cases t.res x <;> rfl

/-- A parser without recursion: the weight covers it. -/
theorem Bound.amo {r K W N : Nat} {t : T α} (h : Bound r K t) (d : Nat) (hr : r ≤ d + 4) (hW : K * (N + 1) ^ (d + 1) + 5 ≤ W) : Amo W N t := by
  have key : ∀ x : Bytes, x.length ≤ N → t.cost x + 5 ≤ W := fun x hx => by
    have h1 := (h.mono hr (Nat.le_refl K)).cost x
    simp only [budget] at h1
    have h2 := Nat.mul_le_mul_left K (Nat.pow_le_pow_left (Nat.succ_le_succ hx) (d + 1))
    simp only [Nat.succ_eq_add_one] at h2
    omega
  refine ⟨fun x r v hx e => ?_, fun x hx => ?_⟩
  · have h1 := h.shrinks x r v e
    have := key x hx
    have := Nat.mul_le_mul_left W h1
    exact ⟨h1, by omega⟩
  · have := key x hx
    omega

/-- An alternative that is recognized by the first byte of its input: otherwise it fails at once. If it succeeds then it leaves a part of the
weight of its input unused, for the level of the recursion that it belongs to. -/
def Arm (W N : Nat) (t : T α) (hd : UInt8 → Prop) : Prop := ∀ x : Bytes, x.length ≤ N →
  (t.cost x ≤ 9 ∧ (t.res x = .incomplete ∨ t.res x = .error)) ∨
  (∃ b y, x = b :: y ∧ hd b ∧ t.cost x ≤ W * x.length + 9 ∧
    ∀ r v, t.res x = .ok r v → r.length ≤ x.length ∧ t.cost x + W * r.length + W ≤ W * x.length + 9)

theorem cost_map (f : α → β) (t : T α) (x : Bytes) : (f <$> t).cost x = t.cost x := by
  rw [map_eq, cost_bind]
  cases t.res x <;> rfl

theorem res_map (f : α → β) (t : T α) (x : Bytes) : (f <$> t).res x = (t.res x).andThen fun v i => .ok i (f v) := by
  rw [map_eq, res_bind]
  rfl

theorem Arm.map {W N : Nat} {t : T α} {hd : UInt8 → Prop} (f : α → β) (h : Arm W N t hd) : Arm W N (f <$> t) hd := by
  intro x hx
  rw [cost_map, res_map]
  rcases h x hx with ⟨h1, h2 | h2⟩ | ⟨b, y, e, hb, h1, h2⟩
  · rw [h2]; exact Or.inl ⟨h1, Or.inl rfl⟩
  · rw [h2]; exact Or.inl ⟨h1, Or.inr rfl⟩
  · refine Or.inr ⟨b, y, e, hb, h1, fun r v hv => ?_⟩
    rcases e2 : t.res x with ⟨r1, v1⟩ | _ | _ | k <;> rw [e2] at hv <;> simp only [Res.andThen, reduceCtorEq, Res.ok.injEq] at hv
    obtain ⟨rfl, _⟩ := hv
    exact h2 _ _ e2

theorem open_other {b : UInt8} (hb : b ≠ 40) (z : Bytes) : (tag b!"(").run (b :: z) = (.error, 2) := by
  show (Imap.tag [40] (b :: z), looksTag _ [40] (b :: z) + 1) = _
  have : ¬ (40 : UInt8) = b := fun h => hb h.symm
  simp [Imap.tag, looksTag, this]

theorem close_other {b : UInt8} (hb : b ≠ 41) (z : Bytes) : (tag b!")").run (b :: z) = (.error, 2) := by
  show (Imap.tag [41] (b :: z), looksTag _ [41] (b :: z) + 1) = _
  have : ¬ (41 : UInt8) = b := fun h => hb h.symm
  simp [Imap.tag, looksTag, this]

theorem res_openThen (t : T α) (x : Bytes) :
    (do tag b!"("; t : T α).res x = match x with | [] => .incomplete | b :: z => if b = 40 then t.res z else .error := by
  rw [res_bind]
  match x with
  | [] => rfl
  | b :: z =>
    by_cases hb : b = 40
    · subst hb; rfl
    · unfold T.res; rw [open_other hb]; simp [hb, Res.andThen]

theorem cost_openThen (t : T α) (x : Bytes) :
    (do tag b!"("; t : T α).cost x = (match x with | [] => 1 | b :: z => if b = 40 then 2 + t.cost z else 2) := by
  rw [cost_bind]
  match x with
  | [] => rfl
  | b :: z =>
    by_cases hb : b = 40
    · subst hb; rfl
    · unfold T.cost T.res; rw [open_other hb]; simp [hb]

theorem res_closeThen (t : T α) (x : Bytes) :
    (do tag b!")"; t : T α).res x = match x with | [] => .incomplete | b :: z => if b = 41 then t.res z else .error := by
  rw [res_bind]
  match x with
  | [] => rfl
  | b :: z =>
    by_cases hb : b = 41
    · subst hb; rfl
    · unfold T.res; rw [close_other hb]; simp [hb, Res.andThen]

theorem cost_closeThen (t : T α) (x : Bytes) :
    (do tag b!")"; t : T α).cost x = (match x with | [] => 1 | b :: z => if b = 41 then 2 + t.cost z else 2) := by
  rw [cost_bind]
  match x with
  | [] => rfl
  | b :: z =>
    by_cases hb : b = 41
    · subst hb; rfl
    · unfold T.cost T.res; rw [close_other hb]; simp [hb]

/-- A parenthesized list. -/
theorem Amo.paren {W N : Nat} {t : T α} (hW : 5 ≤ W) (h : Amo W N t) :
    Arm W N (do tag b!"("; let l ← sepList1 sp t; tag b!")"; return l : T (List α)) (· = 40) := by
  intro x hx
  rw [cost_openThen, res_openThen]
  match x with
  | [] => exact Or.inl ⟨by simp, Or.inl rfl⟩
  | b :: y =>
    by_cases hb : b = 40
    · subst hb
      simp only [if_true]
      right
      refine ⟨40, y, rfl, rfl, ?_⟩
      simp only [List.length_cons] at hx ⊢
      obtain ⟨h1, h2⟩ := h.list hW y (by omega)
      rw [cost_bind, res_bind, Nat.mul_add, Nat.mul_one]
      rcases e : (sepList1 sp t).res y with ⟨r1, v1⟩ | _ | _ | k <;> simp only [Res.andThen]
      · obtain ⟨h3, h4⟩ := h2 _ _ e
        rw [cost_closeThen, res_closeThen]
        match r1 with
        | [] => exact ⟨by simp only; omega, by simp⟩
        | c :: r' =>
          by_cases hc : c = 41
          · subst hc
            simp only [if_true, cost_pure, res_pure, List.length_cons] at h3 h4 ⊢
            refine ⟨by omega, fun r v hv => ?_⟩
            simp only [Res.ok.injEq] at hv
            obtain ⟨rfl, _⟩ := hv
            rcases h4 with h4 | ⟨z, h4⟩
            · rw [Nat.mul_add, Nat.mul_one] at h4
              exact ⟨by omega, by omega⟩
            · simp at h4
          · simp only [hc, if_false]
            exact ⟨by omega, by simp⟩
      all_goals exact ⟨by omega, by simp⟩
    · simp only [hb, if_false]
      exact Or.inl ⟨by omega, by simp⟩

/-- Like `Amo`, for parsers of what is between parentheses: they consume something, and fail at once without a parenthesis. -/
structure AmoP (W N : Nat) (t : T α) : Prop where
  ok : ∀ x r v, x.length ≤ N → t.res x = .ok r v → r.length < x.length ∧ t.cost x + 5 + W * r.length ≤ W * x.length
  all : ∀ x, x.length ≤ N → t.cost x ≤ W * x.length + W
  other : ∀ x, x.length ≤ N → (∀ z, x ≠ 40 :: z) → t.cost x ≤ 3 ∧ ∀ r v, t.res x ≠ .ok r v

/-- `many0`: if the last element failed then its parenthesis is left. -/
theorem AmoP.many0 {W N : Nat} {t : T α} (h : AmoP W N t) (x : Bytes) (hx : x.length ≤ N) :
    (many0 t).cost x ≤ W * x.length + W + 1 ∧
    ∀ r v, (many0 t).res x = .ok r v → r.length ≤ x.length ∧ ((many0 t).cost x + W * r.length ≤ W * x.length + 4 ∨ ∃ z, r = 40 :: z) := by
  induction n : x.length using Nat.strongRecOn generalizing x with
  | _ n ih =>
    subst n
    rw [cost_many0, res_many0]
    have ha := h.all x hx
    rcases e : t.res x with ⟨r', v'⟩ | _ | _ | k
    · obtain ⟨h1, h2⟩ := h.ok x r' v' hx e
      have hr := ih r'.length h1 r' (by omega) rfl
      simp only [h1, if_true]
      refine ⟨by omega, fun r v hv => ?_⟩
      rcases e2 : (Timed.many0 t).res r' with ⟨r2, v2⟩ | _ | _ | k <;> rw [e2] at hv <;>
        simp only [Res.andThen, reduceCtorEq, Res.ok.injEq] at hv
      obtain ⟨h3, h4⟩ := hr.2 r2 v2 e2
      obtain ⟨rfl, _⟩ := hv
      refine ⟨by omega, ?_⟩
      rcases h4 with h4 | h4
      · left; omega
      · right; exact h4
    · exact ⟨by simp only; omega, by simp⟩
    · refine ⟨by simp only; omega, fun r v hv => ?_⟩
      simp only [Res.ok.injEq] at hv
      rw [← hv.1]
      refine ⟨Nat.le_refl _, ?_⟩
      by_cases hz : ∃ z, x = 40 :: z
      · right; exact hz
      · left
        have := (h.other x hx fun z hz' => hz ⟨z, hz'⟩).1
        simp only; omega
    · exact ⟨by simp only; omega, by simp⟩

/-- `many1`. -/
theorem AmoP.many1 {W N : Nat} {t : T α} (h : AmoP W N t) (x : Bytes) (hx : x.length ≤ N) :
    (many1 t).cost x ≤ W * x.length + W ∧
    ∀ r v, (many1 t).res x = .ok r v → r.length ≤ x.length ∧ ((many1 t).cost x + W * r.length ≤ W * x.length ∨ ∃ z, r = 40 :: z) := by
  unfold Timed.many1
  rw [cost_bind, res_bind]
  have ha := h.all x hx
  rcases e : t.res x with ⟨r1, v1⟩ | _ | _ | k <;> simp only [Res.andThen, reduceCtorEq, false_imp_iff, implies_true, and_true, Nat.add_zero] <;>
    try exact ha
  obtain ⟨h1, h2⟩ := h.ok x r1 v1 hx e
  have hm := h.many0 r1 (by omega)
  rw [cost_bind, res_bind]
  rcases e2 : (Timed.many0 t).res r1 with ⟨r2, v2⟩ | _ | _ | k <;>
    simp only [Res.andThen, reduceCtorEq, false_imp_iff, implies_true, and_true, Nat.add_zero, cost_pure, res_pure] <;>
    try omega
  refine ⟨by omega, fun r v hv => ?_⟩
  simp only [Res.ok.injEq] at hv
  obtain ⟨rfl, _⟩ := hv
  obtain ⟨h3, h4⟩ := hm.2 r2 v2 e2
  refine ⟨by omega, ?_⟩
  rcases h4 with h4 | h4
  · left; omega
  · right; exact h4

/-- `many_m_n(2, ..)`. -/
theorem AmoP.many2 {W N : Nat} {t : T α} (h : AmoP W N t) (x : Bytes) (hx : x.length ≤ N) :
    (many2 t).cost x ≤ W * x.length + W + 1 ∧
    ∀ r v, (many2 t).res x = .ok r v → r.length ≤ x.length ∧ ((many2 t).cost x + W * r.length ≤ W * x.length + 4 ∨ ∃ z, r = 40 :: z) := by
  unfold Timed.many2
  rw [cost_mapRes, res_mapRes]
  obtain ⟨h1, h2⟩ := h.many0 x hx
  refine ⟨h1, fun r v hv => ?_⟩
  rcases e : (Timed.many0 t).res x with ⟨r1, v1⟩ | _ | _ | k <;> rw [e] at hv <;> simp only [reduceCtorEq] at hv
  split at hv
  · simp only [Res.ok.injEq] at hv
    obtain ⟨rfl, _⟩ := hv
    exact h2 _ _ e
  · cases hv

/-- Between parentheses: what is inside pays with its bytes, or leaves something that is not the closing parenthesis. -/
theorem AmoP.wrap {W N H : Nat} {t : T α} (hW : H + 20 ≤ W)
    (h : ∀ y : Bytes, y.length < N → t.cost y ≤ W * y.length + W + H ∧ ∀ r v, t.res y = .ok r v → r.length ≤ y.length ∧
      (t.cost y + W * r.length ≤ W * y.length + H ∨ ∃ c z, c ≠ 41 ∧ r = c :: z)) :
    AmoP W N (do tag b!"("; let b ← t; tag b!")"; return b : T α) := by
  have key : ∀ x : Bytes, x.length ≤ N → (do tag b!"("; let b ← t; tag b!")"; return b : T α).cost x ≤ W * x.length + W ∧
      ∀ r v, (do tag b!"("; let b ← t; tag b!")"; return b : T α).res x = .ok r v → r.length < x.length ∧
        (do tag b!"("; let b ← t; tag b!")"; return b : T α).cost x + 5 + W * r.length ≤ W * x.length := by
    intro x hx
    rw [cost_openThen, res_openThen]
    match x with
    | [] => exact ⟨by simp only; omega, by simp⟩
    | b :: y =>
      by_cases hb : b = 40
      · subst hb
        simp only [if_true]
        simp only [List.length_cons] at hx ⊢
        obtain ⟨h1, h2⟩ := h y (by omega)
        rw [cost_bind, res_bind, Nat.mul_add, Nat.mul_one]
        rcases e : t.res y with ⟨r1, v1⟩ | _ | _ | k <;> simp only [Res.andThen, Nat.add_zero]
        · obtain ⟨h3, h4⟩ := h2 _ _ e
          rw [cost_closeThen, res_closeThen]
          match r1 with
          | [] => exact ⟨by simp only; omega, by simp⟩
          | c :: r' =>
            by_cases hc : c = 41
            · subst hc
              simp only [if_true, cost_pure, res_pure, List.length_cons] at h3 h4 ⊢
              refine ⟨by omega, fun r v hv => ?_⟩
              simp only [Res.ok.injEq] at hv
              obtain ⟨rfl, _⟩ := hv
              rcases h4 with h4 | ⟨c, z, hc, h4⟩
              · rw [Nat.mul_add, Nat.mul_one] at h4
                exact ⟨by omega, by omega⟩
              · exact absurd (List.cons.inj h4).1.symm hc
            · simp only [hc, if_false]
              exact ⟨by omega, by simp⟩
        all_goals exact ⟨by omega, by simp⟩
      · simp only [hb, if_false]
        exact ⟨by omega, by simp⟩
  refine ⟨fun x r v hx hv => (key x hx).2 r v hv, fun x hx => (key x hx).1, fun x hx hz => ?_⟩
  rw [cost_openThen, res_openThen]
  match x, hz with
  | [], _ => exact ⟨by simp, by simp⟩
  | b :: y, hz =>
    have hb : b ≠ 40 := fun hb => hz y (by rw [hb])
    simp [hb]

end Imap.Timed
