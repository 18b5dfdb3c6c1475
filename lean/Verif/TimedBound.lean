import Verif.TimedNom
import Mathlib.Tactic.Ring
import Mathlib.Tactic.Linarith
/-
Bounds for the counters of Verif/TimedNom.lean. A parser has a rank and a factor `K`:
* rank 0: it counts nothing, consumes nothing and succeeds;
* rank 1: it counts at most `K`;
* rank 2: at most `K` for each consumed byte and once more, and `K` for an error;
* rank 3: at most `K` for each consumed byte and once more if it succeeds, at most `K * (n + 1)` for an input of `n` bytes otherwise;
* rank `d + 4`: at most `K * (n + 1) ^ (d + 1)`.
-/
namespace Imap.Timed

variable {α β : Type}

/-- What a parser of a rank may count, given its input and its result. -/
def budget (r K : Nat) (x : Bytes) (res : Res α) : Nat :=
  match r, res with
  | 0, _ => 0
  | 1, _ => K
  | 2, .ok rem _ => K * (x.length - rem.length + 1)
  | 2, .error => K
  | 2, _ => K * (x.length + 1)
  | 3, .ok rem _ => K * (x.length - rem.length + 1)
  | 3, _ => K * (x.length + 1)
  | d + 4, _ => K * (x.length + 1) ^ (d + 1)

/-- The parser keeps to the budget of its rank and never gives back more than its input. -/
structure Bound (r K : Nat) (t : T α) : Prop where
  cost : ∀ x, t.cost x ≤ budget r K x (t.res x)
  shrinks : ∀ x rem v, t.res x = .ok rem v → rem.length ≤ x.length
  pure : r = 0 → ∀ x, ∃ v, t.res x = .ok x v

theorem budget_succ {r K : Nat} {x : Bytes} {res : Res α} (h : r = 0 → ∃ v, res = .ok x v) :
    budget r K x res ≤ budget (r + 1) K x res := by
  match r with
  | 0 => simp [budget]
  | 1 =>
    cases res <;> simp only [budget] <;> first | exact Nat.le_refl _ | exact Nat.le_mul_of_pos_right _ (by omega)
  | 2 =>
    cases res <;> simp only [budget] <;> first | exact Nat.le_refl _ | exact Nat.le_mul_of_pos_right _ (by omega)
  | 3 =>
    cases res <;> simp only [budget, Nat.zero_add, Nat.pow_one] <;>
      first | exact Nat.le_refl _ | exact Nat.mul_le_mul_left _ (by omega)
  | d + 4 =>
    simp only [budget]
    exact Nat.mul_le_mul_left _ (Nat.pow_le_pow_right (by omega) (by omega))

theorem budget_le {r K K' : Nat} {x : Bytes} {res : Res α} (h : K ≤ K') : budget r K x res ≤ budget r K' x res := by
  match r with
  | 0 => simp [budget]
  | 1 => simpa [budget] using h
  | 2 => cases res <;> simp only [budget] <;> first | exact h | exact Nat.mul_le_mul_right _ h
  | 3 => cases res <;> simp only [budget] <;> exact Nat.mul_le_mul_right _ h
  | d + 4 => simp only [budget]; exact Nat.mul_le_mul_right _ h

theorem Bound.up {r K : Nat} {t : T α} (h : Bound r K t) : Bound (r + 1) K t where
  cost x := le_trans (h.cost x) (budget_succ fun e => h.pure e x)
  shrinks := h.shrinks
  pure e := absurd e (by omega)

theorem Bound.mono {r r' K K' : Nat} {t : T α} (h : Bound r K t) (hr : r ≤ r') (hK : K ≤ K') : Bound r' K' t := by
  induction r', hr using Nat.le_induction with
  | base => exact ⟨fun x => le_trans (h.cost x) (budget_le hK), h.shrinks, h.pure⟩
  | succ r' _ ih => exact ih.up

/-- The rank of a sequence. -/
def seqRank (r s : Nat) : Nat := if r ≤ 1 ∨ s = 0 then max r s else max 3 (max r s)

/-- The rank of alternatives. -/
def altRank (r s : Nat) : Nat := if r ≤ 2 then max r s else max 4 (max r s)

/-- The rank of an optional parser. -/
def optRank (r : Nat) : Nat := if r = 3 then 4 else r

/-- The rank of a parser that is followed by a check. -/
def resRank (r : Nat) : Nat := if r = 0 then 1 else if r = 2 then 3 else r

/-- The rank of a loop. -/
def manyRank (r : Nat) : Nat := if r ≤ 2 then 3 else r + 1

theorem cost_bind (t : T α) (f : α → T β) (x : Bytes) :
    (t >>= f).cost x = t.cost x + (match t.res x with | .ok r v => (f v).cost r | _ => 0) := by
  show (T.andThen t f).cost x = _
  unfold T.andThen T.cost T.res
  rcases h : t.run x with ⟨r, n⟩
  cases r <;> simp [h]

theorem res_bind (t : T α) (f : α → T β) (x : Bytes) : (t >>= f).res x = (t.res x).andThen fun v => (f v).res := by
  show (T.andThen t f).res x = _
  unfold T.andThen T.res
  rcases h : t.run x with ⟨r, n⟩
  cases r <;> simp [h, Res.andThen]

theorem cost_pure (a : α) (x : Bytes) : (pure a : T α).cost x = 0 := rfl

theorem res_pure (a : α) (x : Bytes) : (pure a : T α).res x = .ok x a := rfl

theorem map_eq (f : α → β) (t : T α) : f <$> t = t >>= fun v => pure (f v) := rfl

theorem bound_pure (a : α) : Bound 0 0 (pure a : T α) where
  cost _ := Nat.le_refl _
  shrinks x rem v h := by cases h; exact Nat.le_refl _
  pure _ _ := ⟨_, rfl⟩

private theorem pow_add_le {a b n d : Nat} : a * (n + 1) ^ d + b * (n + 1) ^ d ≤ (a + b) * (n + 1) ^ d := by
  rw [Nat.add_mul]

theorem bound_bind {r s K L : Nat} {t : T α} {f : α → T β} (ht : Bound r K t) (hf : ∀ v, Bound s L (f v)) :
    Bound (seqRank r s) (K + L) (t >>= f) := by
  have hs : ∀ x rem v, (t >>= f).res x = .ok rem v → rem.length ≤ x.length := by
    intro x rem v h
    rw [res_bind] at h
    rcases e : t.res x with ⟨r1, v1⟩ | _ | _ | k <;> rw [e] at h <;> simp only [Res.andThen, reduceCtorEq] at h
    exact le_trans ((hf v1).shrinks _ _ _ h) (ht.shrinks _ _ _ e)
  -- the cost, once both have the same kind of budget
  have key : ∀ (m : Nat), (∀ x, (t >>= f).cost x ≤ budget m (K + L) x ((t >>= f).res x)) → (m = 0 → r = 0 ∧ s = 0) →
      Bound m (K + L) (t >>= f) := by
    intro m h0 h1
    refine ⟨h0, hs, fun e x => ?_⟩
    obtain ⟨rfl, rfl⟩ := h1 e
    obtain ⟨v, hv⟩ := ht.pure rfl x
    obtain ⟨w, hw⟩ := (hf v).pure rfl x
    exact ⟨w, by rw [res_bind, hv]; exact hw⟩
  have poly : ∀ d, r ≤ d + 4 → s ≤ d + 4 → Bound (d + 4) (K + L) (t >>= f) := by
    intro d hr hs'
    have ht' := ht.mono hr (Nat.le_refl K)
    refine key _ (fun x => ?_) (by omega)
    rw [cost_bind]
    have h1 := ht'.cost x
    simp only [budget] at h1 ⊢
    rcases e : t.res x with ⟨r1, v1⟩ | _ | _ | k
    · have h2 := ((hf v1).mono hs' (Nat.le_refl L)).cost r1
      simp only [budget] at h2 ⊢
      have h3 := Nat.pow_le_pow_left (Nat.succ_le_succ (ht.shrinks _ _ _ e)) (d + 1)
      have h4 := Nat.mul_le_mul_left L h3
      have := @pow_add_le K L x.length (d + 1)
      simp only [Nat.succ_eq_add_one] at h4
      omega
    all_goals
      simp only [Nat.add_zero]
      exact le_trans h1 (Nat.mul_le_mul_right _ (by omega))
  have amor : r ≤ 3 → s ≤ 3 → Bound 3 (K + L) (t >>= f) := by
    intro hr hs'
    have ht' := ht.mono hr (Nat.le_refl K)
    refine key _ (fun x => ?_) (by omega)
    rw [cost_bind, res_bind]
    have h1 := ht'.cost x
    rcases e : t.res x with ⟨r1, v1⟩ | _ | _ | k <;> rw [e] at h1 <;> simp only [budget, Res.andThen] at h1 ⊢
    · have h0 := ht.shrinks _ _ _ e
      have h2 := ((hf v1).mono hs' (Nat.le_refl L)).cost r1
      rcases e2 : (f v1).res r1 with ⟨r2, v2⟩ | _ | _ | k <;> rw [e2] at h2 <;> simp only [budget] at h2 ⊢
      · have h3 := (hf v1).shrinks _ _ _ e2
        have h4 : K * (x.length - r1.length + 1) ≤ K * (x.length - r2.length + 1) := Nat.mul_le_mul_left _ (by omega)
        have h5 : L * (r1.length - r2.length + 1) ≤ L * (x.length - r2.length + 1) := Nat.mul_le_mul_left _ (by omega)
        rw [Nat.add_mul]; omega
      all_goals
        have h4 : K * (x.length - r1.length + 1) ≤ K * (x.length + 1) := Nat.mul_le_mul_left _ (by omega)
        have h5 : L * (r1.length + 1) ≤ L * (x.length + 1) := Nat.mul_le_mul_left _ (by omega)
        rw [Nat.add_mul]; omega
    all_goals
      rw [Nat.add_mul]; omega
  have first : r ≤ 1 → s ≤ 2 → Bound (max r s) (K + L) (t >>= f) := by
    intro hr hs'
    have hr' : r = 0 ∨ r = 1 := by omega
    have hs'' : s = 0 ∨ s = 1 ∨ s = 2 := by omega
    refine key _ (fun x => ?_) (by omega)
    rw [cost_bind, res_bind]
    have h1 := ht.cost x
    rcases hr' with rfl | rfl <;> rcases hs'' with rfl | rfl | rfl <;>
      rcases e : t.res x with ⟨r1, v1⟩ | _ | _ | k <;> simp only [e, budget, Res.andThen] at h1 ⊢ <;>
      (try (have h0 := ht.shrinks _ _ _ e; have h2 := (hf v1).cost r1)) <;>
      (try (rcases e2 : (f v1).res r1 with ⟨r2, v2⟩ | _ | _ | k <;> (try have h3 := (hf v1).shrinks _ _ _ e2) <;>
        simp only [e2, budget, Nat.max_def, Nat.reduceLeDiff, if_true, if_false] at h2 ⊢)) <;>
      (try simp only [budget, Nat.max_def, Nat.reduceLeDiff, if_true, if_false] at h1 ⊢) <;> first
      | omega
      | (have h5 : L * (r1.length - r2.length + 1) ≤ L * (x.length - r2.length + 1) := Nat.mul_le_mul_left _ (by omega)
         have h6 : K ≤ K * (x.length - r2.length + 1) := Nat.le_mul_of_pos_right _ (by omega)
         rw [Nat.add_mul]; omega)
      | (have h5 : L * (r1.length + 1) ≤ L * (x.length + 1) := Nat.mul_le_mul_left _ (by omega)
         have h6 : K ≤ K * (x.length + 1) := Nat.le_mul_of_pos_right _ (by omega)
         rw [Nat.add_mul]; omega)
      | (have h6 : K ≤ K * (x.length + 1) := Nat.le_mul_of_pos_right _ (by omega)
         rw [Nat.add_mul]; omega)
  have last : s = 0 → Bound r (K + L) (t >>= f) := by
    rintro rfl
    refine key _ (fun x => ?_) (fun h => ⟨h, rfl⟩)
    have h1 := (ht.mono (Nat.le_refl r) (Nat.le_add_right K L)).cost x
    rw [cost_bind, res_bind]
    rcases e : t.res x with ⟨r1, v1⟩ | _ | _ | k <;> rw [e] at h1 <;> simp only [Res.andThen, Nat.add_zero]
    · obtain ⟨w, hw⟩ := (hf v1).pure rfl r1
      have h2 := (hf v1).cost r1
      simp only [budget] at h2
      rw [hw]
      have h3 : budget r (K + L) x (.ok r1 w : Res β) = budget r (K + L) x (.ok r1 v1 : Res α) := by
        match r with
        | 0 => rfl
        | 1 => rfl
        | 2 => rfl
        | 3 => rfl
        | d + 4 => rfl
      rw [h3]; omega
    all_goals
      match r with
      | 0 => exact h1
      | 1 => exact h1
      | 2 => exact h1
      | 3 => exact h1
      | d + 4 => exact h1
  unfold seqRank
  split
  · rename_i h
    by_cases hs0 : s = 0
    · subst hs0
      simpa using last rfl
    · have hr : r ≤ 1 := by omega
      by_cases h2 : s ≤ 2
      · exact first hr h2
      · by_cases h3 : s = 3
        · subst h3
          rw [show max r 3 = 3 by omega]
          exact amor (by omega) (by omega)
        · obtain ⟨d, rfl⟩ : ∃ d, s = d + 4 := ⟨s - 4, by omega⟩
          rw [show max r (d + 4) = d + 4 by omega]
          exact poly d (by omega) (by omega)
  · by_cases h3 : r ≤ 3 ∧ s ≤ 3
    · rw [show max 3 (max r s) = 3 by omega]
      exact amor h3.1 h3.2
    · obtain ⟨d, hd⟩ : ∃ d, max r s = d + 4 := ⟨max r s - 4, by omega⟩
      rw [show max 3 (max r s) = d + 4 by omega]
      exact poly d (by omega) (by omega)


theorem run_eq (t : T α) (x : Bytes) : t.run x = (t.res x, t.cost x) := rfl

theorem bound_map {r K : Nat} {t : T α} (f : α → β) (ht : Bound r K t) : Bound r K (f <$> t) := by
  have := bound_bind (s := 0) (L := 0) (f := fun v => (pure (f v) : T β)) ht fun v => bound_pure _
  simpa [seqRank, map_eq] using this

theorem bound_fail : Bound 1 0 (fail : T α) where
  cost _ := Nat.le_refl _
  shrinks x rem v h := by cases h
  pure h := absurd h (by omega)

theorem bound_gate {r K : Nat} {t : T α} (b : Bool) (ht : Bound r K t) : Bound (max 1 r) K (gate b t) := by
  cases b
  · exact bound_fail.mono (by omega) (by omega)
  · exact ht.mono (by omega) (by omega)

theorem cost_opt (t : T α) (x : Bytes) : (opt t).cost x = t.cost x := by
  simp only [opt, T.cost]
  simp only [run_eq]
  cases t.res x <;> rfl

theorem res_opt (t : T α) (x : Bytes) :
    (opt t).res x = match t.res x with
      | .ok r v => .ok r (some v)
      | .error => .ok x none
      | .incomplete => .incomplete
      | .failure k => .failure k := by
  simp only [opt, T.res]
  simp only [run_eq]
  cases t.res x <;> rfl

theorem bound_opt {r K : Nat} {t : T α} (ht : Bound r K t) : Bound (optRank r) K (opt t) := by
  have hs : ∀ x rem v, (opt t).res x = .ok rem v → rem.length ≤ x.length := by
    intro x rem v h
    rw [res_opt] at h
    cases e : t.res x <;> rw [e] at h <;> simp only [reduceCtorEq, Res.ok.injEq] at h
    · obtain ⟨rfl, _⟩ := h; exact ht.shrinks _ _ _ e
    · obtain ⟨rfl, _⟩ := h; exact Nat.le_refl _
  have hp : optRank r = 0 → ∀ x, ∃ v, (opt t).res x = .ok x v := by
    intro h x
    have : r = 0 := by unfold optRank at h; split at h <;> omega
    obtain ⟨v, hv⟩ := ht.pure this x
    exact ⟨some v, by rw [res_opt, hv]⟩
  refine ⟨fun x => ?_, hs, hp⟩
  rw [cost_opt, res_opt]
  match r with
  | 0 => have h1 := ht.cost x; simpa [budget, optRank] using h1
  | 1 => have h1 := ht.cost x; simpa [budget, optRank] using h1
  | 2 =>
    have h1 := ht.cost x
    cases e : t.res x <;> rw [e] at h1 <;> simp [budget, optRank] at h1 ⊢ <;> exact h1
  | 3 =>
    have h1 := ht.up.cost x
    simpa [budget, optRank] using h1
  | d + 4 =>
    have h1 := ht.cost x
    have : optRank (d + 4) = d + 4 := by unfold optRank; split <;> omega
    rw [this]
    simpa [budget] using h1

theorem cost_orElse (t u : T α) (x : Bytes) :
    (orElse t u).cost x = t.cost x + (match t.res x with | .error => u.cost x | _ => 0) := by
  simp only [orElse, T.cost]
  simp only [run_eq]
  cases t.res x <;> rfl

theorem res_orElse (t u : T α) (x : Bytes) :
    (orElse t u).res x = match t.res x with | .error => u.res x | r => r := by
  simp only [orElse, T.res]
  simp only [run_eq]
  cases t.res x <;> rfl

theorem bound_orElse {r s K L : Nat} {t u : T α} (ht : Bound r K t) (hu : Bound s L u) : Bound (altRank r s) (K + L) (orElse t u) := by
  have hs : ∀ x rem v, (orElse t u).res x = .ok rem v → rem.length ≤ x.length := by
    intro x rem v h
    rw [res_orElse] at h
    cases e : t.res x <;> rw [e] at h <;> simp only [reduceCtorEq, Res.ok.injEq] at h
    · obtain ⟨rfl, _⟩ := h; exact ht.shrinks _ _ _ e
    · exact hu.shrinks _ _ _ h
  have poly : ∀ d, r ≤ d + 4 → s ≤ d + 4 → Bound (d + 4) (K + L) (orElse t u) := by
    intro d hr hs'
    refine ⟨fun x => ?_, hs, by omega⟩
    have h1 := (ht.mono hr (Nat.le_refl K)).cost x
    have h2 := (hu.mono hs' (Nat.le_refl L)).cost x
    rw [cost_orElse]
    simp only [budget] at h1 h2 ⊢
    rw [Nat.add_mul]
    cases t.res x <;> simp only <;> omega
  have low : ∀ m, m ≤ 3 → r ≤ 2 → max r s = m → Bound m (K + L) (orElse t u) := by
    intro m hm hr e
    refine ⟨fun x => ?_, hs, fun h0 x => ?_⟩
    · have h1 := ht.cost x
      have h1' := (ht.mono (show r ≤ m by omega) (Nat.le_add_right K L)).cost x
      have h2 := (hu.mono (show s ≤ m by omega) (Nat.le_refl L)).cost x
      rw [cost_orElse, res_orElse]
      cases e1 : t.res x <;> rw [e1] at h1 h1' <;> simp only [Nat.add_zero]
      · exact h1'
      · exact h1'
      · have h3 : t.cost x ≤ K := by
          match r, hr with
          | 0, _ => simp only [budget] at h1; omega
          | 1, _ => simp only [budget] at h1; omega
          | 2, _ => simp only [budget] at h1; omega
        match m, hm with
        | 0, _ =>
          obtain ⟨v, hv⟩ := ht.pure (by omega) x
          rw [hv] at e1; cases e1
        | 1, _ => simp only [budget] at h2 ⊢; omega
        | 2, _ =>
          cases e2 : u.res x <;> rw [e2] at h2 <;> simp only [budget] at h2 ⊢
          · have : K ≤ K * (x.length - (by assumption : Bytes).length + 1) := Nat.le_mul_of_pos_right _ (by omega)
            rw [Nat.add_mul]; omega
          · have : K ≤ K * (x.length + 1) := Nat.le_mul_of_pos_right _ (by omega)
            rw [Nat.add_mul]; omega
          · omega
          · have : K ≤ K * (x.length + 1) := Nat.le_mul_of_pos_right _ (by omega)
            rw [Nat.add_mul]; omega
        | 3, _ =>
          cases e2 : u.res x <;> rw [e2] at h2 <;> simp only [budget] at h2 ⊢
          · have : K ≤ K * (x.length - (by assumption : Bytes).length + 1) := Nat.le_mul_of_pos_right _ (by omega)
            rw [Nat.add_mul]; omega
          all_goals
            have : K ≤ K * (x.length + 1) := Nat.le_mul_of_pos_right _ (by omega)
            rw [Nat.add_mul]; omega
      · exact h1'
    · obtain ⟨v, hv⟩ := ht.pure (by omega) x
      exact ⟨v, by rw [res_orElse, hv]⟩
  unfold altRank
  split
  · by_cases h3 : max r s ≤ 3
    · exact low _ h3 (by assumption) rfl
    · obtain ⟨d, hd⟩ : ∃ d, max r s = d + 4 := ⟨max r s - 4, by omega⟩
      rw [hd]; exact poly d (by omega) (by omega)
  · obtain ⟨d, hd⟩ : ∃ d, max 4 (max r s) = d + 4 := ⟨max 4 (max r s) - 4, by omega⟩
    rw [hd]; exact poly d (by omega) (by omega)

theorem cost_mapRes (t : T α) (f : α → Option β) (x : Bytes) : (mapRes t f).cost x = t.cost x := by
  simp only [mapRes, T.cost]
  simp only [run_eq]
  cases t.res x <;> simp only
  split <;> rfl

theorem res_mapRes (t : T α) (f : α → Option β) (x : Bytes) :
    (mapRes t f).res x = match t.res x with
      | .ok r v => (match f v with | some w => .ok r w | none => .error)
      | .incomplete => .incomplete
      | .error => .error
      | .failure k => .failure k := by
  simp only [mapRes, T.res]
  simp only [run_eq]
  cases t.res x <;> simp only
  split <;> simp_all

theorem bound_mapRes {r K : Nat} {t : T α} (f : α → Option β) (ht : Bound r K t) : Bound (resRank r) K (mapRes t f) := by
  have hs : ∀ x rem v, (mapRes t f).res x = .ok rem v → rem.length ≤ x.length := by
    intro x rem v h
    rw [res_mapRes] at h
    rcases e : t.res x with ⟨r1, v1⟩ | _ | _ | k <;> rw [e] at h <;> simp only [reduceCtorEq] at h
    cases e2 : f v1 <;> rw [e2] at h <;> simp only [reduceCtorEq, Res.ok.injEq] at h
    obtain ⟨rfl, _⟩ := h; exact ht.shrinks _ _ _ e
  have h3 : r ≤ 3 → Bound 3 K (mapRes t f) := by
    intro hr
    refine ⟨fun x => ?_, hs, by omega⟩
    have h1 := (ht.mono hr (Nat.le_refl K)).cost x
    rw [cost_mapRes, res_mapRes]
    rcases e : t.res x with ⟨r1, v1⟩ | _ | _ | k <;> rw [e] at h1 <;> simp only [budget] at h1 ⊢
    · cases f v1 <;> simp only [budget]
      · exact le_trans h1 (Nat.mul_le_mul_left _ (by omega))
      · exact h1
    all_goals exact h1
  match r, ht, h3 with
  | 0, ht, _ => exact ⟨fun x => by rw [cost_mapRes]; exact ht.up.cost x, hs, by simp [resRank]⟩
  | 1, ht, _ => exact ⟨fun x => by rw [cost_mapRes]; exact ht.cost x, hs, by simp [resRank]⟩
  | 2, ht, h3 => exact h3 (by omega)
  | 3, ht, h3 => exact h3 (by omega)
  | d + 4, ht, _ =>
    have : resRank (d + 4) = d + 4 := by unfold resRank; split <;> [omega; (split <;> omega)]
    rw [this]
    exact ⟨fun x => by rw [cost_mapRes]; exact ht.cost x, hs, by omega⟩

theorem cost_peek (t : T α) (x : Bytes) : (peek t).cost x = t.cost x := by
  simp only [peek, T.cost]
  simp only [run_eq]
  cases t.res x <;> rfl

theorem res_peek (t : T α) (x : Bytes) : (peek t).res x = (t.res x).andThen fun v _ => .ok x v := by
  simp only [peek, T.res]
  simp only [run_eq]
  cases t.res x <;> rfl

/-- The rank of a parser that only looks. -/
def peekRank (r : Nat) : Nat := if r ≤ 1 then r else max 4 r

theorem bound_peek {r K : Nat} {t : T α} (ht : Bound r K t) : Bound (peekRank r) K (peek t) := by
  have hs : ∀ x rem v, (peek t).res x = .ok rem v → rem.length ≤ x.length := by
    intro x rem v h
    rw [res_peek] at h
    rcases e : t.res x with ⟨r1, v1⟩ | _ | _ | k <;> rw [e] at h <;> simp only [Res.andThen, reduceCtorEq, Res.ok.injEq] at h
    exact le_of_eq (congrArg _ h.1.symm)
  unfold peekRank
  split
  · refine ⟨fun x => ?_, hs, fun h0 x => ?_⟩
    · rw [cost_peek]
      match r with
      | 0 => exact ht.cost x
      | 1 => exact ht.cost x
      | _ + 2 => omega
    · obtain ⟨v, hv⟩ := ht.pure h0 x
      exact ⟨v, by rw [res_peek, hv]; rfl⟩
  · obtain ⟨d, hd⟩ : ∃ d, max 4 r = d + 4 := ⟨max 4 r - 4, by omega⟩
    rw [hd]
    refine ⟨fun x => ?_, hs, by omega⟩
    have h1 := (ht.mono (show r ≤ d + 4 by omega) (Nat.le_refl K)).cost x
    rw [cost_peek]
    simpa [budget] using h1

theorem cost_recognize (t : T α) (x : Bytes) : (recognize t).cost x = t.cost x := by
  simp only [recognize, T.cost]
  simp only [run_eq]
  cases t.res x <;> rfl

theorem res_recognize (t : T α) (x : Bytes) :
    (recognize t).res x = (t.res x).andThen fun _ r => .ok r (x.take (x.length - r.length)) := by
  simp only [recognize, T.res]
  simp only [run_eq]
  cases t.res x <;> rfl

theorem bound_recognize {r K : Nat} {t : T α} (ht : Bound r K t) : Bound r K (recognize t) := by
  refine ⟨fun x => ?_, fun x rem v h => ?_, fun h0 x => ?_⟩
  · have h1 := ht.cost x
    rw [cost_recognize, res_recognize]
    cases e : t.res x <;> rw [e] at h1 <;> simp only [Res.andThen]
    all_goals
      match r with
      | 0 => exact h1
      | 1 => exact h1
      | 2 => exact h1
      | 3 => exact h1
      | d + 4 => exact h1
  · rw [res_recognize] at h
    rcases e : t.res x with ⟨r1, v1⟩ | _ | _ | k <;> rw [e] at h <;> simp only [Res.andThen, reduceCtorEq, Res.ok.injEq] at h
    obtain ⟨rfl, _⟩ := h; exact ht.shrinks _ _ _ e
  · obtain ⟨v, hv⟩ := ht.pure h0 x
    exact ⟨_, by rw [res_recognize, hv]; rfl⟩

theorem many0_run (t : T α) (x : Bytes) :
    (many0 t).run x = match t.res x with
      | .ok r v =>
        if r.length < x.length then
          ((((many0 t).res r).andThen fun vs i => .ok i (v :: vs)), t.cost x + (many0 t).cost r + 1)
        else (.error, t.cost x + 1)
      | .error => (.ok x [], t.cost x + 1)
      | .incomplete => (.incomplete, t.cost x + 1)
      | .failure k => (.failure k, t.cost x + 1) := by
  show many0Run t x = _
  rw [many0Run]
  rw [run_eq]
  cases e : t.res x <;> simp only
  split
  · show _ = (((many0Run t _).1.andThen _), t.cost x + (many0Run t _).2 + 1)
    rcases many0Run t _ with ⟨r, n⟩
    cases r <;> simp [Res.andThen]
  · rfl

theorem cost_many0 (t : T α) (x : Bytes) :
    (many0 t).cost x = t.cost x + 1 + (match t.res x with
      | .ok r _ => if r.length < x.length then (many0 t).cost r else 0
      | _ => 0) := by
  unfold T.cost
  rw [many0_run]
  simp only [run_eq]
  cases t.res x <;> simp only
  · split <;> (simp only; try unfold T.cost; omega)

theorem res_many0 (t : T α) (x : Bytes) :
    (many0 t).res x = match t.res x with
      | .ok r v => if r.length < x.length then ((many0 t).res r).andThen fun vs i => .ok i (v :: vs) else .error
      | .error => .ok x []
      | .incomplete => .incomplete
      | .failure k => .failure k := by
  unfold T.res
  rw [many0_run]
  simp only [run_eq]
  cases t.res x <;> simp only
  split <;> rfl

theorem bound_many0 {r K : Nat} {t : T α} (ht : Bound r K t) : Bound (manyRank r) (2 * K + 2) (many0 t) := by
  have hs : ∀ n x rem v, x.length ≤ n → (many0 t).res x = .ok rem v → rem.length ≤ x.length := by
    intro n
    induction n with
    | zero =>
      intro x rem v hx h
      rw [res_many0] at h
      rcases e : t.res x with ⟨r1, v1⟩ | _ | _ | k <;> rw [e] at h <;> simp only [reduceCtorEq] at h
      · rw [if_neg (by omega)] at h; cases h
      · cases h; exact Nat.le_refl _
    | succ n ih =>
      intro x rem v hx h
      rw [res_many0] at h
      rcases e : t.res x with ⟨r1, v1⟩ | _ | _ | k <;> rw [e] at h <;> simp only [reduceCtorEq] at h
      · split at h
        · rcases e2 : (many0 t).res r1 with ⟨r2, v2⟩ | _ | _ | k <;> rw [e2] at h <;>
            simp only [Res.andThen, reduceCtorEq, Res.ok.injEq] at h
          have := ih r1 r2 v2 (by omega) e2
          rw [← h.1]; omega
        · cases h
      · cases h; exact Nat.le_refl _
  have amor : r ≤ 2 → ∀ n x, x.length ≤ n → (many0 t).cost x ≤ budget 3 (2 * K + 2) x ((many0 t).res x) := by
    intro hr n
    have ht' := ht.mono hr (Nat.le_refl K)
    induction n with
    | zero =>
      intro x hx
      have h1 := ht'.cost x
      rw [cost_many0, res_many0]
      rcases e : t.res x with ⟨r1, v1⟩ | _ | _ | k <;> rw [e] at h1 <;> simp only [budget] at h1 ⊢
      · rw [if_neg (by omega), if_neg (by omega)]
        have : x.length = 0 := by omega
        simp only [this, Nat.zero_sub, Nat.zero_add, Nat.mul_one] at h1 ⊢
        omega
      all_goals
        have : x.length = 0 := by omega
        simp only [this, Nat.sub_self, Nat.zero_add, Nat.mul_one] at h1 ⊢
        omega
    | succ n ih =>
      intro x hx
      have h1 := ht'.cost x
      rw [cost_many0, res_many0]
      rcases e : t.res x with ⟨r1, v1⟩ | _ | _ | k <;> rw [e] at h1 <;> simp only [budget] at h1 ⊢
      · split
        · have h2 := ih r1 (by omega)
          obtain ⟨c, hc⟩ : ∃ c, x.length = r1.length + c + 1 := ⟨x.length - r1.length - 1, by omega⟩
          have h5 : x.length - r1.length = c + 1 := by omega
          rw [h5] at h1
          rcases e2 : (many0 t).res r1 with ⟨r2, v2⟩ | _ | _ | k <;> rw [e2] at h2 <;> simp only [budget, Res.andThen] at h2 ⊢
          · have h3 := hs _ _ _ _ (Nat.le_refl _) e2
            have h4 : x.length - r2.length + 1 = (r1.length - r2.length + 1) + (c + 1) := by omega
            rw [h4, Nat.mul_add (2 * K + 2)]
            nlinarith
          all_goals
            have h4 : x.length + 1 = (r1.length + 1) + (c + 1) := by omega
            rw [h4, Nat.mul_add (2 * K + 2)]
            nlinarith
        · simp only [budget]
          have : x.length - r1.length = 0 := by omega
          rw [this] at h1
          nlinarith
      · nlinarith
      · simp only [Nat.sub_self]; omega
      · nlinarith
  have lin : r ≤ 3 → ∀ n x, x.length ≤ n → (many0 t).cost x ≤ (2 * K + 2) * (x.length + 1) := by
    intro hr n
    have ht' := ht.mono hr (Nat.le_refl K)
    induction n with
    | zero =>
      intro x hx
      have h1 := ht'.cost x
      rw [cost_many0]
      rcases e : t.res x with ⟨r1, v1⟩ | _ | _ | k <;> rw [e] at h1 <;> simp only [budget] at h1 ⊢
      · rw [if_neg (by omega)]
        have : x.length = 0 := by omega
        simp only [this, Nat.zero_sub, Nat.zero_add, Nat.mul_one] at h1 ⊢
        omega
      all_goals
        have : x.length = 0 := by omega
        simp only [this, Nat.zero_sub, Nat.zero_add, Nat.mul_one] at h1 ⊢
        omega
    | succ n ih =>
      intro x hx
      have h1 := ht'.cost x
      rw [cost_many0]
      rcases e : t.res x with ⟨r1, v1⟩ | _ | _ | k <;> rw [e] at h1 <;> simp only [budget] at h1 ⊢
      · split
        · have h2 := ih r1 (by omega)
          obtain ⟨c, hc⟩ : ∃ c, x.length = r1.length + c + 1 := ⟨x.length - r1.length - 1, by omega⟩
          have h5 : x.length - r1.length = c + 1 := by omega
          rw [h5] at h1
          have h4 : x.length + 1 = (r1.length + 1) + (c + 1) := by omega
          rw [h4, Nat.mul_add (2 * K + 2)]
          nlinarith
        · have : x.length - r1.length = 0 ∨ True := Or.inr trivial
          have : K * (x.length - r1.length + 1) ≤ K * (x.length + 1) := Nat.mul_le_mul_left _ (by omega)
          nlinarith
      all_goals nlinarith
  have poly : ∀ d, r ≤ d + 4 → ∀ n x, x.length ≤ n → (many0 t).cost x ≤ (x.length + 1) * (K * (x.length + 1) ^ (d + 1) + 1) := by
    intro d hr n
    have ht' := ht.mono hr (Nat.le_refl K)
    induction n with
    | zero =>
      intro x hx
      have h1 := ht'.cost x
      rw [cost_many0]
      simp only [budget] at h1
      have h0 : x.length = 0 := by omega
      rw [h0] at h1 ⊢
      rcases e : t.res x with ⟨r1, v1⟩ | _ | _ | k <;> simp only
      · rw [if_neg (by omega)]; omega
      all_goals omega
    | succ n ih =>
      intro x hx
      have h1 := ht'.cost x
      rw [cost_many0]
      simp only [budget] at h1
      have base : t.cost x + 1 + 0 ≤ (x.length + 1) * (K * (x.length + 1) ^ (d + 1) + 1) := by
        refine le_trans (Nat.add_le_add_right h1 1) ?_
        exact Nat.le_mul_of_pos_left _ (by omega)
      rcases e : t.res x with ⟨r1, v1⟩ | _ | _ | k <;> simp only
      · split
        · have h2 := ih r1 (by omega)
          have h3 : K * (r1.length + 1) ^ (d + 1) + 1 ≤ K * (x.length + 1) ^ (d + 1) + 1 :=
            Nat.add_le_add_right (Nat.mul_le_mul_left _ (Nat.pow_le_pow_left (by omega) _)) _
          have h4 := Nat.mul_le_mul (show r1.length + 1 ≤ x.length by omega) h3
          rw [Nat.add_mul x.length]
          omega
        · exact base
      all_goals exact base
  unfold manyRank
  split
  · exact ⟨fun x => amor (by assumption) _ x (Nat.le_refl _), fun x rem v => hs _ x rem v (Nat.le_refl _), by omega⟩
  · by_cases h3 : r = 3
    · subst h3
      refine ⟨fun x => ?_, fun x rem v => hs _ x rem v (Nat.le_refl _), by omega⟩
      simpa [budget] using lin (Nat.le_refl _) _ x (Nat.le_refl _)
    · obtain ⟨d, rfl⟩ : ∃ d, r = d + 4 := ⟨r - 4, by omega⟩
      refine ⟨fun x => ?_, fun x rem v => hs _ x rem v (Nat.le_refl _), by omega⟩
      have h := poly d (Nat.le_refl _) _ x (Nat.le_refl _)
      simp only [budget]
      refine le_trans h ?_
      rw [show d + 1 + 1 = (d + 1) + 1 from rfl, Nat.pow_succ (x.length + 1) (d + 1)]
      have h1 : 1 ≤ (x.length + 1) ^ (d + 1) := Nat.one_le_pow _ _ (by omega)
      calc (x.length + 1) * (K * (x.length + 1) ^ (d + 1) + 1)
          ≤ (x.length + 1) * (K * (x.length + 1) ^ (d + 1) + (x.length + 1) ^ (d + 1)) :=
            Nat.mul_le_mul_left _ (Nat.add_le_add_left h1 _)
        _ = (K + 1) * ((x.length + 1) ^ (d + 1) * (x.length + 1)) := by ring
        _ ≤ (2 * K + 2) * ((x.length + 1) ^ (d + 1) * (x.length + 1)) := Nat.mul_le_mul_right _ (by omega)

end Imap.Timed
