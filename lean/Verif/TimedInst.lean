import Verif.TimedBound
import Verif.ResponseLemmas
/-
The bounds of Verif/TimedBound.lean as a class, such that ranks and factors are computed along the structure of a parser.
-/
namespace Imap.Timed

variable {α β : Type}

/-- The parser has this rank and factor. -/
class Bnd (t : T α) (r K : outParam Nat) : Prop where
  bound : Bound r K t

/-- The alternatives have this rank and factor. -/
class BndL (ts : List (T α)) (r K : outParam Nat) : Prop where
  bound : Bound r K (alt ts)

theorem Bnd.use {t : T α} {r K r' K' : Nat} (h : Bnd t r K) (hr : r ≤ r') (hK : K ≤ K') : Bnd t r' K' := ⟨h.bound.mono hr hK⟩

/-- Computes the rank and the factor of a parser after unfolding its definition, and compares them with the stated ones. -/
macro "bnd " n:ident : tactic =>
  `(tactic| (refine Bnd.use (r := ?r) (K := ?K) ?h ?hr ?hK; (case h => (unfold $n; infer_instance)); (all_goals decide +kernel)))

section primitives

attribute [local instance] Quirks.default

theorem bound_prim {p : P α} {looks : Bytes → Nat} {K : Nat} (h : ∀ x, looks x + 1 ≤ K)
    (hs : ∀ x r v, p x = .ok r v → r.length ≤ x.length) : Bound 1 K (prim p looks) where
  cost := h
  shrinks := hs
  pure h := absurd h (by omega)

theorem looksTag_le (same : UInt8 → UInt8 → Bool) (pat x : Bytes) : looksTag same pat x ≤ pat.length := by
  induction pat generalizing x with
  | nil => simp [looksTag]
  | cons t ts ih =>
    cases x with
    | nil => simp [looksTag]
    | cons b bs =>
      simp only [looksTag]
      split
      · have := ih bs; simp only [List.length_cons]; omega
      · simp

instance (pat : Bytes) : Bnd (tag pat) 1 (pat.length + 1) :=
  ⟨bound_prim (fun x => Nat.succ_le_succ (looksTag_le _ _ _)) fun _ _ _ => (Nice.tag pat).len⟩

instance (pat : Bytes) : Bnd (tagNC pat) 1 (pat.length + 1) :=
  ⟨bound_prim (fun x => Nat.succ_le_succ (looksTag_le _ _ _)) fun _ _ _ => (Nice.tagNC pat).len⟩

instance (c : UInt8) : Bnd (char c) 1 2 := ⟨bound_prim (fun _ => Nat.le_refl _) fun _ _ _ => (Nice.char c).len⟩

instance (f : UInt8 → Bool) : Bnd (satisfy f) 1 2 := ⟨bound_prim (fun _ => Nat.le_refl _) fun _ _ _ => (Nice.satisfy f).len⟩

instance (f : UInt8 → Bool) (n : Nat) : Bnd (takeExactly f n) 1 (n + 1) :=
  ⟨bound_prim (fun _ => Nat.le_refl _) fun _ _ _ => (Nice.takeExactly f n).len⟩

instance (f : UInt8 → Bool) : Bnd (take1or2 f) 1 3 := ⟨bound_prim (fun _ => Nat.le_refl _) fun _ _ _ => (Nice.take1or2 f).len⟩

instance (n : Nat) (m : Mode) : Bnd (literalData n m) 1 2 :=
  ⟨bound_prim (fun _ => Nat.le_refl _) fun x r v h => by
    unfold Imap.literalData at h
    split at h
    · cases h
    · exact (Nice.take n).len h⟩

instance (k : Fail) : Bnd (failWith k : T α) 1 1 := ⟨bound_prim (fun _ => Nat.le_refl _) fun _ _ _ h => by cases h⟩

theorem takeWhile_looks (f : UInt8 → Bool) (x : Bytes) :
    match Imap.takeWhile f x with
    | .ok r _ => looksWhile f x = x.length - r.length + 1 ∧ r.length ≤ x.length
    | .incomplete => looksWhile f x = x.length
    | _ => False := by
  induction x with
  | nil => simp [Imap.takeWhile, looksWhile]
  | cons b bs ih =>
    cases hb : f b
    · simp [Imap.takeWhile, looksWhile, hb]
    · simp only [Imap.takeWhile, looksWhile, hb, if_true]
      cases e : Imap.takeWhile f bs <;> rw [e] at ih <;> simp only [Res.andThen, List.length_cons] at ih ⊢ <;> omega

instance (f : UInt8 → Bool) : Bnd (takeWhile f) 2 2 := by
  refine ⟨⟨fun x => ?_, fun _ _ _ => (Nice.takeWhile f).len, by omega⟩⟩
  have h := takeWhile_looks f x
  show looksWhile f x + 1 ≤ budget 2 2 x (Imap.takeWhile f x)
  cases e : Imap.takeWhile f x <;> rw [e] at h <;> simp only [budget] at h ⊢ <;> omega

instance (f : UInt8 → Bool) : Bnd (takeWhile1 f) 2 2 := by
  refine ⟨⟨fun x => ?_, fun _ _ _ => (Nice.takeWhile1 f).len, by omega⟩⟩
  have h := takeWhile_looks f x
  show looksWhile f x + 1 ≤ budget 2 2 x (Imap.takeWhile1 f x)
  cases x with
  | nil => simp [looksWhile, Imap.takeWhile1, budget]
  | cons b bs =>
    simp only [Imap.takeWhile1]
    split
    · cases e : Imap.takeWhile f (b :: bs) <;> rw [e] at h <;> simp only [budget] at h ⊢ <;> omega
    · rename_i hb
      simp [looksWhile, hb, budget]

theorem escaped_looks (f : UInt8 → Bool) (n : Nat) : ∀ x : Bytes, x.length ≤ n →
    match Imap.escaped f x with
    | .ok r _ => looksEscaped f x ≤ x.length - r.length + 1 ∧ r.length ≤ x.length
    | _ => looksEscaped f x ≤ x.length + 1 := by
  induction n with
  | zero =>
    intro x hx
    have : x = [] := List.length_eq_zero_iff.1 (by omega)
    subst this
    simp [Imap.escaped, looksEscaped]
  | succ n ih =>
    intro x hx
    match x with
    | [] => simp [Imap.escaped, looksEscaped]
    | [b] =>
      cases hb : (f b || b == 92) <;> simp [Imap.escaped, looksEscaped, -Bool.or_eq_true, hb]
    | b :: c :: cs =>
      cases hb : f b
      · cases hb' : b == 92
        · simp [Imap.escaped, looksEscaped, hb, -beq_iff_eq, hb']
        · cases hc : isQuotedSpecials c
          · simp [Imap.escaped, looksEscaped, hb, -beq_iff_eq, hb', hc]
          · simp only [Imap.escaped, looksEscaped, hb, hb', hc, if_true, Bool.false_eq_true, if_false]
            have h := ih cs (by simp at hx ⊢; omega)
            cases e : Imap.escaped f cs <;> rw [e] at h <;> simp only [Res.andThen, List.length_cons] at h ⊢ <;> omega
      · simp only [Imap.escaped, looksEscaped, hb, if_true]
        have h := ih (c :: cs) (by simp at hx ⊢; omega)
        cases e : Imap.escaped f (c :: cs) <;> rw [e] at h <;> simp only [Res.andThen, List.length_cons] at h ⊢ <;> omega

instance (f : UInt8 → Bool) : Bnd (escaped f) 3 2 := by
  refine ⟨⟨fun x => ?_, fun _ _ _ => (Nice.escaped f).len, by omega⟩⟩
  have h := escaped_looks f _ x (Nat.le_refl _)
  show looksEscaped f x + 1 ≤ budget 3 2 x (Imap.escaped f x)
  cases e : Imap.escaped f x <;> rw [e] at h <;> simp only [budget] at h ⊢ <;> omega

theorem takeUntil_len {pat x r v : Bytes} (h : Imap.takeUntil pat x = .ok r v) : r.length ≤ x.length := by
  unfold Imap.takeUntil at h
  split at h
  · rename_i l r' e
    cases h
    have := splitOnce_eq e
    rw [this]; simp
  · cases h

instance (pat : Bytes) : Bnd (takeUntil pat) 2 (pat.length + 1) := by
  refine ⟨⟨fun x => ?_, fun _ _ _ => takeUntil_len, by omega⟩⟩
  show (match Imap.takeUntil pat x with | .ok r _ => _ | _ => _) + 1 ≤ budget 2 (pat.length + 1) x (Imap.takeUntil pat x)
  cases e : Imap.takeUntil pat x <;> simp only [budget]
  · rw [Nat.mul_comm, Nat.add_mul]; omega
  · rw [Nat.mul_comm x.length, Nat.add_mul, Nat.mul_add]; omega
  · unfold Imap.takeUntil at e; split at e <;> cases e
  · rw [Nat.mul_comm x.length, Nat.add_mul, Nat.mul_add]; omega

end primitives

instance (a : α) : Bnd (pure a : T α) 0 0 := ⟨bound_pure a⟩

instance {t : T α} {f : α → T β} {r s K L : Nat} [ht : Bnd t r K] [hf : ∀ v, Bnd (f v) s L] : Bnd (t >>= f) (seqRank r s) (K + L) :=
  ⟨bound_bind ht.bound fun v => (hf v).bound⟩

instance {t : T α} {f : α → β} {r K : Nat} [ht : Bnd t r K] : Bnd (f <$> t) r K := ⟨bound_map f ht.bound⟩

instance {t : T α} {v : β} {r K : Nat} [ht : Bnd t r K] : Bnd (value v t) (seqRank r 0) (K + 0) :=
  ⟨bound_bind ht.bound fun _ => bound_pure _⟩

instance {t : T α} {b : Bool} {r K : Nat} [ht : Bnd t r K] : Bnd (gate b t) (max 1 r) K := ⟨bound_gate b ht.bound⟩

instance {t : T α} {r K : Nat} [ht : Bnd t r K] : Bnd (opt t) (optRank r) K := ⟨bound_opt ht.bound⟩

instance {t : T α} {f : α → Option β} {r K : Nat} [ht : Bnd t r K] : Bnd (mapRes t f) (resRank r) K := ⟨bound_mapRes f ht.bound⟩

instance {t : T α} {r K : Nat} [ht : Bnd t r K] : Bnd (peek t) (peekRank r) K := ⟨bound_peek ht.bound⟩

instance {t : T α} {r K : Nat} [ht : Bnd t r K] : Bnd (recognize t) r K := ⟨bound_recognize ht.bound⟩

instance {t : T α} {r K : Nat} [ht : Bnd t r K] : Bnd (many0 t) (manyRank r) (2 * K + 2) := ⟨bound_many0 ht.bound⟩

instance {t : T α} {r K : Nat} [ht : Bnd t r K] : Bnd (many1 t) (seqRank r (seqRank (manyRank r) 0)) (K + (2 * K + 2 + 0)) :=
  ⟨bound_bind ht.bound fun _ => bound_bind (bound_many0 ht.bound) fun _ => bound_pure _⟩

instance {t : T α} {r K : Nat} [ht : Bnd t r K] : Bnd (many2 t) (resRank (manyRank r)) (2 * K + 2) :=
  ⟨bound_mapRes _ (bound_many0 ht.bound)⟩

instance {sep : T Unit} {t : T α} {r s K L : Nat} [hs : Bnd sep s L] [ht : Bnd t r K] :
    Bnd (sepList1 sep t) (seqRank r (seqRank (manyRank (seqRank s r)) 0)) (K + (2 * (L + K) + 2 + 0)) :=
  ⟨bound_bind ht.bound fun _ => bound_bind (bound_many0 (bound_bind hs.bound fun _ => ht.bound)) fun _ => bound_pure _⟩

instance {sep : T Unit} {t : T α} {r s K L : Nat} [hs : Bnd sep s L] [ht : Bnd t r K] :
    Bnd (sepList0 sep t) (seqRank (optRank r) (seqRank (manyRank (seqRank s r)) 0)) (K + (2 * (L + K) + 2 + 0)) := by
  refine ⟨bound_bind (bound_opt ht.bound) fun v => ?_⟩
  cases v
  · exact (bound_pure _).mono (Nat.zero_le _) (Nat.zero_le _)
  · exact bound_bind (bound_many0 (bound_bind hs.bound fun _ => ht.bound)) fun _ => bound_pure _

instance {c : Prop} [Decidable c] {t u : T α} {r s K L : Nat} [ht : Bnd t r K] [hu : Bnd u s L] :
    Bnd (if c then t else u) (max r s) (max K L) := by
  split
  · exact ⟨ht.bound.mono (by omega) (by omega)⟩
  · exact ⟨hu.bound.mono (by omega) (by omega)⟩

instance : BndL ([] : List (T α)) 1 0 := ⟨bound_fail⟩

instance {t : T α} {ts : List (T α)} {r s K L : Nat} [ht : Bnd t r K] [hs : BndL ts s L] : BndL (t :: ts) (altRank r s) (K + L) :=
  ⟨bound_orElse ht.bound hs.bound⟩

instance {ts : List (T α)} {r K : Nat} [h : BndL ts r K] : Bnd (alt ts) r K := ⟨h.bound⟩

instance : Bnd sp 1 2 := inferInstanceAs (Bnd (char 32) 1 2)

instance : Bnd dquote 1 2 := inferInstanceAs (Bnd (char 34) 1 2)

instance [Quirks] : Bnd crlf 1 4 := by
  refine Bnd.use (r := ?r) (K := ?K) ?h ?hr ?hK
  case h => unfold crlf; infer_instance
  all_goals decide +kernel

end Imap.Timed
