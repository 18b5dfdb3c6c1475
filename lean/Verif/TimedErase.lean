import Verif.TimedBound
/-
A parser with a counter gives the results of a parser without. The class is resolved along the structure of a parser, see
Verif/TimedEraseCommand.lean and Verif/TimedEraseResponse.lean.
-/
namespace Imap.Timed

variable {α β : Type}

/-- The parsers have the same results. -/
class Erases (t : T α) (p : P α) : Prop where
  res : ∀ x, t.res x = p x

/-- The same for lists of alternatives. -/
class ErasesL (ts : List (T α)) (ps : List (P α)) : Prop where
  res : ∀ x, (alt ts).res x = Imap.alt ps x

open Lean in
/-- Compares the definitions of a parser with and without a counter. -/
macro "erase " n:ident : tactic => do
  let m := mkIdent (`Imap ++ n.getId)
  `(tactic| (unfold $n $m; infer_instance))

instance (p : P α) (looks : Bytes → Nat) : Erases (prim p looks) p := ⟨fun _ => rfl⟩

instance (pat : Bytes) : Erases (tag pat) (Imap.tag pat) := ⟨fun _ => rfl⟩

instance (pat : Bytes) : Erases (tagNC pat) (Imap.tagNC pat) := ⟨fun _ => rfl⟩

instance (c : UInt8) : Erases (char c) (Imap.char c) := ⟨fun _ => rfl⟩

instance (f : UInt8 → Bool) : Erases (takeWhile f) (Imap.takeWhile f) := ⟨fun _ => rfl⟩

instance (f : UInt8 → Bool) : Erases (takeWhile1 f) (Imap.takeWhile1 f) := ⟨fun _ => rfl⟩

instance (f : UInt8 → Bool) : Erases (satisfy f) (Imap.satisfy f) := ⟨fun _ => rfl⟩

instance (f : UInt8 → Bool) (n : Nat) : Erases (takeExactly f n) (Imap.takeExactly f n) := ⟨fun _ => rfl⟩

instance (f : UInt8 → Bool) : Erases (take1or2 f) (Imap.take1or2 f) := ⟨fun _ => rfl⟩

instance (n : Nat) (m : Mode) : Erases (literalData n m) (Imap.literalData n m) := ⟨fun _ => rfl⟩

instance (f : UInt8 → Bool) : Erases (escaped f) (Imap.escaped f) := ⟨fun _ => rfl⟩

instance (pat : Bytes) : Erases (takeUntil pat) (Imap.takeUntil pat) := ⟨fun _ => rfl⟩

instance (k : Fail) : Erases (failWith k : T α) (fun _ => .failure k) := ⟨fun _ => rfl⟩

instance : Erases sp Imap.sp := ⟨fun _ => rfl⟩

instance : Erases dquote Imap.dquote := ⟨fun _ => rfl⟩

instance (v : α) : Erases (pure v) (pure v) := ⟨fun _ => rfl⟩

instance {t : T α} {p : P α} {f : α → T β} {g : α → P β} [h : Erases t p] [h' : ∀ v, Erases (f v) (g v)] : Erases (t >>= f) (p >>= g) := by
  refine ⟨fun x => ?_⟩
  rw [res_bind, h.res]
  show _ = (p x).andThen g
  congr 1
  funext v i
  exact (h' v).res i

instance {t : T α} {p : P α} (f : α → β) [h : Erases t p] : Erases (f <$> t) (f <$> p) := by
  refine ⟨fun x => ?_⟩
  rw [map_eq, res_bind, h.res]
  rfl

instance {t : T α} {p : P α} (v : β) [h : Erases t p] : Erases (value v t) (Imap.value v p) := by
  unfold value Imap.value
  infer_instance

instance {t : T α} {p : P α} (b : Bool) [h : Erases t p] : Erases (gate b t) (Imap.gate b p) := by
  refine ⟨fun x => ?_⟩
  unfold gate Imap.gate
  cases b
  · show Res.error = _
    simp only [Bool.false_eq_true, if_false]
    split <;> rfl
  · simp only [if_true]
    rw [h.res]
    cases p x <;> rfl

instance {t : T α} {p : P α} [h : Erases t p] : Erases (opt t) (Imap.opt p) := by
  refine ⟨fun x => ?_⟩
  rw [res_opt, h.res]
  unfold Imap.opt
  cases p x <;> rfl

instance : ErasesL ([] : List (T α)) [] := ⟨fun _ => rfl⟩

instance {t : T α} {p : P α} {ts : List (T α)} {ps : List (P α)} [h : Erases t p] [h' : ErasesL ts ps] : ErasesL (t :: ts) (p :: ps) := by
  refine ⟨fun x => ?_⟩
  simp only [alt, Imap.alt]
  rw [res_orElse, h.res]
  unfold Imap.orElse
  cases p x <;> first | rfl | exact h'.res x

instance {ts : List (T α)} {ps : List (P α)} [h : ErasesL ts ps] : Erases (alt ts) (Imap.alt ps) := ⟨h.res⟩

instance {t : T α} {p : P α} (f : α → Option β) [h : Erases t p] : Erases (mapRes t f) (Imap.mapRes p f) := by
  refine ⟨fun x => ?_⟩
  rw [res_mapRes, h.res]
  unfold Imap.mapRes
  cases p x <;> rfl

instance {t : T α} {p : P α} [h : Erases t p] : Erases (peek t) (Imap.peek p) := by
  refine ⟨fun x => ?_⟩
  rw [res_peek, h.res]
  unfold Imap.peek
  cases p x <;> rfl

instance {t : T α} {p : P α} [h : Erases t p] : Erases (recognize t) (Imap.recognize p) := by
  refine ⟨fun x => ?_⟩
  rw [res_recognize, h.res]
  unfold Imap.recognize
  cases p x <;> rfl

instance {t : T α} {p : P α} [h : Erases t p] : Erases (many0 t) (Imap.many0 p) := by
  refine ⟨fun x => ?_⟩
  induction n : x.length using Nat.strongRecOn generalizing x with
  | _ n ih =>
    subst n
    rw [res_many0, Imap.many0, h.res]
    cases p x with
    | ok r v =>
      simp only
      split
      · rename_i hr
        rw [ih _ hr r rfl]
      · rfl
    | _ => rfl

instance {t : T α} {p : P α} [h : Erases t p] : Erases (many1 t) (Imap.many1 p) := by
  unfold many1 Imap.many1
  infer_instance

instance {t : T α} {p : P α} [h : Erases t p] : Erases (many2 t) (Imap.many2 p) := by
  refine ⟨fun x => ?_⟩
  unfold many2 Imap.many2
  rw [res_mapRes, (inferInstance : Erases (many0 t) (Imap.many0 p)).res]
  cases Imap.many0 p x with
  | ok r v =>
    simp only
    by_cases hv : 2 ≤ v.length <;> simp [hv]
  | _ => rfl

instance {s : T Unit} {q : P Unit} {t : T α} {p : P α} [h' : Erases s q] [h : Erases t p] : Erases (sepList1 s t) (Imap.sepList1 q p) := by
  unfold sepList1 Imap.sepList1
  infer_instance

instance {s : T Unit} {q : P Unit} {t : T α} {p : P α} [h' : Erases s q] [h : Erases t p] : Erases (sepList0 s t) (Imap.sepList0 q p) := by
  refine ⟨fun x => ?_⟩
  unfold sepList0 Imap.sepList0
  rw [res_bind, res_opt, h.res]
  cases p x with
  | ok r v =>
    simp only [Res.andThen]
    rw [res_bind, (inferInstance : Erases (many0 (do s; t)) (Imap.many0 (do q; p))).res]
    rfl
  | _ => rfl

instance {t u : T α} {p q : P α} (c : Prop) [Decidable c] [h : Erases t p] [h' : Erases u q] : Erases (if c then t else u) (if c then p else q) := by
  split
  · exact h
  · exact h'

instance [q : Quirks] : Erases crlf Imap.crlf := by
  unfold crlf Imap.crlf
  infer_instance

end Imap.Timed
