import Verif.NomLemmas
import Verif.Codec
import Mathlib.Tactic.CasesM
set_option maxRecDepth 10000
/-! How long the encoding of what a parser returns is, compared with the bytes that the parser consumed. -/
namespace Imap

/-- The number of bytes written. -/
def len (ws : List W) : Nat := (bytes ws).length

@[simp] theorem len_nil : len [] = 0 := rfl
@[simp] theorem len_wr (bs : Bytes) (ws : List W) : len (.wr bs :: ws) = bs.length + len ws := by simp [len]
@[simp] theorem len_line (ws : List W) : len (.line :: ws) = len ws := by simp [len]
@[simp] theorem len_lit (m : Mode) (ws : List W) : len (.lit m :: ws) = len ws := by simp [len]
@[simp] theorem len_append (xs ys : List W) : len (xs ++ ys) = len xs + len ys := by simp [len]

/-- The sum of the values of a function. -/
def total {α : Type} (c : α → Nat) : List α → Nat
  | [] => 0
  | a :: l => c a + total c l

@[simp] theorem total_nil {α : Type} (c : α → Nat) : total c [] = 0 := rfl
@[simp] theorem total_cons {α : Type} (c : α → Nat) (a : α) (l : List α) : total c (a :: l) = c a + total c l := rfl

@[simp] theorem total_map {α β : Type} (c : β → Nat) (f : α → β) (l : List α) : total c (l.map f) = total (fun a => c (f a)) l := by
  induction l with
  | nil => rfl
  | cons a l ih => simp [ih]

theorem total_append {α : Type} (c : α → Nat) (l l' : List α) : total c (l ++ l') = total c l + total c l' := by
  induction l with
  | nil => simp
  | cons a l ih => simp [ih]; omega

theorem total_mono {α : Type} {c d : α → Nat} (h : ∀ a, c a ≤ d a) (l : List α) : total c l ≤ total d l := by
  induction l with
  | nil => simp
  | cons a l ih => simp only [total_cons]; have := h a; omega

theorem len_flatMap {α : Type} (f : α → List W) (l : List α) : len (l.flatMap f) = total (fun a => len (f a)) l := by
  induction l with
  | nil => rfl
  | cons a l ih => simp [ih]

theorem len_join (sep : Bytes) (l : List (List W)) : len (join sep l) = total len l + sep.length * (l.length - 1) := by
  cases l with
  | nil => simp [join]
  | cons x xs =>
    simp only [join, len_append, len_flatMap, len_wr, total_cons, List.length_cons, Nat.add_sub_cancel]
    have : ∀ l : List (List W), total (fun a => sep.length + len a) l = total len l + sep.length * l.length := by
      intro l
      induction l with
      | nil => simp
      | cons a l ih => simp [ih, Nat.mul_add]; omega
    rw [this]
    omega

variable {α β : Type}

/-- Whenever the parser succeeds, twice the number of bytes that it consumed is at least the size of its result. -/
def Uses (p : P α) (c : α → Nat) : Prop := ∀ x r v, p x = .ok r v → 2 * r.length + c v ≤ 2 * x.length

/-- A parser with a known size of its results. -/
class Cost (p : P α) (c : outParam (α → Nat)) : Prop where
  uses : Uses p c

theorem Uses.mono {p : P α} {c d : α → Nat} (h : Uses p c) (hd : ∀ v, d v ≤ c v) : Uses p d := fun x r v hv => by
  have := h x r v hv
  have := hd v
  omega

theorem Uses.bind {p : P α} {f : α → P β} {c : α → Nat} {d : β → Nat} (h : Uses p c) (hf : ∀ a, Uses (f a) fun b => d b - c a) :
    Uses (p >>= f) d := fun x r v hv => by
  simp only [P.bind_apply, Res.andThen_eq_ok] at hv
  obtain ⟨r', a, h1, h2⟩ := hv
  have := h _ _ _ h1
  have := hf _ _ _ _ h2
  dsimp only at this
  omega

theorem Uses.pure {v : α} {d : α → Nat} (h : d v = 0) : Uses (pure v) d := fun x r w hv => by
  simp only [P.pure_apply, Res.ok.injEq] at hv
  obtain ⟨rfl, rfl⟩ := hv
  omega

theorem Uses.map {p : P α} {f : α → β} {c : α → Nat} {d : β → Nat} (h : Uses p c) (hd : ∀ a, d (f a) ≤ c a) : Uses (f <$> p) d :=
  fun x r v hv => by
    simp only [P.map_apply, Res.andThen_eq_ok, Res.ok.injEq] at hv
    obtain ⟨r', a, h1, rfl, rfl⟩ := hv
    have := h _ _ _ h1
    have := hd a
    omega

theorem Uses.mapRes {p : P α} {f : α → Option β} {c : α → Nat} {d : β → Nat} (h : Uses p c) (hd : ∀ a b, f a = some b → d b ≤ c a) :
    Uses (mapRes p f) d := fun x r v hv => by
  unfold Imap.mapRes at hv
  split at hv
  · rename_i h1
    split at hv
    · rename_i w h2
      cases hv
      have := h _ _ _ h1
      have := hd _ _ h2
      omega
    · cases hv
  all_goals cases hv

theorem Uses.value {p : P α} {v : β} {c : α → Nat} {d : β → Nat} (h : Uses p c) (hd : ∀ a, d v ≤ c a) : Uses (value v p) d :=
  .bind h fun a => .pure (by have := hd a; omega)

theorem Uses.fail {d : α → Nat} {r : Res α} (h : ∀ x v, r ≠ .ok x v) : Uses (fun _ => r) d := fun _ _ _ hv => absurd hv (h _ _)

theorem Uses.gate {b : Bool} {p : P α} {d : α → Nat} (h : Uses p d) : Uses (gate b p) d := fun x r v hv => h _ _ _ (gate_ok hv).2

theorem Uses.alt {l : List (P α)} {d : α → Nat} (h : ∀ p ∈ l, Uses p d) : Uses (alt l) d := by
  induction l with
  | nil => exact fun x r v hv => by cases hv
  | cons p l ih =>
    intro x r v hv
    simp only [Imap.alt, orElse] at hv
    split at hv
    · exact ih (fun p hp => h p (.tail _ hp)) _ _ _ hv
    · exact h p (.head _) _ _ _ hv

theorem Uses.opt {p : P α} {c : α → Nat} (h : Uses p c) : Uses (opt p) fun v => v.elim 0 c := fun x r v hv => by
  unfold Imap.opt at hv
  split at hv
  · rename_i h1; cases hv; exact h _ _ _ h1
  · cases hv; simp
  all_goals cases hv

theorem Uses.many0 {p : P α} {c : α → Nat} (h : Uses p c) : Uses (many0 p : P (List α)) (total c) := by
  intro x
  induction hx : x.length using Nat.strongRecOn generalizing x with
  | ind n ih =>
    intro r v hv
    rw [Imap.many0] at hv
    split at hv
    · rename_i r' a h1
      have := h _ _ _ h1
      split at hv
      · simp only [Res.andThen_eq_ok, Res.ok.injEq] at hv
        obtain ⟨r2, l, h2, rfl, rfl⟩ := hv
        have := ih r'.length (by omega) r' rfl _ _ h2
        simp only [total_cons]
        omega
      · cases hv
    · cases hv; simp [hx]
    all_goals cases hv

theorem Uses.many1 {p : P α} {c : α → Nat} (h : Uses p c) : Uses (many1 p) (total c) :=
  .bind h fun a => .bind (.many0 h) fun l => .pure (by simp only [total_cons]; omega)

theorem Uses.many2 {p : P α} {c : α → Nat} (h : Uses p c) : Uses (many2 p) (total c) := fun x r v hv => by
  unfold Imap.many2 at hv
  split at hv
  · rename_i h1
    split at hv
    · cases hv; exact Uses.many0 h _ _ _ h1
    · cases hv
  · exact Uses.many0 h _ _ _ hv

theorem total_sep {c : α → Nat} (n : Nat) (l : List α) : total (fun a => c a + n) l = total c l + n * l.length := by
  induction l with
  | nil => simp
  | cons a l ih => simp [ih, Nat.mul_add]; omega

theorem Uses.sepList1 {p : P α} {sep : P Unit} {c : α → Nat} {n : Nat} (hs : Uses sep fun _ => n) (h : Uses p c) :
    Uses (sepList1 sep p) fun l => total c l + n * (l.length - 1) := by
  have h2 : Uses (do sep; p) fun a => c a + n := .bind hs fun _ => h.mono fun v => by omega
  exact .bind h fun a => .bind (.many0 h2) fun l => .pure (by
    simp only [total_cons, total_sep, List.length_cons, Nat.add_sub_cancel]
    omega)

theorem Uses.sepList0 {p : P α} {sep : P Unit} {c : α → Nat} {n : Nat} (hs : Uses sep fun _ => n) (h : Uses p c) :
    Uses (sepList0 sep p) fun l => total c l + n * (l.length - 1) := by
  have h2 : Uses (do sep; p) fun a => c a + n := .bind hs fun _ => h.mono fun v => by omega
  intro x r v hv
  unfold Imap.sepList0 at hv
  split at hv
  · rename_i h1
    simp only [Res.andThen_eq_ok, Res.ok.injEq] at hv
    obtain ⟨r2, l, h3, rfl, rfl⟩ := hv
    have := h _ _ _ h1
    have := Uses.many0 h2 _ _ _ h3
    simp only [total_cons, total_sep, List.length_cons, Nat.add_sub_cancel] at this ⊢
    omega
  · cases hv; simp
  all_goals cases hv

theorem Uses.recognize {p : P α} {c : α → Nat} (h : Uses p c) : Uses (recognize p) fun v => 2 * v.length := fun x r v hv => by
  simp only [Imap.recognize, Res.andThen_eq_ok, Res.ok.injEq] at hv
  obtain ⟨r', a, h1, rfl, rfl⟩ := hv
  have := h _ _ _ h1
  simp only [List.length_take]
  omega

/-! ### Instances for the combinators -/

instance (t : Bytes) : Cost (tag t) fun _ => 2 * t.length := ⟨by
  induction t with
  | nil => intro x r v hv; cases hv; simp
  | cons a t ih =>
    intro x r v hv
    cases x with
    | nil => cases hv
    | cons b x =>
      simp only [tag] at hv
      split at hv
      · have := ih _ _ _ hv
        simp only [List.length_cons] at this ⊢
        omega
      · cases hv⟩

instance (t : Bytes) : Cost (tagNC t) fun _ => 2 * t.length := ⟨by
  induction t with
  | nil => intro x r v hv; cases hv; simp
  | cons a t ih =>
    intro x r v hv
    cases x with
    | nil => cases hv
    | cons b x =>
      simp only [tagNC] at hv
      split at hv
      · have := ih _ _ _ hv
        simp only [List.length_cons] at this ⊢
        omega
      · cases hv⟩

instance (c : UInt8) : Cost (char c) fun _ => 2 := ⟨fun x r v hv => by
  cases x with
  | nil => cases hv
  | cons b x =>
    simp only [char] at hv
    split at hv
    · cases hv; simp; omega
    · cases hv⟩

instance : Cost sp fun _ => 2 := inferInstanceAs (Cost (char 32) _)
instance : Cost dquote fun _ => 2 := inferInstanceAs (Cost (char 34) _)

instance (f : UInt8 → Bool) : Cost (takeWhile f) fun v => 2 * v.length := ⟨by
  intro x
  induction x with
  | nil => intro r v hv; cases hv
  | cons b x ih =>
    intro r v hv
    simp only [takeWhile] at hv
    split at hv
    · simp only [Res.andThen_eq_ok, Res.ok.injEq] at hv
      obtain ⟨r', l, h1, rfl, rfl⟩ := hv
      have := ih _ _ h1
      simp only [List.length_cons] at this ⊢
      omega
    · cases hv; simp⟩

instance (f : UInt8 → Bool) : Cost (takeWhile1 f) fun v => 2 * v.length := ⟨fun x r v hv => by
  cases x with
  | nil => cases hv
  | cons b x =>
    simp only [takeWhile1] at hv
    split at hv
    · exact Cost.uses (p := takeWhile f) _ _ _ hv
    · cases hv⟩

instance (f : UInt8 → Bool) : Cost (satisfy f) fun _ => 2 := ⟨fun x r v hv => by
  cases x with
  | nil => cases hv
  | cons b x =>
    simp only [satisfy] at hv
    split at hv
    · cases hv; simp; omega
    · cases hv⟩

instance (f : UInt8 → Bool) (n : Nat) : Cost (takeExactly f n) fun _ => 2 * n := ⟨by
  induction n with
  | zero => intro x r v hv; cases hv; simp
  | succ n ih =>
    intro x r v hv
    cases x with
    | nil => cases hv
    | cons b x =>
      simp only [takeExactly] at hv
      split at hv
      · simp only [Res.andThen_eq_ok, Res.ok.injEq] at hv
        obtain ⟨r', l, h1, rfl, rfl⟩ := hv
        have := ih _ _ _ h1
        simp only [List.length_cons] at this ⊢
        omega
      · cases hv⟩

instance (f : UInt8 → Bool) : Cost (take1or2 f) fun _ => 2 := ⟨fun x r v hv => by
  rcases x with _ | ⟨b, _ | ⟨c, x⟩⟩
  · cases hv
  · simp only [take1or2] at hv
    split at hv <;> cases hv
  · simp only [take1or2] at hv
    split at hv
    · split at hv
      · cases hv; simp; omega
      · cases hv; simp; omega
    · cases hv⟩

instance (f : UInt8 → Bool) : Cost (escaped f) fun v => 2 * v.length := ⟨by
  intro x
  induction x using escaped.induct (normal := f) with
  | _ => intro r v hv; simp_all [escaped, Res.andThen_eq_ok] <;> grind⟩

instance (n : Nat) : Cost (take n) fun v => 2 * v.length := ⟨fun x r v hv => by
  unfold take at hv
  split at hv
  · cases hv
  · cases hv; simp; omega⟩

instance (p : P α) (c : α → Nat) [h : Cost p c] : Cost (opt p) fun v => v.elim 0 c := ⟨.opt h.uses⟩
instance (p : P α) (c : α → Nat) [h : Cost p c] : Cost (many0 p : P (List α)) (total c) := ⟨.many0 h.uses⟩
instance (p : P α) (c : α → Nat) [h : Cost p c] : Cost (many1 p) (total c) := ⟨.many1 h.uses⟩
instance (p : P α) (c : α → Nat) [h : Cost p c] : Cost (many2 p) (total c) := ⟨.many2 h.uses⟩
instance (p : P α) (c : α → Nat) [h : Cost p c] : Cost (sepList0 sp p) fun l => total c l + 2 * (l.length - 1) := ⟨.sepList0 Cost.uses h.uses⟩
instance (p : P α) (c : α → Nat) [h : Cost p c] : Cost (sepList1 sp p) fun l => total c l + 2 * (l.length - 1) := ⟨.sepList1 Cost.uses h.uses⟩
instance (p : P α) (c : α → Nat) [h : Cost p c] (t : Bytes) : Cost (sepList1 (tag t) p) fun l => total c l + (2 * t.length) * (l.length - 1) :=
  ⟨.sepList1 Cost.uses h.uses⟩
/-- A parser after one that returns nothing. -/
instance (s : P Unit) (n : Nat) (p : P α) (c : α → Nat) [hs : Cost s fun _ => n] [h : Cost p c] : Cost (do s; p) fun v => n + c v :=
  ⟨.bind hs.uses fun _ => h.uses.mono fun v => by omega⟩
/-- A parser before one that returns nothing. -/
instance (s : P Unit) (n : Nat) (p : P α) (c : α → Nat) [hs : Cost s fun _ => n] [h : Cost p c] : Cost (do let v ← p; s; return v) fun v => c v + n :=
  ⟨.bind h.uses fun a => .bind hs.uses fun _ => .pure (by simp)⟩
instance [q : Quirks] : Cost crlf fun _ => 2 := ⟨by
  unfold crlf
  split
  · exact .bind Cost.uses fun _ => Cost.uses.mono fun v => by omega
  · exact Uses.mono Cost.uses fun v => by simp⟩

theorem Uses.altNil {d : α → Nat} : Uses (Imap.alt []) d := fun _ _ _ hv => by cases hv
theorem Uses.altCons {p : P α} {l : List (P α)} {d : α → Nat} (h : Uses p d) (hl : Uses (Imap.alt l) d) : Uses (Imap.alt (p :: l)) d :=
  fun x r v hv => by
    simp only [Imap.alt, orElse] at hv
    split at hv
    · exact hl _ _ _ hv
    · exact h _ _ _ hv
theorem Uses.failure {d : α → Nat} {k : Fail} : Uses (fun _ => .failure k) d := fun _ _ _ hv => by cases hv

/-- Reduce a statement about a parser to inequalities. -/
macro "uses" : tactic => `(tactic|
  repeat' first
    | exact Uses.altNil
    | exact Uses.failure
    | refine Uses.mono Cost.uses fun _ => ?_
    | with_reducible refine Uses.altCons ?_ ?_
    | with_reducible refine Uses.gate ?_
    | refine Uses.value Cost.uses fun _ => ?_
    | refine Uses.map Cost.uses fun _ => ?_
    | refine Uses.bind Cost.uses fun _ => ?_
    | with_reducible refine Uses.pure ?_
    | refine Uses.mapRes Cost.uses fun _ _ _ => ?_)

theorem total_mul {c : α → Nat} (n : Nat) (l : List α) : total (fun a => n * c a) l = n * total c l := by
  induction l with
  | nil => simp
  | cons a l ih => simp [ih, Nat.mul_add]

theorem total_const (n : Nat) (l : List α) : total (fun _ => n) l = n * l.length := by
  induction l with
  | nil => simp
  | cons a l ih => simp [ih, Nat.mul_add]; omega

/-- Reduce a statement about a parser to inequalities, and solve those. -/
macro "sizes" "[" ls:Lean.Parser.Tactic.simpLemma,* "]" : tactic => `(tactic| (
  uses
  all_goals (try (casesm* Option _, _ × _))
  all_goals (try (simp [len_join, len_flatMap, total_sep, total_mul, total_const, $ls,*]))
  all_goals (try omega)))

end Imap
