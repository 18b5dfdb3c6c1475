import Verif.GrammarSpec
import Verif.Props.Dates
import Verif.Props.Strings
import Verif.Props.Base64
import Verif.Props.Names
/-
Parsers and grammars. `Fits p g S` says that the parser `p` accepts the texts of the grammar `g`, with their values, and no others, where
completeness is needed for texts that are followed by one of the bytes `S` only.
-/
set_option maxRecDepth 10000

namespace Imap.Gr

open Imap.Grammar (G Star choice onlyIf optD sepBy1 sepBy0 such token octets named lit is plus)

variable {α β γ : Type}

/-! ### Bytes and keywords -/

/-- The input starts with one of the bytes. -/
def Starts (S : List UInt8) (r : Bytes) : Prop := ∃ b r', r = b :: r' ∧ b ∈ S

/-- The input starts with the keyword, in any letter case. -/
def Begins (k x : Bytes) : Prop := ∃ k' x', x = k' ++ x' ∧ lowerAll k' = lowerAll k

/-- There is a mismatch between the keyword and the input before either of them ends. -/
def diverges : Bytes → Bytes → Bool
  | k :: ks, b :: bs => if lower k = lower b then diverges ks bs else true
  | _, _ => false

/-- The keywords start with one of the bytes. -/
def headsIn (S : List UInt8) (B : List Bytes) : Bool :=
  B.all fun
    | [] => false
    | c :: _ => S.contains (lower c) && S.contains (upper c)

/-- Each of the first keywords diverges from each of the second ones. -/
def apart (E B : List Bytes) : Bool := E.all fun e => B.all fun b => diverges e b

theorem lower_cases : ∀ b, b = lower b ∨ b = upper (lower b) := forall_byte (by decide)

theorem lower_eq {b c : UInt8} (h : lower b = lower c) : b = lower c ∨ b = upper c := by
  rcases lower_cases b with e | e
  · left; rw [← h]; exact e
  · right; rw [← upper_lower c, ← h]; exact e

theorem diverges_append {k x : Bytes} (y : Bytes) (h : diverges k x = true) : diverges k (x ++ y) = true := by
  induction k generalizing x with
  | nil => simp [diverges] at h
  | cons k ks ih =>
    cases x with
    | nil => simp [diverges] at h
    | cons b bs =>
      simp only [diverges, List.cons_append] at h ⊢
      split
      · next e => rw [if_pos e] at h; exact ih h
      · rfl

theorem diverges_lower {k b b' : Bytes} (h : lowerAll b = lowerAll b') : diverges k b = diverges k b' := by
  induction k generalizing b b' with
  | nil => simp [diverges]
  | cons k ks ih =>
    cases b <;> cases b' <;> simp [lowerAll] at h
    · rfl
    · next x xs y ys =>
      simp only [diverges, h.1]
      rw [ih (b := xs) (b' := ys) h.2]

theorem diverges_of_begins {k b x : Bytes} (h : Begins b x) (hd : diverges k b = true) : diverges k x = true := by
  obtain ⟨k', x', rfl, e⟩ := h
  exact diverges_append _ (by rw [diverges_lower e, hd])

theorem starts_of_begins {S : List UInt8} {B : List Bytes} {k x : Bytes} (hB : headsIn S B = true) (hk : k ∈ B) (h : Begins k x) :
    Starts S x := by
  obtain ⟨k', x', rfl, e⟩ := h
  have := List.all_eq_true.1 hB k hk
  cases k with
  | nil => simp at this
  | cons c k =>
    cases k' with
    | nil => simp [lowerAll] at e
    | cons b k' =>
      simp [lowerAll] at e
      simp only [Bool.and_eq_true, List.contains_iff_mem] at this
      rcases lower_eq e.1 with rfl | rfl
      · exact ⟨_, _, rfl, this.1⟩
      · exact ⟨_, _, rfl, this.2⟩

theorem Begins.append {k x : Bytes} (h : Begins k x) (y : Bytes) : Begins k (x ++ y) := by
  obtain ⟨k', x', rfl, e⟩ := h
  exact ⟨k', x' ++ y, by simp, e⟩

theorem Begins.cons {k x k' : Bytes} (h : Begins k x) {w : Bytes} (hw : lowerAll w = lowerAll k') : Begins (k' ++ k) (w ++ x) := by
  obtain ⟨k1, x', rfl, e⟩ := h
  refine ⟨w ++ k1, x', by simp, ?_⟩
  simp only [lowerAll, List.map_append] at *
  rw [hw, e]

theorem tagNC_diverges {k x : Bytes} (h : diverges k x = true) : tagNC k x = .error := by
  induction k generalizing x with
  | nil => simp [diverges] at h
  | cons k ks ih =>
    cases x with
    | nil => simp [diverges] at h
    | cons b bs =>
      simp only [diverges] at h
      simp only [tagNC]
      split
      · next e => rw [if_pos e] at h; exact ih h
      · rfl

theorem tag_diverges {k x : Bytes} (h : diverges k x = true) : tag k x = .error := by
  induction k generalizing x with
  | nil => simp [diverges] at h
  | cons k ks ih =>
    cases x with
    | nil => simp [diverges] at h
    | cons b bs =>
      simp only [diverges] at h
      simp only [tag]
      split
      · next e => subst e; simp at h; exact ih h
      · rfl

theorem tagNC_ok {k w : Bytes} (h : lowerAll w = lowerAll k) (r : Bytes) : tagNC k (w ++ r) = .ok r () := by
  induction k generalizing w with
  | nil => cases w <;> simp [lowerAll] at h; rfl
  | cons k ks ih =>
    cases w <;> simp [lowerAll] at h
    simp only [tagNC, List.cons_append, h.1, if_true]
    exact ih h.2

theorem exists_of_tagNC' {k x r : Bytes} {v : Unit} (h : tagNC k x = .ok r v) : ∃ w, x = w ++ r ∧ lowerAll w = lowerAll k := by
  induction k generalizing x with
  | nil => simp [tagNC] at h; exact ⟨[], by simp [h], rfl⟩
  | cons k ks ih =>
    cases x with
    | nil => simp [tagNC] at h
    | cons b bs =>
      simp only [tagNC] at h
      split at h
      · next e =>
        obtain ⟨w, rfl, hw⟩ := ih h
        refine ⟨b :: w, rfl, ?_⟩
        simp only [lowerAll, List.map_cons] at hw ⊢
        rw [hw, e]
      · simp at h

/-- If the input differs from `k ++ e` then it differs from `k`, or it starts with `k` and the rest differs from `e`. -/
theorem diverges_split {k e x : Bytes} (h : diverges (k ++ e) x = true) :
    diverges k x = true ∨ ∃ r, tagNC k x = .ok r () ∧ diverges e r = true := by
  induction k generalizing x with
  | nil => exact .inr ⟨x, rfl, h⟩
  | cons k ks ih =>
    cases x with
    | nil => simp [diverges] at h
    | cons b bs =>
      simp only [diverges, List.cons_append, tagNC] at h ⊢
      split
      · next e => rw [if_pos e] at h; simpa [e] using ih h
      · simp

/-! ### Monads -/

instance : LawfulMonad P := LawfulMonad.mk' (m := P)
  (id_map := fun p => by funext x; simp only [P.map_apply]; cases p x <;> rfl)
  (pure_bind := fun _ _ => rfl)
  (bind_assoc := fun p f g => by funext x; simp only [P.bind_apply]; cases p x <;> rfl)
  (bind_pure_comp := fun _ _ => rfl)

instance : LawfulMonad G := LawfulMonad.mk' (m := G)
  (id_map := fun g => by
    funext w v
    refine propext ⟨?_, fun h => ⟨v, h, rfl⟩⟩
    rintro ⟨a, h, rfl⟩
    exact h)
  (pure_bind := fun a f => by
    funext w v
    refine propext ⟨?_, fun h => ⟨[], w, a, rfl, ⟨rfl, rfl⟩, h⟩⟩
    rintro ⟨w1, w2, a', rfl, ⟨rfl, rfl⟩, h⟩
    exact h)
  (bind_assoc := fun g f k => by
    funext w v
    refine propext ⟨?_, ?_⟩
    · rintro ⟨w1, w2, b, rfl, ⟨w3, w4, a, rfl, h1, h2⟩, h3⟩
      exact ⟨w3, w4 ++ w2, a, by simp, h1, w4, w2, b, rfl, h2, h3⟩
    · rintro ⟨w1, w2, a, rfl, h1, w3, w4, b, rfl, h2, h3⟩
      exact ⟨w1 ++ w3, w4, b, by simp, ⟨w1, w3, a, rfl, h1, h2⟩, h3⟩)
  (bind_pure_comp := fun f g => by
    funext w v
    refine propext ⟨?_, ?_⟩
    · rintro ⟨w1, w2, a, rfl, h, rfl, rfl⟩
      exact ⟨a, by simpa using h, rfl⟩
    · rintro ⟨a, h, rfl⟩
      exact ⟨w, [], a, by simp, h, rfl, rfl⟩)

/-! ### Fitting -/

/-- See the top of this file. -/
structure Fits (p : P α) (g : G α) (S : List UInt8) : Prop where
  sound : ∀ {x r v}, p x = .ok r v → ∃ w, x = w ++ r ∧ g w v
  complete : ∀ {w v r}, g w v → Starts S r → p (w ++ r) = .ok r v

theorem Starts.mono {S S' : List UInt8} {r : Bytes} (hS : ∀ b ∈ S', b ∈ S) (h : Starts S' r) : Starts S r := by
  obtain ⟨b, r', rfl, hb⟩ := h
  exact ⟨b, r', rfl, hS b hb⟩

theorem Fits.mono {p : P α} {g : G α} {S S' : List UInt8} (h : Fits p g S) (hS : ∀ b ∈ S', b ∈ S) : Fits p g S' :=
  ⟨h.sound, fun hg hr => h.complete hg (hr.mono hS)⟩

/-- What the texts of `g` begin with. -/
class Begs0 (g : G α) (B : outParam (List Bytes)) : Prop where
  out : ∀ {w v}, g w v → ∃ k ∈ B, Begins k w

/-- What the texts of `g`, followed by one of the bytes `S`, begin with. -/
class Begs (g : G α) (S : List UInt8) (B : outParam (List Bytes)) : Prop where
  out : ∀ {w v r}, g w v → Starts S r → ∃ k ∈ B, Begins k (w ++ r)

/-- The parser `p` rejects what differs from all of the keywords. -/
class Errs (p : P α) (E : outParam (List Bytes)) : Prop where
  ne : E ≠ []
  out : ∀ {x}, (∀ k ∈ E, diverges k x = true) → p x = .error

theorem Begs.starts {g : G α} {S S' : List UInt8} {B : List Bytes} (h : Begs g S B) (hB : headsIn S' B = true) {w r : Bytes} {v : α}
    (hg : g w v) (hr : Starts S r) : Starts S' (w ++ r) := by
  obtain ⟨k, hk, hb⟩ := h.out hg hr
  exact starts_of_begins hB hk hb

theorem Errs.of_begs {p : P α} {g : G β} {S : List UInt8} {E B : List Bytes} (hp : Errs p E) (h : Begs g S B) (hEB : apart E B = true)
    {w r : Bytes} {v : β} (hg : g w v) (hr : Starts S r) : p (w ++ r) = .error := by
  obtain ⟨k, hk, hb⟩ := h.out hg hr
  exact hp.out fun e he => diverges_of_begins hb (List.all_eq_true.1 (List.all_eq_true.1 hEB e he) k hk)

/-! ### What texts begin with -/

section Begs0

instance Begs0.is (k : Bytes) (a : α) : Begs0 (is k a) [k] := ⟨by
  rintro w v ⟨h, -⟩
  exact ⟨k, by simp, w, [], by simp, h⟩⟩

instance Begs0.lit (k : Bytes) : Begs0 (lit k) [k] := ⟨by
  intro w v h
  exact ⟨k, by simp, w, [], by simp, h⟩⟩

instance (priority := 900) Begs0.bind (g : G α) (f : α → G β) {B : List Bytes} [h : Begs0 g B] : Begs0 (g >>= f) B := ⟨by
  rintro w v ⟨w1, w2, a, rfl, h1, -⟩
  obtain ⟨k, hk, hb⟩ := h.out h1
  exact ⟨k, hk, hb.append _⟩⟩

instance Begs0.map (f : α → β) (g : G α) {B : List Bytes} [h : Begs0 g B] : Begs0 (f <$> g) B := ⟨by
  rintro w v ⟨a, ha, -⟩
  exact h.out ha⟩

instance Begs0.such (g : G α) (p : α → Prop) {B : List Bytes} [h : Begs0 g B] : Begs0 (such g p) B := ⟨by
  rintro w v ⟨ha, -⟩
  exact h.out ha⟩

instance Begs0.onlyIf (b : Bool) (g : G α) {B : List Bytes} [h : Begs0 g B] : Begs0 (onlyIf b g) B := ⟨by
  rintro w v ⟨-, ha⟩
  exact h.out ha⟩

instance Begs0.sepBy1 (s : G Unit) (g : G α) {B : List Bytes} [h : Begs0 g B] : Begs0 (sepBy1 s g) B := Begs0.bind _ _

instance Begs0.plus (g : G α) {B : List Bytes} [h : Begs0 g B] : Begs0 (plus g) B := Begs0.bind _ _

instance Begs0.choice_nil : Begs0 (choice ([] : List (G α))) [] := ⟨by rintro w v ⟨g, hg, -⟩; simp at hg⟩

instance Begs0.choice_cons (g : G α) (gs : List (G α)) {B B' : List Bytes} [h : Begs0 g B] [h' : Begs0 (choice gs) B'] :
    Begs0 (choice (g :: gs)) (B ++ B') := ⟨by
  rintro w v ⟨g', hg, hw⟩
  rcases List.mem_cons.1 hg with rfl | hg
  · obtain ⟨k, hk, hb⟩ := h.out hw
    exact ⟨k, by simp [hk], hb⟩
  · obtain ⟨k, hk, hb⟩ := h'.out ⟨g', hg, hw⟩
    exact ⟨k, by simp [hk], hb⟩⟩

/-- A more precise variant. -/
theorem Begs0.lit_bind (k : Bytes) (f : Unit → G β) {B : List Bytes} [h : Begs0 (f ()) B] :
    Begs0 (Grammar.lit k >>= f) (B.map fun e => k ++ e) := ⟨by
  rintro w v ⟨w1, w2, a, rfl, h1, h2⟩
  obtain ⟨e, he, hb⟩ := h.out h2
  exact ⟨k ++ e, List.mem_map.2 ⟨e, he, rfl⟩, hb.cons h1⟩⟩

instance (priority := 1100) Begs0.sp_bind (f : Unit → G β) {B : List Bytes} [h : Begs0 (f ()) B] :
    Begs0 (Grammar.sp >>= f) (B.map fun e => b!" " ++ e) := Begs0.lit_bind _ f

instance Begs0.sp : Begs0 Grammar.sp [b!" "] := Begs0.lit _

instance Begs0.parens (g : G α) : Begs0 (Grammar.parens g) [b!"("] := by unfold Grammar.parens; infer_instance

theorem Begs0.mono {g : G α} {B B' : List Bytes} (h : Begs0 g B) (hB : ∀ b ∈ B, b ∈ B') : Begs0 g B' :=
  ⟨fun hg => let ⟨k, hk, hb⟩ := h.out hg; ⟨k, hB k hk, hb⟩⟩

end Begs0

section Begs

variable {S : List UInt8}

theorem Begs.of (g : G α) {B : List Bytes} (h : Begs0 g B) : Begs g S B := ⟨fun hg _ =>
  let ⟨k, hk, hb⟩ := h.out hg
  ⟨k, hk, hb.append _⟩⟩

instance (priority := 800) Begs.of' (g : G α) {B : List Bytes} [h : Begs0 g B] : Begs g S B := Begs.of g h

instance Begs.pure (a : α) : Begs (pure a : G α) S (S.map fun b => [b]) := ⟨by
  rintro w v r ⟨rfl, rfl⟩ ⟨b, r', rfl, hb⟩
  exact ⟨[b], List.mem_map.2 ⟨b, hb, rfl⟩, [b], r', rfl, rfl⟩⟩

instance Begs.is (k : Bytes) (a : α) : Begs (is k a) S (S.map fun b => k ++ [b]) := ⟨by
  rintro w v r ⟨h, -⟩ ⟨b, r', rfl, hb⟩
  refine ⟨k ++ [b], List.mem_map.2 ⟨b, hb, rfl⟩, w ++ [b], r', by simp, ?_⟩
  simp only [lowerAll, List.map_append] at *
  rw [h]⟩

/-- A more precise variant. -/
theorem Begs.lit_bind (k : Bytes) (f : Unit → G β) {B : List Bytes} [h : Begs (f ()) S B] :
    Begs (Grammar.lit k >>= f) S (B.map fun e => k ++ e) := ⟨by
  rintro w v r ⟨w1, w2, a, rfl, h1, h2⟩ hr
  obtain ⟨e, he, hb⟩ := h.out h2 hr
  exact ⟨k ++ e, List.mem_map.2 ⟨e, he, rfl⟩, by rw [List.append_assoc]; exact hb.cons h1⟩⟩

instance (priority := 1100) Begs.sp_bind (f : Unit → G β) {B : List Bytes} [h : Begs (f ()) S B] :
    Begs (Grammar.sp >>= f) S (B.map fun e => b!" " ++ e) := Begs.lit_bind _ f

instance Begs.map (f : α → β) (g : G α) {B : List Bytes} [h : Begs g S B] : Begs (f <$> g) S B := ⟨by
  rintro w v r ⟨a, ha, -⟩ hr
  exact h.out ha hr⟩

instance Begs.onlyIf (b : Bool) (g : G α) {B : List Bytes} [h : Begs g S B] : Begs (onlyIf b g) S B := ⟨by
  rintro w v r ⟨-, ha⟩ hr
  exact h.out ha hr⟩

instance Begs.choice_nil : Begs (choice ([] : List (G α))) S [] := ⟨by rintro w v r ⟨g, hg, -⟩; simp at hg⟩

instance Begs.choice_cons (g : G α) (gs : List (G α)) {B B' : List Bytes} [h : Begs g S B] [h' : Begs (choice gs) S B'] :
    Begs (choice (g :: gs)) S (B ++ B') := ⟨by
  rintro w v r ⟨g', hg, hw⟩ hr
  rcases List.mem_cons.1 hg with rfl | hg
  · obtain ⟨k, hk, hb⟩ := h.out hw hr
    exact ⟨k, by simp [hk], hb⟩
  · obtain ⟨k, hk, hb⟩ := h'.out ⟨g', hg, hw⟩ hr
    exact ⟨k, by simp [hk], hb⟩⟩

instance Begs.opt_bind (g : G α) (f : Option α → G β) {B B' : List Bytes} [h : Begs0 g B] [h' : Begs (f none) S B'] :
    Begs (Grammar.opt g >>= f) S (B ++ B') := ⟨by
  rintro w v r ⟨w1, w2, a, rfl, h1, h2⟩ hr
  rcases h1 with ⟨rfl, rfl⟩ | ⟨a, h1, rfl⟩
  · obtain ⟨k, hk, hb⟩ := h'.out h2 hr
    exact ⟨k, by simp [hk], hb⟩
  · obtain ⟨k, hk, hb⟩ := h.out h1
    exact ⟨k, by simp [hk], by rw [List.append_assoc]; exact hb.append _⟩⟩

instance Begs.optD_bind (d : α) (g : G α) (f : α → G β) {B B' : List Bytes} [h : Begs0 g B] [h' : Begs (f d) S B'] :
    Begs (optD d g >>= f) S (B ++ B') := ⟨by
  rintro w v r ⟨w1, w2, a, rfl, h1, h2⟩ hr
  rcases h1 with ⟨rfl, rfl⟩ | h1
  · obtain ⟨k, hk, hb⟩ := h'.out h2 hr
    exact ⟨k, by simp [hk], hb⟩
  · obtain ⟨k, hk, hb⟩ := h.out h1
    exact ⟨k, by simp [hk], by rw [List.append_assoc]; exact hb.append _⟩⟩

/-- A more precise variant for what has a prefix. -/
instance (priority := 1100) Begs.optD_is_bind (d a : α) (k : Bytes) (f : α → G β) {B B' : List Bytes} [h : Begs (f a) S B]
    [h' : Begs (f d) S B'] : Begs (optD d (Grammar.is k a) >>= f) S ((B.map fun e => k ++ e) ++ B') := ⟨by
  rintro w v r ⟨w1, w2, a, rfl, h1, h2⟩ hr
  rcases h1 with ⟨rfl, rfl⟩ | ⟨h1, rfl⟩
  · obtain ⟨k, hk, hb⟩ := h'.out h2 hr
    exact ⟨k, by simp [hk], hb⟩
  · obtain ⟨e, he, hb⟩ := h.out h2 hr
    exact ⟨k ++ e, List.mem_append_left _ (List.mem_map.2 ⟨e, he, rfl⟩), by rw [List.append_assoc]; exact hb.cons h1⟩⟩

/-- A more precise variant for a space. -/
instance (priority := 1100) Begs.optD_sp_bind (f : Unit → G β) {B : List Bytes} [h : Begs (f ()) S B] :
    Begs (optD () Grammar.sp >>= f) S ((B.map fun e => b!" " ++ e) ++ B) := ⟨by
  rintro w v r ⟨w1, w2, a, rfl, h1, h2⟩ hr
  obtain ⟨e, he, hb⟩ := h.out h2 hr
  rcases h1 with ⟨rfl, rfl⟩ | h1
  · exact ⟨e, by simp [he], hb⟩
  · exact ⟨b!" " ++ e, List.mem_append_left _ (List.mem_map.2 ⟨e, he, rfl⟩), by rw [List.append_assoc]; exact hb.cons h1⟩⟩

instance Begs.star_bind (g : G α) (f : List α → G β) {B B' : List Bytes} [h : Begs0 g B] [h' : ∀ l, Begs (f l) S B'] :
    Begs (Star g >>= f) S (B ++ B') := ⟨by
  rintro w v r ⟨w1, w2, a, rfl, h1, h2⟩ hr
  cases h1 with
  | nil =>
    obtain ⟨k, hk, hb⟩ := (h' _).out h2 hr
    exact ⟨k, by simp [hk], hb⟩
  | cons h1 t =>
    obtain ⟨k, hk, hb⟩ := h.out h1
    exact ⟨k, by simp [hk], by simpa only [List.append_assoc] using hb.append _⟩⟩

instance Begs.sepBy0_bind (s : G Unit) (g : G α) (f : List α → G β) {B B' : List Bytes} [h : Begs0 g B] [h' : Begs (f []) S B'] :
    Begs (sepBy0 s g >>= f) S (B ++ B') := Begs.optD_bind _ _ f

end Begs

/-! ### What parsers reject -/

section Errs

instance Errs.tagNC {k : Bytes} : Errs (tagNC k) [k] := ⟨by simp, fun h => tagNC_diverges (h _ (by simp))⟩
instance Errs.tag {k : Bytes} : Errs (tag k) [k] := ⟨by simp, fun h => tag_diverges (h _ (by simp))⟩

theorem char_eq (c : UInt8) : char c = Imap.tag [c] := by
  funext x
  cases x with
  | nil => rfl
  | cons b x => simp only [char, Imap.tag]; split <;> split <;> simp_all

instance Errs.char {c : UInt8} : Errs (char c) [[c]] := by rw [char_eq]; infer_instance
instance Errs.sp : Errs sp [b!" "] := Errs.char
instance Errs.dquote : Errs dquote [b!"\""] := Errs.char

instance (priority := 900) Errs.bind (p : P α) (f : α → P β) {E : List Bytes} [h : Errs p E] : Errs (p >>= f) E :=
  ⟨h.ne, fun hx => by rw [P.bind_apply, h.out hx]; rfl⟩

instance Errs.map (f : α → β) (p : P α) {E : List Bytes} [h : Errs p E] : Errs (f <$> p) E :=
  ⟨h.ne, fun hx => by rw [P.map_apply, h.out hx]; rfl⟩

instance Errs.value (a : β) (p : P α) {E : List Bytes} [h : Errs p E] : Errs (value a p) E := Errs.bind p _

instance Errs.mapRes (f : α → Option β) (p : P α) {E : List Bytes} [h : Errs p E] : Errs (mapRes p f) E :=
  ⟨h.ne, fun hx => by rw [Imap.mapRes, h.out hx]⟩

instance Errs.many1 (p : P α) {E : List Bytes} [h : Errs p E] : Errs (many1 p) E := Errs.bind p _

instance Errs.sepList1 (s : P Unit) (p : P α) {E : List Bytes} [h : Errs p E] : Errs (sepList1 s p) E := Errs.bind p _

instance Errs.gate (b : Bool) (p : P α) {E : List Bytes} [h : Errs p E] : Errs (gate b p) E :=
  ⟨h.ne, fun hx => gate_error (h.out hx)⟩

instance Errs.alt_one (p : P α) {E : List Bytes} [h : Errs p E] : Errs (alt [p]) E :=
  ⟨h.ne, fun hx => by rw [alt_cons, orElse_error (h.out hx)]; rfl⟩

instance Errs.alt_cons (p q : P α) (ps : List (P α)) {E E' : List Bytes} [h : Errs p E] [h' : Errs (alt (q :: ps)) E'] :
    Errs (alt (p :: q :: ps)) (E ++ E') :=
  ⟨by simp [h.ne], fun hx => by
    rw [Imap.alt_cons, orElse_error (h.out fun k hk => hx k (by simp [hk]))]
    exact h'.out fun k hk => hx k (by simp [hk])⟩

/-- A more precise variant. -/
theorem Errs.tagNC_bind (k : Bytes) (f : Unit → P β) {E : List Bytes} [h : Errs (f ()) E] :
    Errs (Imap.tagNC k >>= f) (E.map fun e => k ++ e) := ⟨by simp [h.ne], by
  intro x hx
  by_cases hk : diverges k x = true
  · rw [P.bind_apply, tagNC_diverges hk]; rfl
  · obtain ⟨e, he⟩ := List.exists_mem_of_ne_nil _ h.ne
    rcases diverges_split (hx (k ++ e) (List.mem_map.2 ⟨e, he, rfl⟩)) with h1 | ⟨r, h1, h2⟩
    · exact absurd h1 hk
    · rw [P.bind_apply, h1, Res.andThen_ok]
      refine h.out fun e' he' => ?_
      rcases diverges_split (hx (k ++ e') (List.mem_map.2 ⟨e', he', rfl⟩)) with h3 | ⟨r', h3, h4⟩
      · exact absurd h3 hk
      · rw [h1] at h3
        cases h3
        exact h4⟩

/-- There are no letters. -/
def symbols (k : Bytes) : Bool := k.all fun b => lower b == b && upper b == b

theorem lower_symbol {b c : UInt8} (h1 : lower b = b) (h2 : upper b = b) : b = c ↔ lower b = lower c := by
  constructor
  · rintro rfl; rfl
  · intro h
    rcases lower_eq h.symm with e | e
    · rw [e, h1]
    · rw [e, h2]

theorem tag_symbols {k : Bytes} (h : symbols k = true) : Imap.tag k = Imap.tagNC k := by
  funext x
  induction k generalizing x with
  | nil => rfl
  | cons b k ih =>
    simp only [symbols, List.all_cons, Bool.and_eq_true, beq_iff_eq] at h
    cases x with
    | nil => rfl
    | cons c x =>
      simp only [Imap.tag, Imap.tagNC]
      have := lower_symbol (c := c) h.1.1 h.1.2
      by_cases e : b = c
      · rw [if_pos e, if_pos (by rw [e])]
        exact ih (by simpa [symbols] using h.2) x
      · rw [if_neg e, if_neg fun e' => e (this.2 (by first | exact e' | exact e'.symm))]

theorem sp_eq : sp = Imap.tagNC b!" " := by rw [sp, char_eq, tag_symbols (by decide)]

instance (priority := 1100) Errs.sp_bind (f : Unit → P β) {E : List Bytes} [h : Errs (f ()) E] :
    Errs (Imap.sp >>= f) (E.map fun e => b!" " ++ e) := by rw [sp_eq]; exact Errs.tagNC_bind _ _

/-- What has a prefix. -/
instance (priority := 1100) Errs.opt_tagNC_bind (k : Bytes) (f : Option Unit → P β) {E E' : List Bytes} [h : Errs (f (some ())) E]
    [h' : Errs (f none) E'] : Errs (opt (Imap.tagNC k) >>= f) ((E.map fun e => k ++ e) ++ E') := ⟨by simp [h.ne], by
  intro x hx
  by_cases hk : diverges k x = true
  · rw [P.bind_apply, opt_error (tagNC_diverges hk), Res.andThen_ok]
    exact h'.out fun e he => hx e (List.mem_append_right _ he)
  · obtain ⟨e, he⟩ := List.exists_mem_of_ne_nil _ h.ne
    rcases diverges_split (hx (k ++ e) (List.mem_append_left _ (List.mem_map.2 ⟨e, he, rfl⟩))) with h1 | ⟨r, h1, h2⟩
    · exact absurd h1 hk
    · rw [P.bind_apply, opt_ok h1, Res.andThen_ok]
      refine h.out fun e' he' => ?_
      rcases diverges_split (hx (k ++ e') (List.mem_append_left _ (List.mem_map.2 ⟨e', he', rfl⟩))) with h3 | ⟨r', h3, h4⟩
      · exact absurd h3 hk
      · rw [h1] at h3
        cases h3
        exact h4⟩

theorem Errs.mono {p : P α} {E E' : List Bytes} (h : Errs p E) (hE : ∀ b ∈ E, b ∈ E') : Errs p E' :=
  ⟨fun e => h.ne (List.eq_nil_iff_forall_not_mem.2 fun b hb => by simpa [e] using hE b hb), fun hx => h.out fun k hk => hx k (hE k hk)⟩

end Errs

/-! ### Rules -/

section Rules

variable {S S1 : List UInt8} {B B' E : List Bytes}

theorem Fits.congr {p p' : P α} {g g' : G α} (h : Fits p g S) (hp : p' = p) (hg : g' = g) : Fits p' g' S := by rw [hp, hg]; exact h

theorem Fits.iff {p : P α} {g g' : G α} (h : Fits p g S) (hg : ∀ w v, g' w v ↔ g w v) : Fits p g' S :=
  h.congr rfl (by funext w v; exact propext (hg w v))

theorem Fits.pure {a b : α} (h : a = b := by rfl) : Fits (pure a) (pure b) S := ⟨by
  intro x r v e
  cases e
  exact ⟨[], rfl, rfl, h⟩, by
  rintro w v r ⟨rfl, rfl⟩ -
  rw [h]; rfl⟩

theorem Fits.bind {p : P α} {g : G α} {f : α → P β} {k : α → G β} (hp : Fits p g S1) (hf : ∀ a, Fits (f a) (k a) S)
    [hk : ∀ a, Begs (k a) S B] (hB : headsIn S1 B = true) : Fits (p >>= f) (g >>= k) S := ⟨by
  intro x r v e
  obtain ⟨i, a, e1, e2⟩ := Res.andThen_eq_ok.1 e
  obtain ⟨w1, rfl, h1⟩ := hp.sound e1
  obtain ⟨w2, rfl, h2⟩ := (hf a).sound e2
  exact ⟨w1 ++ w2, by simp, w1, w2, a, rfl, h1, h2⟩, by
  rintro w v r ⟨w1, w2, a, rfl, h1, h2⟩ hr
  rw [List.append_assoc, P.bind_apply, hp.complete h1 ((hk a).starts hB h2 hr), Res.andThen_ok]
  exact (hf a).complete h2 hr⟩

theorem Fits.map {p : P α} {g : G α} {f : α → β} (hp : Fits p g S) : Fits (f <$> p) (f <$> g) S := ⟨by
  intro x r v e
  obtain ⟨i, a, e1, e2⟩ := Res.andThen_eq_ok.1 e
  cases e2
  obtain ⟨w1, rfl, h1⟩ := hp.sound e1
  exact ⟨w1, rfl, a, h1, rfl⟩, by
  rintro w v r ⟨a, h, rfl⟩ hr
  rw [P.map_apply, hp.complete h hr]; rfl⟩

/-- The parser accepts one keyword. -/
class Word (p : P Unit) (k : outParam Bytes) : Prop where
  out : p = tagNC k

instance {k : Bytes} : Word (tagNC k) k := ⟨rfl⟩
instance : Word sp b!" " := ⟨sp_eq⟩

theorem word_tag {k : Bytes} (h : symbols k = true) : Word (tag k) k := ⟨tag_symbols h⟩

theorem Fits.lit {p : P Unit} {k k' : Bytes} (hp : Word p k) (hk : k' = k := by rfl) : Fits p (lit k') S := by
  subst hk
  obtain rfl := hp.out
  refine ⟨fun e => exists_of_tagNC' e, fun h _ => tagNC_ok h _⟩

theorem Fits.is {p : P Unit} {k k' : Bytes} {a : α} (hp : Word p k) (hk : k' = k := by rfl) : Fits (value a p) (is k' a) S := by
  subst hk
  obtain rfl := hp.out
  refine ⟨?_, ?_⟩
  · intro x r v e
    obtain ⟨i, u, e1, e2⟩ := Res.andThen_eq_ok.1 e
    cases e2
    obtain ⟨w, rfl, h⟩ := exists_of_tagNC' e1
    exact ⟨w, rfl, h, rfl⟩
  · rintro w v r ⟨h, rfl⟩ -
    rw [value, P.bind_apply, tagNC_ok h]; rfl

theorem Fits.word {p : P Unit} {k k' : Bytes} {f : Unit → P β} {h : Unit → G β} (hp : Word p k) (hf : Fits (f ()) (h ()) S)
    (hk : k' = k := by rfl) : Fits (p >>= f) (Grammar.lit k' >>= h) S := by
  have hl : ∀ S, Fits p (Grammar.lit k') S := fun S => Fits.lit hp hk
  refine ⟨?_, ?_⟩
  · intro x r v e
    obtain ⟨i, a, e1, e2⟩ := Res.andThen_eq_ok.1 e
    obtain ⟨w1, rfl, h1⟩ := (hl S).sound e1
    obtain ⟨w2, rfl, h2⟩ := hf.sound e2
    exact ⟨w1 ++ w2, by simp, w1, w2, a, rfl, h1, h2⟩
  · rintro w v r ⟨w1, w2, a, rfl, h1, h2⟩ hr
    have hs : p (w1 ++ (w2 ++ r)) = .ok (w2 ++ r) () := by
      obtain rfl := hp.out
      subst hk
      exact tagNC_ok h1 _
    rw [List.append_assoc, P.bind_apply, hs, Res.andThen_ok]
    exact hf.complete h2 hr

/-- Two keywords are one. -/
theorem word_word {p q : P Unit} {a b k : Bytes} {f : Unit → P β} (hp : Word p a) (hq : Word q b) (hk : k = a ++ b := by rfl) :
    (p >>= fun _ => q >>= f) = (tagNC k >>= f) := by
  subst hk
  obtain rfl := hp.out
  obtain rfl := hq.out
  funext x
  let _ : Quirks := Quirks.default
  rw [P.bind_apply, P.bind_apply, tagNC_seq a b x]
  cases tagNC a x <;> rfl

theorem lit_lit {a b : Bytes} {f : Unit → G β} : (Grammar.lit a >>= fun _ => Grammar.lit b >>= f) = (Grammar.lit (a ++ b) >>= f) := by
  funext w v
  refine propext ⟨?_, ?_⟩
  · rintro ⟨w1, w2, _, rfl, h1, w3, w4, _, rfl, h2, h3⟩
    refine ⟨w1 ++ w3, w4, (), by simp, ?_, h3⟩
    simp only [Grammar.lit, lowerAll, List.map_append] at *
    rw [h1, h2]
  · rintro ⟨w1, w2, _, rfl, h1, h2⟩
    simp only [Grammar.lit, lowerAll, List.map_append] at h1
    obtain ⟨u1, u2, rfl, e1, e2⟩ := List.map_eq_append_iff.1 h1
    exact ⟨u1, u2 ++ w2, (), by simp, e1, u2, w2, (), rfl, e2, h2⟩

theorem Fits.word2 {p q : P Unit} {a b k : Bytes} {f : Unit → P β} {h : Unit → G β} (hp : Word p a) (hq : Word q b)
    (hf : Fits (f ()) (h ()) S) (hk : k = a ++ b := by rfl) : Fits (p >>= fun _ => q >>= f) (Grammar.lit k >>= h) S := by
  rw [word_word hp hq hk]
  exact Fits.word inferInstance hf

theorem Fits.word3 {p q u : P Unit} {a b c k : Bytes} {f : Unit → P β} {h : Unit → G β} (hp : Word p a) (hq : Word q b) (hu : Word u c)
    (hf : Fits (f ()) (h ()) S) (hk : k = (a ++ b) ++ c := by rfl) :
    Fits (p >>= fun _ => q >>= fun _ => u >>= f) (Grammar.lit k >>= h) S := by
  rw [word_word hp hq rfl, word_word (p := tagNC (a ++ b)) inferInstance hu hk]
  exact Fits.word inferInstance hf

/-- One word of the parser is two words of the grammar. -/
theorem Fits.word_split {p : P Unit} {a b k : Bytes} {f : Unit → P β} {h : Unit → G β} (hp : Word p k)
    (hf : Fits (f ()) (h ()) S) (hk : a ++ b = k := by rfl) : Fits (p >>= f) (Grammar.lit a >>= fun _ => Grammar.lit b >>= h) S := by
  rw [lit_lit]
  exact Fits.word hp hf hk

theorem is_eq {k : Bytes} {a : α} : Grammar.is k a = (Grammar.lit k >>= fun _ => Pure.pure a) := by
  funext w v
  refine propext ⟨?_, ?_⟩
  · rintro ⟨h, rfl⟩
    exact ⟨w, [], (), by simp, h, rfl, rfl⟩
  · rintro ⟨w1, w2, _, rfl, h, rfl, rfl⟩
    exact ⟨by rw [List.append_nil]; exact h, rfl⟩

/-- Values that are converted, or rejected. -/
theorem Fits.mapRes {p : P α} {g : G α} {F : α → Option β} (hp : Fits p g S) :
    Fits (Imap.mapRes p F) (fun w v => ∃ a, g w a ∧ F a = some v) S := ⟨by
  intro x r v e
  obtain ⟨a, e1, e2⟩ := exists_of_mapRes e
  obtain ⟨w, rfl, hw⟩ := hp.sound e1
  exact ⟨w, rfl, a, hw, e2⟩, by
  rintro w v r ⟨a, hw, e⟩ hr
  exact mapRes_ok (hp.complete hw hr) e⟩

theorem Fits.gate {b : Bool} {p : P α} {g : G α} (h : Fits p g S) : Fits (gate b p) (onlyIf b g) S := ⟨by
  intro x r v e
  obtain ⟨hb, e⟩ := gate_ok e
  obtain ⟨w, rfl, hw⟩ := h.sound e
  exact ⟨w, rfl, hb, hw⟩, by
  rintro w v r ⟨rfl, hw⟩ hr
  rw [gate_true]
  exact h.complete hw hr⟩

/-- The feature can be assumed to be on. -/
theorem Fits.gated {b : Bool} {p : P α} {g : G α} (h : b = true → Fits p g S) : Fits (Imap.gate b p) (onlyIf b g) S := by
  cases b
  · exact ⟨fun e => by simp at e, fun h => by simp [onlyIf] at h⟩
  · exact (h rfl).gate

theorem Fits.alt_one {p : P α} {g : G α} (h : Fits p g S) : Fits (alt [p]) (choice [g]) S := ⟨by
  intro x r v e
  obtain ⟨p', hp, e'⟩ := exists_of_alt e
  simp only [List.mem_singleton] at hp
  subst hp
  obtain ⟨w, rfl, hw⟩ := h.sound e'
  exact ⟨w, rfl, _, by simp, hw⟩, by
  rintro w v r ⟨g', hg, hw⟩ hr
  simp only [List.mem_singleton] at hg
  subst hg
  rw [alt_cons, orElse_ok (h.complete hw hr)]⟩

theorem Fits.alt_cons {p : P α} {g : G α} {ps : List (P α)} {gs : List (G α)} (h : Fits p g S) (hs : Fits (alt ps) (choice gs) S)
    [he : Errs p E] [hb : Begs (choice gs) S B] (hEB : apart E B = true) : Fits (alt (p :: ps)) (choice (g :: gs)) S := ⟨by
  intro x r v e
  rw [Imap.alt_cons] at e
  unfold orElse at e
  split at e
  · obtain ⟨w, rfl, g', hg, hw⟩ := hs.sound e
    exact ⟨w, rfl, g', by simp [hg], hw⟩
  · obtain ⟨w, rfl, hw⟩ := h.sound e
    exact ⟨w, rfl, g, by simp, hw⟩, by
  rintro w v r ⟨g', hg, hw⟩ hr
  rcases List.mem_cons.1 hg with rfl | hg
  · rw [Imap.alt_cons, orElse_ok (h.complete hw hr)]
  · have hc : choice gs w v := ⟨g', hg, hw⟩
    rw [Imap.alt_cons, orElse_error (he.of_begs hb hEB hc hr)]
    exact hs.complete hc hr⟩

theorem Fits.opt {p : P α} {g : G α} {f : Option α → P β} {k : Option α → G β} (hp : Fits p g S1)
    (h1 : ∀ a, Fits (f (some a)) (k (some a)) S) (h0 : Fits (f none) (k none) S) [hk : ∀ a, Begs (k (some a)) S B]
    (hB : headsIn S1 B = true) [he : Errs p E] [hb : Begs (k none) S B'] (hEB : apart E B' = true) :
    Fits (opt p >>= f) (Grammar.opt g >>= k) S := ⟨by
  intro x r v e
  obtain ⟨i, a, e1, e2⟩ := Res.andThen_eq_ok.1 e
  cases a with
  | none =>
    obtain ⟨rfl, -⟩ : i = x ∧ True := by
      unfold Imap.opt at e1
      split at e1 <;> simp_all
    obtain ⟨w2, rfl, h2⟩ := h0.sound e2
    exact ⟨w2, rfl, [], w2, none, rfl, .inl ⟨rfl, rfl⟩, h2⟩
  | some a =>
    have e1 : p x = .ok i a := by
      unfold Imap.opt at e1
      split at e1 <;> simp_all
    obtain ⟨w1, rfl, h3⟩ := hp.sound e1
    obtain ⟨w2, rfl, h2⟩ := (h1 a).sound e2
    exact ⟨w1 ++ w2, by simp, w1, w2, some a, rfl, .inr ⟨a, h3, rfl⟩, h2⟩, by
  rintro w v r ⟨w1, w2, a, rfl, h3, h2⟩ hr
  rcases h3 with ⟨rfl, rfl⟩ | ⟨a, h3, rfl⟩
  · rw [List.nil_append, P.bind_apply, opt_error (he.of_begs hb hEB h2 hr), Res.andThen_ok]
    exact h0.complete h2 hr
  · rw [List.append_assoc, P.bind_apply, opt_ok (hp.complete h3 ((hk a).starts hB h2 hr)), Res.andThen_ok]
    exact (h1 a).complete h2 hr⟩

theorem opt_optD {d : α} {g : G α} {k : α → G β} : (optD d g >>= k) = (Grammar.opt g >>= fun o => k (o.getD d)) := by
  funext w v
  refine propext ⟨?_, ?_⟩
  · rintro ⟨w1, w2, a, rfl, ⟨rfl, rfl⟩ | h1, h2⟩
    · exact ⟨[], w2, none, rfl, .inl ⟨rfl, rfl⟩, h2⟩
    · exact ⟨w1, w2, some a, rfl, .inr ⟨a, h1, rfl⟩, h2⟩
  · rintro ⟨w1, w2, a, rfl, ⟨rfl, rfl⟩ | ⟨a, h1, rfl⟩, h2⟩
    · exact ⟨[], w2, d, rfl, .inl ⟨rfl, rfl⟩, h2⟩
    · exact ⟨w1, w2, a, rfl, .inr h1, h2⟩

theorem Fits.optD {d : α} {p : P α} {g : G α} {f : Option α → P β} {k : α → G β} (hp : Fits p g S1)
    (h1 : ∀ a, Fits (f (some a)) (k a) S) (h0 : Fits (f none) (k d) S) [hk : ∀ a, Begs (k a) S B]
    (hB : headsIn S1 B = true) [he : Errs p E] [hb : Begs (k d) S B'] (hEB : apart E B' = true) :
    Fits (Imap.opt p >>= f) (Grammar.optD d g >>= k) S := by
  rw [opt_optD]
  exact Fits.opt (hk := hk) (hb := hb) hp h1 h0 hB hEB

/-- An optional keyword. -/
theorem Fits.optD_is {d a : α} {p : P Unit} {w : Bytes} (hp : Word p w) {f : Option Unit → P β} {k : α → G β}
    (h1 : Fits (f (some ())) (k a) S) (h0 : Fits (f none) (k d) S) [hb : Begs (k d) S B'] (hEB : apart [w] B' = true) :
    Fits (Imap.opt p >>= f) (Grammar.optD d (Grammar.is w a) >>= k) S := by
  obtain rfl := hp.out
  refine ⟨?_, ?_⟩
  · intro x r v e
    obtain ⟨i, o, e1, e2⟩ := Res.andThen_eq_ok.1 e
    cases o with
    | none =>
      obtain ⟨rfl, -⟩ : i = x ∧ True := by
        unfold Imap.opt at e1
        split at e1 <;> simp_all
      obtain ⟨w2, rfl, h2⟩ := h0.sound e2
      exact ⟨w2, rfl, [], w2, d, rfl, .inl ⟨rfl, rfl⟩, h2⟩
    | some u =>
      have e1 : tagNC w x = .ok i () := by
        unfold Imap.opt at e1
        split at e1 <;> simp_all
      obtain ⟨w1, rfl, h3⟩ := exists_of_tagNC' e1
      obtain ⟨w2, rfl, h2⟩ := h1.sound e2
      exact ⟨w1 ++ w2, by simp, w1, w2, a, rfl, .inr ⟨h3, rfl⟩, h2⟩
  · rintro w' v r ⟨w1, w2, a', rfl, h3, h2⟩ hr
    rcases h3 with ⟨rfl, rfl⟩ | ⟨h3, rfl⟩
    · rw [List.nil_append, P.bind_apply, opt_error (Errs.tagNC.of_begs hb hEB h2 hr), Res.andThen_ok]
      exact h0.complete h2 hr
    · rw [List.append_assoc, P.bind_apply, opt_ok (tagNC_ok h3 _), Res.andThen_ok]
      exact h1.complete h2 hr

end Rules

/-! ### Repetition -/

section Repetition

variable {S S1 : List UInt8} {B B' B'' E : List Bytes}

theorem sound_many0 {p : P α} {g : G α} (hp : ∀ {x r v}, p x = .ok r v → ∃ w, x = w ++ r ∧ g w v) {x r : Bytes} {l : List α}
    (h : many0 p x = .ok r l) : ∃ w, x = w ++ r ∧ Star g w l := by
  induction l generalizing x with
  | nil =>
    rw [many0] at h
    split at h
    · split at h
      · obtain ⟨i, v, e1, e2⟩ := Res.andThen_eq_ok.1 h
        cases e2
      · simp at h
    · cases h; exact ⟨[], rfl, .nil⟩
    · simp at h
    · simp at h
  | cons a l ih =>
    rw [many0] at h
    split at h
    · next i b e =>
      split at h
      · obtain ⟨i', v, e1, e2⟩ := Res.andThen_eq_ok.1 h
        cases e2
        obtain ⟨w1, rfl, h1⟩ := hp e
        obtain ⟨w2, rfl, h2⟩ := ih e1
        exact ⟨w1 ++ w2, by simp, .cons h1 h2⟩
      · simp at h
    · cases h
    · simp at h
    · simp at h

/-- `F` is what may follow the list. -/
theorem complete_many0 {p : P α} {g : G α} {S' : List UInt8} {F : Bytes → Prop} (hp : ∀ {w v r}, g w v → Starts S' r → p (w ++ r) = .ok r v)
    (hg : ∀ {w v}, g w v → w ≠ []) (hs : ∀ {w v} r, g w v → Starts S' (w ++ r)) (hF : ∀ {r}, F r → Starts S' r ∧ p r = .error)
    {w r : Bytes} {l : List α} (h : Star g w l) (hr : F r) : many0 p (w ++ r) = .ok r l := by
  induction h with
  | nil => exact many0_stop (hF hr).2
  | @cons w1 w2 a l h1 t ih =>
    have hst : Starts S' (w2 ++ r) := by
      cases t with
      | nil => exact (hF hr).1
      | cons h2 t => rw [List.append_assoc]; exact hs _ h2
    rw [List.append_assoc]
    rw [many0_step (hp h1 hst) (by
      have := List.length_pos_iff.2 (hg h1)
      simp only [List.length_append]; omega), ih]
    rfl

theorem begins_ne {k w : Bytes} (h : Begins k w) (hk : k ≠ []) : w ≠ [] := by
  obtain ⟨k', x', rfl, e⟩ := h
  intro h0
  simp only [List.append_eq_nil_iff] at h0
  rw [h0.1] at e
  exact hk (by simpa [lowerAll] using e.symm)

theorem headsIn_ne {S : List UInt8} {B : List Bytes} {k : Bytes} (h : headsIn S B = true) (hk : k ∈ B) : k ≠ [] := by
  rintro rfl
  simpa using List.all_eq_true.1 h _ hk

theorem Fits.many0 {p : P α} {g : G α} {f : List α → P β} {k : List α → G β} (hp : Fits p g S1) (hf : ∀ l, Fits (f l) (k l) S)
    [hg : Begs0 g B] (hB : headsIn S1 B = true) [hk : ∀ l, Begs (k l) S B'] (hB' : headsIn S1 B' = true) [he : Errs p E]
    (hEB : apart E B' = true) : Fits (many0 p >>= f) (Star g >>= k) S := ⟨by
  intro x r v e
  obtain ⟨i, l, e1, e2⟩ := Res.andThen_eq_ok.1 e
  obtain ⟨w1, rfl, h1⟩ := sound_many0 hp.sound e1
  obtain ⟨w2, rfl, h2⟩ := (hf l).sound e2
  exact ⟨w1 ++ w2, by simp, w1, w2, l, rfl, h1, h2⟩, by
  rintro w v r ⟨w1, w2, l, rfl, h1, h2⟩ hr
  rw [List.append_assoc, P.bind_apply, complete_many0 (F := fun y => y = w2 ++ r) hp.complete ?_ ?_ ?_ h1 rfl, Res.andThen_ok]
  · exact (hf l).complete h2 hr
  · intro w v h
    obtain ⟨k, hk, hb⟩ := hg.out h
    exact begins_ne hb (headsIn_ne hB hk)
  · intro w v r h
    obtain ⟨k, hk, hb⟩ := hg.out h
    exact starts_of_begins hB hk (hb.append _)
  · rintro _ rfl
    exact ⟨(hk l).starts hB' h2 hr, he.of_begs (hk l) hEB h2 hr⟩⟩

theorem sepList1_bind (s : P Unit) (p : P α) (f : List α → P β) :
    (sepList1 s p >>= f) = (p >>= fun a => (Imap.many0 (s >>= fun _ => p) : P (List α)) >>= fun l => f (a :: l)) := by
  simp only [sepList1, bind_assoc, pure_bind]

theorem sepBy1_bind (s : G Unit) (g : G α) (f : List α → G β) :
    (sepBy1 s g >>= f) = (g >>= fun a => Star (s >>= fun _ => g) >>= fun l => f (a :: l)) := by
  simp only [sepBy1, bind_assoc, pure_bind]

/-- What follows an item of a list. -/
structure ListOk (S S1 : List UInt8) (s : P Unit) (p : P α) (c : Bytes) (g : G α) (k : List α → G β) : Prop where
  sep : Word s c
  first : headsIn S1 [c] = true
  next : ∀ {l w v r}, k l w v → Starts S r → Starts S1 (w ++ r)
  stop : ∀ {l w v r}, k l w v → Starts S r → (s >>= fun _ => p) (w ++ r) = .error

theorem ListOk.mk' {s : P Unit} {p : P α} {c : Bytes} {g : G α} {k : List α → G β} [hs : Word s c] (h1 : headsIn S1 [c] = true)
    [hk : ∀ l, Begs (k l) S B'] (hB' : headsIn S1 B' = true) [he : Errs (s >>= fun _ => p) E] (hEB : apart E B' = true) :
    ListOk S S1 s p c g k :=
  ⟨hs, h1, fun h2 hr => (hk _).starts hB' h2 hr, fun h2 hr => he.of_begs (hk _) hEB h2 hr⟩

theorem Fits.sepBy1 {s : P Unit} {p : P α} {c c' : Bytes} {g : G α} {f : List α → P β} {k : List α → G β}
    (hl : ListOk S S1 s p c g k) (hp : Fits p g S1) (hf : ∀ l, Fits (f l) (k l) S) (hc : c' = c := by rfl) :
    Fits (sepList1 s p >>= f) (Grammar.sepBy1 (Grammar.lit c') g >>= k) S := by
  subst hc
  rw [sepList1_bind, sepBy1_bind]
  have hsp : ∀ {w v r}, (Grammar.lit c' >>= fun _ => g) w v → Starts S1 r → (s >>= fun _ => p) (w ++ r) = .ok r v :=
    fun h hr => (Fits.word hl.sep hp).complete h hr
  have hs1 : ∀ {w v} r, (Grammar.lit c' >>= fun _ => g) w v → Starts S1 (w ++ r) := by
    rintro w v r ⟨w1, w2, a, rfl, h1, -⟩
    exact starts_of_begins hl.first (by simp) ⟨w1, w2 ++ r, by simp, h1⟩
  refine ⟨?_, ?_⟩
  · intro x r v e
    obtain ⟨i, a, e1, e2⟩ := Res.andThen_eq_ok.1 e
    obtain ⟨j, l, e2, e3⟩ := Res.andThen_eq_ok.1 e2
    obtain ⟨w1, rfl, h1⟩ := hp.sound e1
    obtain ⟨w2, rfl, h2⟩ := sound_many0 (Fits.word (f := fun _ => p) (h := fun _ => g) hl.sep hp).sound e2
    obtain ⟨w3, rfl, h3⟩ := (hf _).sound e3
    exact ⟨w1 ++ (w2 ++ w3), by simp, w1, _, a, rfl, h1, w2, w3, l, rfl, h2, h3⟩
  · rintro w v r ⟨w1, _, a, rfl, h1, w2, w3, l, rfl, h2, h3⟩ hr
    have hm : Imap.many0 (s >>= fun _ => p) (w2 ++ (w3 ++ r)) = .ok (w3 ++ r) l := by
      refine complete_many0 (F := fun y => y = w3 ++ r) hsp ?_ hs1 ?_ h2 rfl
      · rintro w v h rfl
        obtain ⟨b, r', e, -⟩ := hs1 [] h
        simp at e
      · rintro _ rfl
        exact ⟨hl.next h3 hr, hl.stop h3 hr⟩
    have hst : Starts S1 (w2 ++ (w3 ++ r)) := by
      cases h2 with
      | nil => rw [List.nil_append]; exact hl.next h3 hr
      | cons h2 t => rw [List.append_assoc]; exact hs1 _ h2
    rw [List.append_assoc, P.bind_apply, List.append_assoc, hp.complete h1 hst, Res.andThen_ok, P.bind_apply, hm, Res.andThen_ok]
    exact (hf _).complete h3 hr

theorem Fits.sepBy0 {s : P Unit} {p : P α} {c c' : Bytes} {g : G α} {f : List α → P β} {k : List α → G β}
    (hl : ListOk S S1 s p c g k) (hp : Fits p g S1) (hf : ∀ l, Fits (f l) (k l) S) [he : Errs p E] [hk : ∀ l, Begs (k l) S B]
    (hEB : apart E B = true) (hc : c' = c := by rfl) : Fits (sepList0 s p >>= f) (Grammar.sepBy0 (Grammar.lit c') g >>= k) S := by
  have h1 := Fits.sepBy1 hl hp hf hc
  have key : ∀ x, (sepList0 s p >>= f) x = match p x with
      | .error => f [] x
      | _ => (sepList1 s p >>= f) x := by
    intro x
    simp only [P.bind_apply, Imap.sepList1, sepList0]
    cases e : p x <;> rfl
  refine ⟨?_, ?_⟩
  · intro x r v e
    rw [key] at e
    split at e
    · obtain ⟨w, rfl, h⟩ := (hf []).sound e
      exact ⟨w, rfl, [], w, [], rfl, .inl ⟨rfl, rfl⟩, h⟩
    · obtain ⟨w, rfl, w1, w2, l, rfl, h, h'⟩ := h1.sound e
      exact ⟨w1 ++ w2, rfl, w1, w2, l, rfl, .inr h, h'⟩
  · rintro w v r ⟨w1, w2, l, rfl, ⟨rfl, rfl⟩ | h2, h3⟩ hr
    · rw [List.nil_append, key, he.of_begs (hk []) hEB h3 hr]
      exact (hf []).complete h3 hr
    · have h4 := h1.complete ⟨w1, w2, l, rfl, h2, h3⟩ hr
      rw [key]
      split
      · next e =>
        rw [sepList1_bind, P.bind_apply, e] at h4
        simp at h4
      · exact h4

end Repetition

end Imap.Gr
