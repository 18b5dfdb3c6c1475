import Verif.WellFormedLemmas
import Verif.CoreLemmas
import Verif.FragEncSpec
import Verif.FramingSpec
/-
The shape of the calls that the encoder makes: text, and literals with their announcements.
-/
set_option maxRecDepth 10000
set_option linter.unusedSectionVars false

namespace Imap

/-- The announcement of a literal with the given length and mode. -/
def announce (n : Nat) : Mode → Bytes
  | .sync => b!"{" ++ showNat n ++ b!"}\r\n"
  | .nonSync => b!"{" ++ showNat n ++ b!"+}\r\n"

/-- The calls write text with the property `p`, and literals with the property `q` after their announcements. -/
inductive Shaped (p q : Bytes → Prop) : List W → Prop
  | nil : Shaped p q []
  | wr {bs : Bytes} {ws : List W} : p bs → Shaped p q ws → Shaped p q (.wr bs :: ws)
  | lit {a d : Bytes} {m : Mode} {ws : List W} : p a → q d → Shaped p q ws →
      Shaped p q (.wr (a ++ announce d.length m) :: .line :: .wr d :: .lit m :: ws)
  | merge {a b : Bytes} {ws : List W} : Shaped p q (.wr (a ++ b) :: ws) → Shaped p q (.wr a :: .wr b :: ws)

theorem Shaped.append {p q : Bytes → Prop} {xs ys : List W} (hx : Shaped p q xs) (hy : Shaped p q ys) : Shaped p q (xs ++ ys) := by
  induction hx with
  | nil => exact hy
  | wr h _ ih => exact .wr h ih
  | lit h hq _ ih => exact .lit h hq ih
  | merge _ ih => exact .merge ih

theorem Shaped.mono {p p' q : Bytes → Prop} (h : ∀ bs, p bs → p' bs) {xs : List W} (hx : Shaped p q xs) : Shaped p' q xs := by
  induction hx with
  | nil => exact .nil
  | wr h' _ ih => exact .wr (h _ h') ih
  | lit h' hq _ ih => exact .lit (h _ h') hq ih
  | merge _ ih => exact .merge ih

theorem Shaped.one {p q : Bytes → Prop} {bs : Bytes} (h : p bs) : Shaped p q [.wr bs] := .wr h .nil

theorem Shaped.flatten {p q : Bytes → Prop} {l : List (List W)} (h : ∀ x ∈ l, Shaped p q x) : Shaped p q l.flatten := by
  induction l with
  | nil => exact .nil
  | cons x l ih => exact (h x (by simp)).append (ih fun y hy => h y (by simp [hy]))

theorem Shaped.flatMap {α : Type} {p q : Bytes → Prop} {f : α → List W} {l : List α} (h : ∀ x ∈ l, Shaped p q (f x)) :
    Shaped p q (l.flatMap f) := by
  rw [List.flatMap_def]
  refine Shaped.flatten fun x hx => ?_
  obtain ⟨a, ha, rfl⟩ := List.mem_map.1 hx
  exact h a ha

theorem Shaped.join {p q : Bytes → Prop} {sep : Bytes} (hs : p sep) {l : List (List W)} (h : ∀ x ∈ l, Shaped p q x) :
    Shaped p q (join sep l) := by
  cases l with
  | nil => exact .nil
  | cons x l =>
    exact (h x (by simp)).append (Shaped.flatMap fun y hy => .wr hs (h y (by simp [hy])))

theorem Shaped.joinMap {α : Type} {p q : Bytes → Prop} {sep : Bytes} (hs : p sep) {f : α → List W} {l : List α}
    (h : ∀ x ∈ l, Shaped p q (f x)) : Shaped p q (Imap.join sep (l.map f)) := by
  refine Shaped.join hs fun x hx => ?_
  obtain ⟨a, ha, rfl⟩ := List.mem_map.1 hx
  exact h a ha

theorem Shaped.flattenMap {α : Type} {p q : Bytes → Prop} {f : α → List W} {l : List α}
    (h : ∀ x ∈ l, Shaped p q (f x)) : Shaped p q (l.map f).flatten := by
  refine Shaped.flatten fun x hx => ?_
  obtain ⟨a, ha, rfl⟩ := List.mem_map.1 hx
  exact h a ha

/-! ### Safe text -/

/-- No line break, and each `{` is followed by a `"`. -/
def isBraced : Bytes → Bool
  | [] => true
  | b :: bs => b != 13 && b != 10 && (b != 123 || bs.contains 34) && isBraced bs

/-- The quoted strings are closed at the end. -/
def isClosed (bs : Bytes) : Bool := match bs.foldl Spec.Quote.step .out with
  | .out => true
  | _ => false

/-- No line break, each `{` is followed by a `"`, and the quoted strings are closed at the end. -/
def isSafe (bs : Bytes) : Bool := isBraced bs && isClosed bs

/-- No line break. -/
def isUnbroken (bs : Bytes) : Bool := bs.all fun b => b != 13 && b != 10

theorem isClosed_iff (bs : Bytes) : isClosed bs = true ↔ Spec.QuotesClosed bs := by
  unfold isClosed Spec.QuotesClosed
  split <;> simp_all

theorem isSafe_braced {bs : Bytes} (h : isSafe bs = true) : isBraced bs = true := by
  simp only [isSafe, Bool.and_eq_true] at h
  exact h.1

theorem isSafe_closed {bs : Bytes} (h : isSafe bs = true) : Spec.QuotesClosed bs := by
  simp only [isSafe, Bool.and_eq_true] at h
  exact (isClosed_iff bs).1 h.2

theorem isSafe_unbroken {bs : Bytes} (h : isSafe bs = true) : isUnbroken bs = true := by
  replace h := isSafe_braced h
  induction bs with
  | nil => rfl
  | cons b bs ih =>
    simp only [isBraced, Bool.and_eq_true] at h
    simp only [isUnbroken, List.all_cons, Bool.and_eq_true]
    exact ⟨h.1.1, ih h.2⟩

theorem isBraced_append {xs ys : Bytes} (hx : isBraced xs = true) (hy : isBraced ys = true) : isBraced (xs ++ ys) = true := by
  induction xs with
  | nil => exact hy
  | cons b bs ih =>
    simp only [isBraced, Bool.and_eq_true, Bool.or_eq_true, List.cons_append, List.contains_eq_mem, List.mem_append, decide_eq_true_eq] at hx ⊢
    exact ⟨⟨hx.1.1, hx.1.2.imp id .inl⟩, ih hx.2⟩

theorem isSafe_append {xs ys : Bytes} (hx : isSafe xs = true) (hy : isSafe ys = true) : isSafe (xs ++ ys) = true := by
  have h1 := isSafe_closed hx
  have h2 := isSafe_closed hy
  unfold isSafe
  rw [isBraced_append (isSafe_braced hx) (isSafe_braced hy), Bool.true_and, isClosed_iff]
  unfold Spec.QuotesClosed at *
  rw [List.foldl_append, h1, h2]

theorem isSafe_of_forall {bs : Bytes} (h : ∀ b ∈ bs, b ≠ 13 ∧ b ≠ 10 ∧ b ≠ 123 ∧ b ≠ 34) : isSafe bs = true := by
  induction bs with
  | nil => rfl
  | cons b bs ih =>
    have hb := h b (by simp)
    have := ih fun c hc => h c (by simp [hc])
    refine isSafe_append (xs := [b]) ?_ this
    simp [isSafe, isBraced, isClosed, Spec.Quote.step, hb]

theorem isUnbroken_of_forall {bs : Bytes} (h : ∀ b ∈ bs, b ≠ 13 ∧ b ≠ 10) : isUnbroken bs = true := by
  simpa [isUnbroken] using h

theorem isUnbroken_append {xs ys : Bytes} (hx : isUnbroken xs = true) (hy : isUnbroken ys = true) : isUnbroken (xs ++ ys) = true := by
  unfold isUnbroken at *
  rw [List.all_append, hx, hy]; rfl

/-- Text before a `"` need not care about `{`. -/
theorem isBraced_quoted {bs : Bytes} (h : isUnbroken bs = true) : isBraced (bs ++ b!"\"") = true := by
  induction bs with
  | nil => rfl
  | cons b bs ih =>
    simp only [isUnbroken, List.all_cons, Bool.and_eq_true] at h
    simp only [isBraced, List.cons_append, Bool.and_eq_true, h, ih h.2]
    simp

theorem isSafe_quoted {bs : Bytes} (h : isUnbroken bs = true) (hq : bs.foldl Spec.Quote.step .within = .within) :
    isSafe (b!"\"" ++ bs ++ b!"\"") = true := by
  unfold isSafe
  rw [isBraced_quoted (isUnbroken_append rfl h), Bool.true_and, isClosed_iff]
  unfold Spec.QuotesClosed
  rw [List.foldl_append, List.foldl_append, show List.foldl Spec.Quote.step .out b!"\"" = .within from rfl, hq]
  rfl

/-- No line break, no `"`, and no backslash. -/
def isInner (bs : Bytes) : Bool := bs.all fun b => b != 13 && b != 10 && (b != 34 && b != 92)

theorem isInner_append {xs ys : Bytes} (hx : isInner xs = true) (hy : isInner ys = true) : isInner (xs ++ ys) = true := by
  unfold isInner at *
  rw [List.all_append, hx, hy]; rfl

theorem isSafe_inner {bs : Bytes} (h : isInner bs = true) : isSafe (b!"\"" ++ bs ++ b!"\"") = true := by
  refine isSafe_quoted ?_ ?_
  · unfold isInner at h
    simp only [isUnbroken, List.all_eq_true, Bool.and_eq_true] at h ⊢
    exact fun b hb => (h b hb).1
  · induction bs with
    | nil => rfl
    | cons b bs ih =>
      simp only [isInner, List.all_cons, Bool.and_eq_true, bne_iff_ne] at h
      rw [List.foldl_cons]
      simp only [Spec.Quote.step, h.1.2, if_false]
      exact ih h.2

theorem mem_replace1 {b : UInt8} {rep s : Bytes} {c : UInt8} (h : c ∈ replace1 b rep s) : c ∈ rep ∨ c ∈ s := by
  induction s with
  | nil => simp [replace1] at h
  | cons x s ih =>
    simp only [replace1, List.flatMap_cons] at h
    rcases List.mem_append.1 h with h | h
    · split at h
      · exact .inl h
      · exact .inr (by simp_all)
    · exact (ih h).imp id (List.mem_cons_of_mem _)

theorem escape_unbroken {s : Bytes} (h : isUnbroken s = true) : isUnbroken (escapeQuoted s) = true := by
  simp only [isUnbroken, List.all_eq_true] at h ⊢
  intro b hb
  rcases mem_replace1 hb with hb | hb
  · exact (by decide : ∀ b ∈ b!"\\\"", (b != 13 && b != 10) = true) b hb
  · rcases mem_replace1 hb with hb | hb
    · exact (by decide : ∀ b ∈ b!"\\\\", (b != 13 && b != 10) = true) b hb
    · exact h b hb

theorem escape_within (s : Bytes) : (escapeQuoted s).foldl Spec.Quote.step .within = .within := by
  induction s with
  | nil => rfl
  | cons b s ih =>
    have e : escapeQuoted (b :: s) = escapeQuoted [b] ++ escapeQuoted s := by
      simp [escapeQuoted, replace1, List.flatMap_append]
    have key : ∀ b : UInt8, (escapeQuoted [b]).foldl Spec.Quote.step .within = .within := forall_byte (by decide)
    rw [e, List.foldl_append, key, ih]

theorem isSafe_showNat (n : Nat) : isSafe (showNat n) = true := by
  refine isSafe_of_forall fun b hb => ?_
  have := List.all_eq_true.1 (showNat_digits n) b hb
  have key : ∀ b : UInt8, isDigit b = true → b ≠ 13 ∧ b ≠ 10 ∧ b ≠ 123 ∧ b ≠ 34 := forall_byte (by decide)
  exact key b this

theorem isSafe_b64 (d : Bytes) : isSafe (b64Encode d) = true := by
  obtain ⟨cs, pad, h1, h2, h3⟩ := b64Encode_shape d
  rw [h1]
  refine isSafe_append (isSafe_of_forall fun b hb => ?_) ?_
  · have key : ∀ b : UInt8, isBase64Char b = true → b ≠ 13 ∧ b ≠ 10 ∧ b ≠ 123 ∧ b ≠ 34 := forall_byte (by decide)
    exact key b (List.all_eq_true.1 h2 b hb)
  · rcases h3 with rfl | rfl | rfl <;> rfl

/-- The quoted strings are closed at the end, and all line breaks are in quoted strings. -/
def Tidy (bs : Bytes) : Prop := Spec.QuotesClosed bs ∧ ∀ u v, bs = u ++ b!"\n" ++ v → ¬ Spec.QuotesClosed u

theorem Tidy.append {xs ys : Bytes} (hx : Tidy xs) (hy : Tidy ys) : Tidy (xs ++ ys) := by
  have key : ∀ z, Spec.QuotesClosed (xs ++ z) ↔ Spec.QuotesClosed z := fun z => by
    have := hx.1
    unfold Spec.QuotesClosed at *
    rw [List.foldl_append, this]
  refine ⟨(key _).2 hy.1, fun u v h => ?_⟩
  rw [List.append_assoc] at h
  rcases List.append_eq_append_iff.1 h with ⟨w, rfl, h2⟩ | ⟨w, h1, h2⟩
  · rw [key]
    exact hy.2 w v (by simpa using h2)
  · cases w with
    | nil =>
      simp at h1 h2
      subst h1
      have := hy.2 [] v (by simp [← h2])
      intro _
      exact this rfl
    | cons d w =>
      simp at h2
      obtain ⟨rfl, rfl⟩ := h2
      exact hx.2 u w (by simpa using h1)

theorem isSafe_tidy {bs : Bytes} (h : isSafe bs = true) : Tidy bs := by
  refine ⟨isSafe_closed h, fun u v e => ?_⟩
  have := List.all_eq_true.1 (isSafe_unbroken h) 10 (by simp [e])
  simp at this

theorem escape_never_out (s : Bytes) : ∀ u v, escapeQuoted s = u ++ v → u.foldl Spec.Quote.step .within ≠ .out := by
  induction s with
  | nil => intro u v h; simp [escapeQuoted, replace1] at h; simp [h.1]
  | cons b s ih =>
    intro u v h
    have e : escapeQuoted (b :: s) = escapeQuoted [b] ++ escapeQuoted s := by
      simp [escapeQuoted, replace1, List.flatMap_append]
    have key : ∀ b : UInt8, (escapeQuoted [b]).foldl Spec.Quote.step .within = .within ∧
        ((escapeQuoted [b]).length ≤ 2 ∧ ∀ n < 3, ((escapeQuoted [b]).take n).foldl Spec.Quote.step .within ≠ .out) := forall_byte (by decide)
    rw [e] at h
    rcases List.append_eq_append_iff.1 h with ⟨w, rfl, h2⟩ | ⟨w, h1, h2⟩
    · rw [List.foldl_append, (key b).1]
      exact ih w v h2
    · have hu : u = (escapeQuoted [b]).take u.length := by rw [h1]; simp
      rw [hu]
      refine (key b).2.2 _ ?_
      have := congrArg List.length h1
      have := (key b).2.1
      simp at *
      omega

theorem escape_tidy (s : Bytes) : Tidy (b!"\"" ++ escapeQuoted s ++ b!"\"") := by
  constructor
  · unfold Spec.QuotesClosed
    rw [List.foldl_append, List.foldl_append, show List.foldl Spec.Quote.step .out b!"\"" = .within from rfl, escape_within]
    rfl
  · intro u v h
    cases u with
    | nil => simp at h
    | cons c u =>
      simp at h
      obtain ⟨rfl, h⟩ := h
      have : ∃ w, escapeQuoted s = u ++ w := by
        rcases List.append_eq_append_iff.1 h with ⟨w, rfl, h2⟩ | ⟨w, h1, h2⟩
        · cases w with
          | nil => exact ⟨[], by simp⟩
          | cons d w => simp at h2
        · exact ⟨w, h1⟩
      obtain ⟨w, hw⟩ := this
      exact escape_never_out s u w hw

end Imap

namespace Imap.Spec

open Imap

/-- The quoted strings are closed at the end, and all line breaks are in quoted strings. At the level `.line` the text is safe. -/
def SafeAt (L : Level) (bs : Bytes) : Prop := Tidy bs ∧ (L = .line → isSafe bs = true)

/-- At the level `.rt` the literal is smaller than 4 GiB. -/
def FitsAt (L : Level) (bs : Bytes) : Prop := L = .rt → bs.length < 2 ^ 32

/-- At the level `.line` the text has no line breaks. -/
def UnbrokenAt (L : Level) (bs : Bytes) : Prop := L = .line → isUnbroken bs = true

variable {L : Level}

theorem SafeAt.of {bs : Bytes} (h : isSafe bs = true) : SafeAt L bs := ⟨isSafe_tidy h, fun _ => h⟩
theorem UnbrokenAt.of {bs : Bytes} (h : isUnbroken bs = true) : UnbrokenAt L bs := fun _ => h

theorem SafeAt.unbroken {bs : Bytes} (h : SafeAt L bs) : UnbrokenAt L bs := fun e => isSafe_unbroken (h.2 e)

theorem _root_.Imap.Shaped.weaken {ws : List W} (h : Shaped (SafeAt L) (FitsAt L) ws) : Shaped (UnbrokenAt L) (FitsAt L) ws := h.mono fun _ => SafeAt.unbroken

theorem SafeAt.nat (n : Nat) : SafeAt L (showNat n) := .of (isSafe_showNat n)
theorem UnbrokenAt.nat (n : Nat) : UnbrokenAt L (showNat n) := fun _ => isSafe_unbroken (isSafe_showNat n)
theorem SafeAt.b64 (d : Bytes) : SafeAt L (b64Encode d) := .of (isSafe_b64 d)

theorem SafeAt.append {xs ys : Bytes} (hx : SafeAt L xs) (hy : SafeAt L ys) : SafeAt L (xs ++ ys) :=
  ⟨hx.1.append hy.1, fun e => isSafe_append (hx.2 e) (hy.2 e)⟩

theorem SafeAt.atom {s : Bytes} (h : IsAtom s) : SafeAt L s := .of <| isSafe_of_forall fun b hb => by
  have key : ∀ b : UInt8, isAtomChar b = true → b ≠ 13 ∧ b ≠ 10 ∧ b ≠ 123 ∧ b ≠ 34 := forall_byte (by decide)
  exact key b ((atomChar_iff b).2 (h.2 b hb))

theorem SafeAt.astringChars {s : Bytes} (h : Str1 AStringChar s) : SafeAt L s := .of <| isSafe_of_forall fun b hb => by
  have key : ∀ b : UInt8, isAStringChar b = true → b ≠ 13 ∧ b ≠ 10 ∧ b ≠ 123 ∧ b ≠ 34 := forall_byte (by decide)
  exact key b ((aStringChar_iff b).2 (h.2 b hb))

theorem SafeAt.tag {s : Bytes} (h : Tag.Inv s) : SafeAt L s :=
  SafeAt.astringChars ⟨h.1, fun b hb => (h.2 b hb).1⟩

theorem SafeAt.listChars {s : Bytes} (h : Str1 ListChar s) : SafeAt L s := .of <| isSafe_of_forall fun b hb => by
  have key : ∀ b : UInt8, isListChar b = true → b ≠ 13 ∧ b ≠ 10 ∧ b ≠ 123 ∧ b ≠ 34 := forall_byte (by decide)
  exact key b ((listChar_iff b).2 (h.2 b hb))

theorem text_unbroken {s : Bytes} (h : ∀ b ∈ s, TextChar b) : isUnbroken s = true := isUnbroken_of_forall fun b hb => by
  have key : ∀ b : UInt8, isTextChar b = true → b ≠ 13 ∧ b ≠ 10 := forall_byte (by decide)
  exact key b ((textChar_iff b).2 (h b hb))

theorem SafeAt.quoted {s : Bytes} (h : UnbrokenAt L s) : SafeAt L (b!"\"" ++ escapeQuoted s ++ b!"\"") :=
  ⟨escape_tidy s, fun e => isSafe_quoted (escape_unbroken (h e)) (escape_within s)⟩

theorem shaped_uid {u : Bool} {name : Bytes} {ws : List W} (hn : SafeAt L name) (h : Shaped (SafeAt L) (FitsAt L) ws) :
    Shaped (SafeAt L) (FitsAt L) (encUid u name :: ws) := by
  refine .wr ?_ h
  split
  · exact SafeAt.append (.of rfl) hn
  · exact hn

/-- Splits the calls into text and the parts for which there are hypotheses. -/
macro "shape" : tactic => `(tactic| repeat' first
  | with_reducible assumption
  | with_reducible exact Shaped.nil
  | with_reducible exact SafeAt.nat _
  | with_reducible exact UnbrokenAt.nat _
  | with_reducible apply shaped_uid
  | with_reducible apply Shaped.append
  | with_reducible apply Shaped.wr
  | exact SafeAt.of rfl
  | exact UnbrokenAt.of rfl)

/-! ### Strings -/

theorem Literal.shaped {l : Literal} (h : Literal.Inv L l) : Shaped (SafeAt L) (FitsAt L) l.enc := by
  obtain ⟨d, m⟩ := l
  have h' (m : Mode) := Shaped.lit (a := []) (d := d) (m := m) (p := SafeAt L) (q := FitsAt L) (.of rfl) h.2 .nil
  cases m
  · exact h' .sync
  · exact h' .nonSync

theorem Literal8.shaped {l : Literal8} (h : Literal8.Inv L l) : Shaped (SafeAt L) (FitsAt L) l.enc := by
  obtain ⟨d, m⟩ := l
  have h' (m : Mode) := Shaped.lit (a := b!"~") (d := d) (m := m) (p := SafeAt L) (q := FitsAt L) (.of rfl) h .nil
  cases m
  · exact h' .sync
  · exact h' .nonSync

theorem IString.shaped [Quirks] {s : IString} (h : IString.Inv L s) : Shaped (SafeAt L) (FitsAt L) s.enc := by
  cases s with
  | literal l => exact Literal.shaped h
  | quoted s => exact .one (SafeAt.quoted fun _ => text_unbroken h)
  | quotedUtf8 s =>
    refine .one (SafeAt.quoted fun e => isUnbroken_of_forall fun b hb => ⟨?_, ?_⟩)
    · rintro rfl; exact (h.2.2.2 e).1 hb
    · rintro rfl; exact (h.2.2.2 e).2 hb

theorem NString.shaped [Quirks] {s : NString} (h : NString.Inv L s) : Shaped (SafeAt L) (FitsAt L) (encNString s) := by
  cases s with
  | none => exact .one (.of rfl)
  | some s => exact IString.shaped (h s rfl)

theorem AString.shaped [Quirks] {s : AString} (h : AString.Inv L s) : Shaped (SafeAt L) (FitsAt L) s.enc := by
  cases s with
  | atom s => exact .one (SafeAt.astringChars h)
  | string s => exact IString.shaped h

theorem Charset.shaped {s : Charset} (h : Charset.Inv s) : Shaped (SafeAt L) (FitsAt L) s.enc := by
  cases s with
  | atom s => exact .one (SafeAt.atom h)
  | quoted s => exact .one (SafeAt.quoted fun _ => text_unbroken h)

theorem LiteralOrLiteral8.shaped {s : LiteralOrLiteral8} (h : LiteralOrLiteral8.Inv L s) : Shaped (SafeAt L) (FitsAt L) s.enc := by
  cases s with
  | literal l => exact Literal.shaped h
  | literal8 l => exact Literal8.shaped h

theorem NString8.shaped [Quirks] {s : NString8} (h : NString8.Inv L s) : Shaped (SafeAt L) (FitsAt L) s.enc := by
  cases s with
  | nstring s => exact NString.shaped h
  | literal8 l => exact Literal8.shaped h

/-! ### Parts -/

theorem SeqOrUid.shaped (s : SeqOrUid) : Shaped (SafeAt L) (FitsAt L) s.enc := by
  cases s <;> exact .one (by first | exact SafeAt.nat _ | exact .of rfl)

theorem Sequence.shaped [Quirks] (s : Sequence) : Shaped (SafeAt L) (FitsAt L) s.enc := by
  unfold Imap.Sequence.enc
  split
  · exact SeqOrUid.shaped _
  · exact ((SeqOrUid.shaped _).append (.one (.of rfl))).append (SeqOrUid.shaped _)

theorem SequenceSet.shaped [Quirks] (s : SequenceSet) : Shaped (SafeAt L) (FitsAt L) (encSet s) :=
  Shaped.joinMap (.of rfl) fun q _ => Sequence.shaped q

theorem digits_inner {n : Nat} (h : n < 10) : UInt8.ofNat (48 + n) ≠ 13 ∧ UInt8.ofNat (48 + n) ≠ 10 ∧ UInt8.ofNat (48 + n) ≠ 34 ∧ UInt8.ofNat (48 + n) ≠ 92 := by
  have : ∀ n : Fin 10, UInt8.ofNat (48 + n.1) ≠ 13 ∧ UInt8.ofNat (48 + n.1) ≠ 10 ∧ UInt8.ofNat (48 + n.1) ≠ 34 ∧ UInt8.ofNat (48 + n.1) ≠ 92 := by decide
  exact this ⟨n, h⟩

theorem show2_inner {n : Nat} (h : n < 100) : isInner (show2 n) = true := by
  have h1 := digits_inner (n := n / 10) (by omega)
  have h2 := digits_inner (n := n % 10) (by omega)
  simp only [isInner, show2, List.all_cons, List.all_nil, Bool.and_true, Bool.and_eq_true, bne_iff_ne, and_assoc]
  exact ⟨h1.1, h1.2.1, h1.2.2.1, h1.2.2.2, h2⟩

theorem show4_inner {n : Nat} (h : n < 10000) : isInner (show4 n) = true := by
  have h1 := digits_inner (n := n / 1000) (by omega)
  have h2 := digits_inner (n := n / 100 % 10) (by omega)
  have h3 := digits_inner (n := n / 10 % 10) (by omega)
  have h4 := digits_inner (n := n % 10) (by omega)
  simp only [isInner, show4, List.all_cons, List.all_nil, Bool.and_true, Bool.and_eq_true, bne_iff_ne, and_assoc]
  exact ⟨h1.1, h1.2.1, h1.2.2.1, h1.2.2.2, h2.1, h2.2.1, h2.2.2.1, h2.2.2.2, h3.1, h3.2.1, h3.2.2.1, h3.2.2.2, h4⟩

theorem month_inner (n : Nat) : isInner (monthName n) = true := by
  unfold monthName
  split <;> rfl

theorem showDate_inner {d : NaiveDate} (h : NaiveDate.Inv d) : isInner (showDate d) = true := by
  have : monthDays d.year d.month ≤ 31 := by unfold monthDays; split_ifs <;> omega
  obtain ⟨h1, h2, h3, h4, h5⟩ := h
  exact isInner_append (isInner_append (isInner_append (isInner_append (show2_inner (by omega)) rfl)
    (month_inner _)) rfl) (show4_inner (by omega))

theorem NaiveDate.shaped {d : NaiveDate} (h : NaiveDate.Inv d) : Shaped (SafeAt L) (FitsAt L) d.enc :=
  .one <| .of <| isSafe_inner (showDate_inner h)

theorem showZone_inner {o : Int} (h1 : -86400 < o) (h2 : o < 86400) : isInner (showZone o) = true := by
  refine isInner_append (isInner_append ?_ (show2_inner (by omega))) (show2_inner (by omega))
  split <;> rfl

theorem DateTime.shaped {t : DateTime} (h : DateTime.Inv t) : Shaped (SafeAt L) (FitsAt L) t.enc := by
  obtain ⟨h1, h2, h3, h4, h5, h6, _⟩ := h
  refine .one (.of ?_)
  have key : isInner (showDate t.date ++ b!" " ++ show2 t.hour ++ b!":" ++ show2 t.minute ++ b!":" ++ show2 t.second ++ b!" " ++
      showZone t.offset) = true := by
    refine isInner_append ?_ (showZone_inner h5 h6)
    refine isInner_append ?_ rfl
    refine isInner_append ?_ (show2_inner (by omega))
    refine isInner_append ?_ rfl
    refine isInner_append ?_ (show2_inner (by omega))
    refine isInner_append ?_ rfl
    refine isInner_append ?_ (show2_inner (by omega))
    exact isInner_append (showDate_inner h1) rfl
  simpa using isSafe_inner key

theorem Flag.shaped {f : Flag} (h : Flag.Inv f) : Shaped (SafeAt L) (FitsAt L) f.enc := by
  cases f with
  | extension s => exact .one (SafeAt.append (.of rfl) (SafeAt.atom h.1))
  | keyword s => exact .one (SafeAt.atom h)
  | _ => exact .one (.of rfl)

theorem FlagFetch.shaped {f : FlagFetch} (h : FlagFetch.Inv L f) : Shaped (SafeAt L) (FitsAt L) f.enc := by
  cases f with
  | flag f => exact Flag.shaped h.1
  | recent => exact .one (.of rfl)

theorem FlagPerm.shaped {f : FlagPerm} (h : FlagPerm.Inv f) : Shaped (SafeAt L) (FitsAt L) f.enc := by
  cases f with
  | flag f => exact Flag.shaped h
  | asterisk => exact .one (.of rfl)

theorem FlagNameAttribute.shaped {f : FlagNameAttribute} (h : FlagNameAttribute.Inv f) : Shaped (SafeAt L) (FitsAt L) f.enc := by
  cases f with
  | extension s => exact .one (SafeAt.append (.of rfl) (SafeAt.atom h.1))
  | _ => exact .one (.of rfl)

theorem Mailbox.shaped [Quirks] {m : Mailbox} (h : Mailbox.Inv L m) : Shaped (SafeAt L) (FitsAt L) m.enc := by
  cases m with
  | inbox => exact .one (.of rfl)
  | other s => exact AString.shaped h.1

theorem ListMailbox.shaped [Quirks] {m : ListMailbox} (h : ListMailbox.Inv L m) : Shaped (SafeAt L) (FitsAt L) m.enc := by
  cases m with
  | token s => exact .one (SafeAt.listChars h)
  | string s => exact IString.shaped h

theorem AuthMechanism.safe {m : AuthMechanism} (h : AuthMechanism.Inv L m) : SafeAt L m.name := by
  cases m with
  | other s => exact SafeAt.atom h.1
  | _ => exact .of rfl

theorem StatusDataItemName.shaped (x : StatusDataItemName) : Shaped (SafeAt L) (FitsAt L) x.enc := by
  cases x <;> exact .one (.of rfl)

/-! ### Fetch -/

theorem part_shaped (p : List NzU32) : Shaped (SafeAt L) (FitsAt L) (encPart p) := Shaped.joinMap (.of rfl) fun n _ => .one (SafeAt.nat n)

theorem partDot_shaped (p : Option (List NzU32)) : Shaped (SafeAt L) (FitsAt L) (encPartDot p) := by
  cases p with
  | none => exact .nil
  | some p => exact (part_shaped p).append (.one (.of rfl))

theorem partial_shaped (p : Option (Nat × NzU32)) : Shaped (SafeAt L) (FitsAt L) (encPartial p) := by
  cases p with
  | none => exact .nil
  | some p => unfold encPartial; shape

theorem Section.shaped [Quirks] {s : Section} (h : Section.Inv L s) : Shaped (SafeAt L) (FitsAt L) s.enc := by
  have hp := part_shaped (L := L)
  have hd := partDot_shaped (L := L)
  cases s with
  | part p => exact hp p
  | header p => have := hd p; unfold Imap.Section.enc; shape
  | headerFields p fs =>
    have := hd p
    have h2 := Shaped.joinMap (p := SafeAt L) (q := FitsAt L) (sep := b!" ") (.of rfl) fun a ha => AString.shaped (h.2.2 a ha)
    unfold Imap.Section.enc
    shape
  | headerFieldsNot p fs =>
    have := hd p
    have h2 := Shaped.joinMap (p := SafeAt L) (q := FitsAt L) (sep := b!" ") (.of rfl) fun a ha => AString.shaped (h.2.2 a ha)
    unfold Imap.Section.enc
    shape
  | text p => have := hd p; unfold Imap.Section.enc; shape
  | mime p => have := hp p; unfold Imap.Section.enc; shape

theorem sectionOpt_shaped [Quirks] {s : Option Section} (h : Opt (Section.Inv L) s) : Shaped (SafeAt L) (FitsAt L) (encSectionOpt s) := by
  cases s with
  | none => exact .nil
  | some s => exact Section.shaped (h s rfl)

theorem MessageDataItemName.shaped [Quirks] {x : MessageDataItemName} (h : MessageDataItemName.Inv L x) : Shaped (SafeAt L) (FitsAt L) x.enc := by
  cases x with
  | bodyExt s p k =>
    have h1 := sectionOpt_shaped h.1
    have h2 := partial_shaped (L := L) p
    cases k <;> unfold Imap.MessageDataItemName.enc <;> shape
  | binary s p k =>
    have h1 := part_shaped (L := L) s
    have h2 := partial_shaped (L := L) p
    cases k <;> unfold Imap.MessageDataItemName.enc <;> shape
  | binarySize s =>
    have h1 := part_shaped (L := L) s
    unfold Imap.MessageDataItemName.enc
    shape
  | _ => exact .one (.of rfl)

theorem MacroOrNames.shaped [Quirks] {x : MacroOrNames} (h : MacroOrNames.Inv L x) : Shaped (SafeAt L) (FitsAt L) x.enc := by
  cases x with
  | macro_ m => cases m <;> exact .one (.of rfl)
  | names l =>
    have h2 := Shaped.joinMap (p := SafeAt L) (q := FitsAt L) (sep := b!" ") (.of rfl) fun a ha => MessageDataItemName.shaped (h a ha)
    unfold Imap.MacroOrNames.enc
    split
    · exact .one (.of rfl)
    · exact .one (.of rfl)
    · exact .one (.of rfl)
    · next e => cases e; exact MessageDataItemName.shaped (h _ (by simp))
    · next e => cases e; shape

/-! ### Search -/

theorem modSequence_shaped {e : Option (AttributeFlag × EntryTypeReq)} (h : Opt (fun x => AttributeFlag.Inv x.1) e) (n : Nat) :
    Shaped (SafeAt L) (FitsAt L) (encModSequence e n) := by
  cases e with
  | none => unfold encModSequence; shape
  | some x =>
    obtain ⟨f, t⟩ := x
    have h := h _ rfl
    have atoms : ∀ {a : Bytes}, IsAtom a → isUnbroken a = true ∧ a.foldl Quote.step .within = .within := fun {a} ha => by
      have key : ∀ b : UInt8, isAtomChar b = true → b ≠ 13 ∧ b ≠ 10 ∧ b ≠ 34 ∧ b ≠ 92 := forall_byte (by decide)
      replace ha : ∀ b ∈ a, b ≠ 13 ∧ b ≠ 10 ∧ b ≠ 34 ∧ b ≠ 92 := fun b hb => key b ((atomChar_iff b).2 (ha.2 b hb))
      refine ⟨isUnbroken_of_forall fun b hb => ⟨(ha b hb).1, (ha b hb).2.1⟩, ?_⟩
      clear h
      induction a with
      | nil => rfl
      | cons b a ih =>
        have hb := ha b (by simp)
        rw [List.foldl_cons]
        simp only [Quote.step, hb, if_false]
        exact ih fun c hc => ha c (by simp [hc])
    have hf : isUnbroken f.enc = true ∧ f.enc.foldl Quote.step .within = .within := by
      cases f with
      | extension a =>
        refine ⟨isUnbroken_append rfl (atoms h.1).1, ?_⟩
        exact (List.foldl_append ..).trans (atoms h.1).2
      | keyword a => exact atoms h
      | _ => exact ⟨rfl, rfl⟩
    have ht : SafeAt L t.enc := by cases t <;> exact .of rfl
    have hq : SafeAt L (b!" \"/flags/" ++ f.enc ++ b!"\"") := .of <| by
      have := isSafe_quoted (bs := b!"/flags/" ++ f.enc) (isUnbroken_append rfl hf.1)
        ((List.foldl_append ..).trans hf.2)
      exact isSafe_append (xs := b!" ") rfl this
    unfold encModSequence
    refine .append (.append (.one (.of rfl)) (.merge (.merge (.wr hq ?_)))) ?_ <;> shape

variable [Quirks]

mutual
theorem SearchKey.shaped : ∀ {x : SearchKey}, SearchKey.Inv L x → Shaped (SafeAt L) (FitsAt L) x.enc
  | .and ks, h => by
    simp only [SearchKey.Inv] at h
    have := Shaped.join (p := SafeAt L) (q := FitsAt L) (sep := b!" ") (.of rfl) (SearchKey.go_shaped h.2)
    simp only [Imap.SearchKey.enc]
    shape
  | .not k, h => by
    simp only [SearchKey.Inv] at h
    have := SearchKey.shaped h
    simp only [Imap.SearchKey.enc]
    shape
  | .or a b, h => by
    simp only [SearchKey.Inv] at h
    have := SearchKey.shaped h.1
    have := SearchKey.shaped h.2
    simp only [Imap.SearchKey.enc]
    shape
  | .modSequence e n, h => by
    simp only [SearchKey.Inv] at h
    simp only [Imap.SearchKey.enc]
    exact modSequence_shaped h.2.1 n
  | .sequenceSet s, h | .uid s, h => by
    have := SequenceSet.shaped (L := L) s
    simp only [Imap.SearchKey.enc]
    shape
  | .before d, h | .on d, h | .sentBefore d, h | .sentOn d, h | .sentSince d, h | .since d, h => by
    simp only [SearchKey.Inv] at h
    have := NaiveDate.shaped (L := L) h
    simp only [Imap.SearchKey.enc]
    shape
  | .keyword a, h | .unkeyword a, h => by
    simp only [SearchKey.Inv] at h
    have := SafeAt.atom (L := L) h
    simp only [Imap.SearchKey.enc]
    shape
  | .larger n, h | .smaller n, h | .all, h | .answered, h | .deleted, h | .draft, h | .flagged, h | .new, h | .old, h | .recent, h
  | .seen, h | .unanswered, h | .undeleted, h | .undraft, h | .unflagged, h | .unseen, h => by
    simp only [Imap.SearchKey.enc]
    shape
  | .bcc s, h | .body s, h | .cc s, h | .from_ s, h | .subject s, h | .text s, h | .to s, h => by
    simp only [SearchKey.Inv] at h
    have := AString.shaped h
    simp only [Imap.SearchKey.enc]
    shape
  | .header n v, h => by
    simp only [SearchKey.Inv] at h
    have := AString.shaped h.1
    have := AString.shaped h.2
    simp only [Imap.SearchKey.enc]
    shape

theorem SearchKey.go_shaped : ∀ {l : List SearchKey}, SearchKey.Inv.go L l → ∀ x ∈ SearchKey.enc.go l, Shaped (SafeAt L) (FitsAt L) x
  | [], _ => by simp [SearchKey.enc.go]
  | k :: ks, h => by
    simp only [SearchKey.Inv.go] at h
    simp only [SearchKey.enc.go, List.mem_cons]
    rintro x (rfl | hx)
    · exact SearchKey.shaped h.1
    · exact SearchKey.go_shaped h.2 x hx
end

theorem Criteria.shaped {l : List SearchKey} (h : Criteria.Inv L l) : Shaped (SafeAt L) (FitsAt L) (encKeys l) :=
  Shaped.joinMap (.of rfl) fun k hk => SearchKey.shaped (h.2 k hk).1


/-! ### Commands -/

theorem params_shaped {l : List (List W)} (h : ∀ x ∈ l, Shaped (SafeAt L) (FitsAt L) x) : Shaped (SafeAt L) (FitsAt L) (encParams l) := by
  have := Shaped.join (p := SafeAt L) (q := FitsAt L) (sep := b!" ") (.of rfl) h
  unfold encParams
  split <;> shape

theorem paramsMap_shaped {α : Type} {f : α → List W} {l : List α} (h : ∀ x ∈ l, Shaped (SafeAt L) (FitsAt L) (f x)) :
    Shaped (SafeAt L) (FitsAt L) (encParams (l.map f)) := params_shaped fun x hx => by
  obtain ⟨a, ha, rfl⟩ := List.mem_map.1 hx
  exact h a ha

theorem spaces {α : Type} {f : α → List W} {l : List α} (h : ∀ x ∈ l, Shaped (SafeAt L) (FitsAt L) (f x)) :
    Shaped (SafeAt L) (FitsAt L) (join b!" " (l.map f)) := Shaped.joinMap (.of rfl) h

theorem SelectParameter.shaped (x : SelectParameter) : Shaped (SafeAt L) (FitsAt L) x.enc := by
  cases x with
  | condStore => exact .one (.of rfl)
  | qresync u m k s =>
    have hs := SequenceSet.shaped (L := L)
    simp only [Imap.SelectParameter.enc]
    refine .append (by shape) (.append ?_ (.append ?_ (by shape)))
    · cases k with
      | none => exact .nil
      | some k => have := hs k; shape
    · cases s with
      | none => exact .nil
      | some s => have := hs s.1; have := hs s.2; shape

theorem FetchModifier.shaped (x : FetchModifier) : Shaped (SafeAt L) (FitsAt L) x.enc := by
  cases x <;> unfold Imap.FetchModifier.enc <;> shape

theorem CapabilityEnable.shaped {x : CapabilityEnable} (h : CapabilityEnable.Inv x) : Shaped (SafeAt L) (FitsAt L) x.enc := by
  cases x with
  | other a => exact .one (SafeAt.atom h.1)
  | _ => exact .one (.of rfl)

theorem Resource.safe {x : Resource} (h : Resource.Inv x) : SafeAt L x.name := by
  cases x with
  | other a => exact SafeAt.atom h.1
  | _ => exact .of rfl

theorem QuotaSet.shaped {x : QuotaSet} (h : QuotaSet.Inv x) : Shaped (SafeAt L) (FitsAt L) x.enc := by
  have := Resource.safe (L := L) h.1
  unfold Imap.QuotaSet.enc
  shape

theorem SortCriterion.shaped (x : SortCriterion) : Shaped (SafeAt L) (FitsAt L) x.enc := by
  obtain ⟨r, k⟩ := x
  cases r <;> cases k <;> exact .wr (.of rfl) (.one (.of rfl))

theorem ThreadingAlgorithm.safe {x : ThreadingAlgorithm} (h : ThreadingAlgorithm.Inv x) : SafeAt L x.name := by
  cases x with
  | other a => exact SafeAt.atom h.1
  | _ => exact .of rfl

theorem IdParams.shaped {x : Option IdParams} (h : Opt (IdParams.Inv L) x) : Shaped (SafeAt L) (FitsAt L) (encIdParams x) := by
  cases x with
  | none => exact .one (.of rfl)
  | some l =>
    have h := spaces (f := encIdParam) fun x hx => by
      have h1 := IString.shaped (h l rfl x hx).1
      have h2 := NString.shaped (h l rfl x hx).2
      unfold encIdParam
      shape
    cases l with
    | nil => exact .one (by split <;> exact .of rfl)
    | cons x l => unfold encIdParams; shape

theorem EntryValue.shaped {x : EntryValue} (h : EntryValue.Inv L x) : Shaped (SafeAt L) (FitsAt L) x.enc := by
  have h1 := AString.shaped h.1
  have h2 := NString8.shaped h.2
  unfold Imap.EntryValue.enc
  shape

theorem GetMetadataOption.shaped (x : GetMetadataOption) : Shaped (SafeAt L) (FitsAt L) x.enc := by
  cases x <;> unfold Imap.GetMetadataOption.enc <;> shape

theorem charsetOpt_shaped {x : Option Charset} (h : Opt Charset.Inv x) : Shaped (SafeAt L) (FitsAt L) (encCharsetOpt x) := by
  cases x with
  | none => exact .nil
  | some c => exact .wr (.of rfl) (Charset.shaped (h c rfl))

theorem initialResponse_shaped (x : Option Bytes) : Shaped (SafeAt L) (FitsAt L) (encInitialResponse x) := by
  cases x with
  | none => exact .nil
  | some d =>
    refine .wr (.of rfl) (.one ?_)
    split
    · exact .of rfl
    · exact SafeAt.b64 d

theorem dateOpt_shaped {x : Option DateTime} (h : Opt DateTime.Inv x) : Shaped (SafeAt L) (FitsAt L) (encDateOpt x) := by
  cases x with
  | none => exact .nil
  | some d => exact .wr (.of rfl) (DateTime.shaped (h d rfl))

theorem storeModifiers_shaped (l : List StoreModifier) : Shaped (SafeAt L) (FitsAt L) (encStoreModifiers l) := by
  have := spaces (L := L) (f := encStoreModifier) (l := l) fun x _ => by unfold encStoreModifier; shape
  unfold encStoreModifiers
  split <;> shape

theorem entries_shaped {l : List Entry} (h : ∀ e ∈ l, AString.Inv L e) : Shaped (SafeAt L) (FitsAt L) (encEntries l) := by
  have := spaces fun e he => AString.shaped (h e he)
  unfold encEntries
  split
  · exact AString.shaped (h _ (by simp))
  · shape

theorem CommandBody.shaped {x : CommandBody} (h : CommandBody.Inv L x) : Shaped (SafeAt L) (FitsAt L) x.enc := by
  have hs := SequenceSet.shaped (L := L)
  cases x with
  | authenticate m ir =>
    have h1 := AuthMechanism.safe h
    have h2 := initialResponse_shaped (L := L) ir
    unfold Imap.CommandBody.enc Imap.AuthMechanism.enc
    shape
  | login u p | rename u p | list u p | lsub u p =>
    first
    | have h1 := AString.shaped h.1
      have h2 := AString.shaped h.2
      unfold Imap.CommandBody.enc
      shape
    | have h1 := Mailbox.shaped h.1
      have h2 := Mailbox.shaped h.2
      unfold Imap.CommandBody.enc
      shape
    | have h1 := Mailbox.shaped h.1
      have h2 := ListMailbox.shaped h.2
      unfold Imap.CommandBody.enc
      shape
  | select m ps | examine m ps =>
    have h1 := Mailbox.shaped h.1
    have h2 := paramsMap_shaped (L := L) fun x (_ : x ∈ ps) => SelectParameter.shaped x
    unfold Imap.CommandBody.enc
    shape
  | create m | delete m | subscribe m | unsubscribe m | getQuotaRoot m =>
    have h1 := Mailbox.shaped h
    unfold Imap.CommandBody.enc
    shape
  | status m l =>
    have h1 := Mailbox.shaped h.1
    have h2 := spaces (L := L) fun x (_ : x ∈ l) => StatusDataItemName.shaped x
    unfold Imap.CommandBody.enc
    shape
  | append m fs d msg =>
    have h1 := Mailbox.shaped h.1
    have h2 := paramsMap_shaped (L := L) fun x hx => Flag.shaped (h.2.1 x hx)
    have h3 := dateOpt_shaped (L := L) h.2.2.1
    have h4 := LiteralOrLiteral8.shaped h.2.2.2
    unfold Imap.CommandBody.enc
    shape
  | expungeUid s => have := hs s; unfold Imap.CommandBody.enc; shape
  | search c l u =>
    have h1 := charsetOpt_shaped (L := L) h.1
    have h2 := Criteria.shaped h.2
    unfold Imap.CommandBody.enc
    shape
  | sort s c l u =>
    have h1 := spaces (L := L) fun x (_ : x ∈ s) => SortCriterion.shaped x
    have h2 := Charset.shaped (L := L) h.2.1
    have h3 := Criteria.shaped h.2.2
    unfold Imap.CommandBody.enc
    shape
  | thread a c l u =>
    have h1 := ThreadingAlgorithm.safe (L := L) h.1
    have h2 := Charset.shaped (L := L) h.2.1
    have h3 := Criteria.shaped h.2.2
    unfold Imap.CommandBody.enc
    shape
  | fetch s i u ms =>
    have h1 := hs s
    have h2 := MacroOrNames.shaped h.2.1
    have h3 := paramsMap_shaped (L := L) fun x (_ : x ∈ ms) => FetchModifier.shaped x
    unfold Imap.CommandBody.enc
    shape
  | store s k r fs u ms =>
    have h1 := hs s
    have h2 := storeModifiers_shaped (L := L) ms
    have h3 := spaces (L := L) fun x hx => Flag.shaped (h.2.1 x hx)
    have h4 : Shaped (SafeAt L) (FitsAt L) k.enc := by cases k <;> unfold Imap.StoreType.enc <;> shape
    have h5 : Shaped (SafeAt L) (FitsAt L) r.enc := by cases r <;> unfold Imap.StoreResponse.enc <;> shape
    unfold Imap.CommandBody.enc
    shape
  | copy s m u | move s m u =>
    have h1 := hs s
    have h2 := Mailbox.shaped h.2
    unfold Imap.CommandBody.enc
    shape
  | enable cs =>
    have h1 := spaces (L := L) fun x hx => CapabilityEnable.shaped (h.2 x hx)
    unfold Imap.CommandBody.enc
    shape
  | getQuota r => have h1 := AString.shaped h; unfold Imap.CommandBody.enc; shape
  | setQuota r qs =>
    have h1 := AString.shaped h.1
    have h2 := spaces (L := L) fun x hx => QuotaSet.shaped (h.2 x hx)
    unfold Imap.CommandBody.enc
    shape
  | id ps => have := IdParams.shaped h.2; unfold Imap.CommandBody.enc; shape
  | setMetadata m es =>
    have h1 := Mailbox.shaped h.2.1
    have h2 := spaces fun x hx => EntryValue.shaped (h.2.2.2 x hx)
    unfold Imap.CommandBody.enc
    shape
  | getMetadata os m es =>
    have h1 := paramsMap_shaped (L := L) fun x (_ : x ∈ os) => GetMetadataOption.shaped x
    have h2 := Mailbox.shaped h.2.2.1
    have h3 := entries_shaped h.2.2.2.2
    unfold Imap.CommandBody.enc
    shape
  | _ => unfold Imap.CommandBody.enc; shape

/-! ### Bodies -/

omit [Quirks] in
theorem list1OrNil_shaped {α : Type} {sep : Bytes} (hs : SafeAt L sep) {f : α → List W} {l : List α}
    (h : ∀ x ∈ l, Shaped (SafeAt L) (FitsAt L) (f x)) : Shaped (SafeAt L) (FitsAt L) (list1OrNil sep (l.map f)) := by
  have := Shaped.joinMap hs h
  cases l with
  | nil => exact .one (.of rfl)
  | cons x l => exact .append (.append (.one (.of rfl)) this) (.one (.of rfl))

theorem Address.shaped {a : Address} (h : Address.Inv L a) : Shaped (SafeAt L) (FitsAt L) a.enc := by
  have h1 := NString.shaped h.1
  have h2 := NString.shaped h.2.1
  have h3 := NString.shaped h.2.2.1
  have h4 := NString.shaped h.2.2.2
  unfold Imap.Address.enc
  shape

theorem addresses_shaped {l : List Address} (h : All (Address.Inv L) l) : Shaped (SafeAt L) (FitsAt L) (encAddresses l) :=
  list1OrNil_shaped (.of rfl) fun a ha => Address.shaped (h a ha)

theorem Envelope.shaped {e : Envelope} (h : Envelope.Inv L e) : Shaped (SafeAt L) (FitsAt L) e.enc := by
  obtain ⟨h1, h2, h3, h4, h5, h6, h7, h8, h9, h10⟩ := h
  have h1 := NString.shaped h1
  have h2 := NString.shaped h2
  have h3 := addresses_shaped h3
  have h4 := addresses_shaped h4
  have h5 := addresses_shaped h5
  have h6 := addresses_shaped h6
  have h7 := addresses_shaped h7
  have h8 := addresses_shaped h8
  have h9 := NString.shaped h9
  have h10 := NString.shaped h10
  unfold Imap.Envelope.enc
  shape

mutual
theorem BodyExtension.shaped : ∀ {x : BodyExtension}, BodyExtension.Inv L x → Shaped (SafeAt L) (FitsAt L) x.enc
  | .nstring s, h => by
    simp only [BodyExtension.Inv] at h
    simp only [Imap.BodyExtension.enc]
    exact NString.shaped h
  | .number n, h => by simp only [Imap.BodyExtension.enc, encNat]; shape
  | .list l, h => by
    simp only [BodyExtension.Inv] at h
    have := Shaped.join (p := SafeAt L) (q := FitsAt L) (sep := b!" ") (.of rfl) (BodyExtension.go_shaped h.2)
    simp only [Imap.BodyExtension.enc]
    shape

theorem BodyExtension.go_shaped : ∀ {l : List BodyExtension}, BodyExtension.Inv.go L l → ∀ x ∈ BodyExtension.enc.go l, Shaped (SafeAt L) (FitsAt L) x
  | [], _ => by simp [BodyExtension.enc.go]
  | k :: ks, h => by
    simp only [BodyExtension.Inv.go] at h
    simp only [BodyExtension.enc.go, List.mem_cons]
    rintro x (rfl | hx)
    · exact BodyExtension.shaped h.1
    · exact BodyExtension.go_shaped h.2 x hx
end

theorem Params.shaped {l : Params} (h : Params.Inv L l) : Shaped (SafeAt L) (FitsAt L) (encParamList l) := by
  unfold encParamList list1AttrOrNil
  rw [List.map_map]
  refine list1OrNil_shaped (.of rfl) fun x hx => ?_
  exact .append (.append (IString.shaped (h x hx).1) (.one (.of rfl))) (IString.shaped (h x hx).2)

theorem opt_shaped {α : Type} {f : α → List W} {o : Option α} (h : ∀ a ∈ o, Shaped (SafeAt L) (FitsAt L) (f a)) : Shaped (SafeAt L) (FitsAt L) (encOpt f o) := by
  cases o with
  | none => exact .nil
  | some a => exact .wr (.of rfl) (h a rfl)

theorem Location.shaped {x : Location} (h : Location.Inv L x) : Shaped (SafeAt L) (FitsAt L) x.enc :=
  .append (NString.shaped h.1) (Shaped.flatMap fun e he => .wr (.of rfl) (BodyExtension.shaped (h.2 e he).1))

theorem Language.shaped {x : Language} (h : Language.Inv L x) : Shaped (SafeAt L) (FitsAt L) x.enc :=
  .append (list1OrNil_shaped (.of rfl) fun e he => IString.shaped (h.1 e he)) (opt_shaped fun a ha => Location.shaped (h.2 a ha))

theorem Disposition.shaped {x : Disposition} (h : Disposition.Inv L x) : Shaped (SafeAt L) (FitsAt L) x.enc := by
  refine .append ?_ (opt_shaped fun a ha => Language.shaped (h.2 a ha))
  have h := h.1
  cases hd : x.disposition with
  | none => exact .one (.of rfl)
  | some d =>
    have h1 := IString.shaped (h d hd).1
    have h2 := Params.shaped (h d hd).2
    unfold encDisposition
    shape

theorem SinglePartExt.shaped {x : SinglePartExt} (h : SinglePartExt.Inv L x) : Shaped (SafeAt L) (FitsAt L) x.enc :=
  .append (NString.shaped h.1) (opt_shaped fun a ha => Disposition.shaped (h.2 a ha))

theorem MultiPartExt.shaped {x : MultiPartExt} (h : MultiPartExt.Inv L x) : Shaped (SafeAt L) (FitsAt L) x.enc :=
  .append (Params.shaped h.1) (opt_shaped fun a ha => Disposition.shaped (h.2 a ha))

theorem BasicFields.shaped {x : BasicFields} (h : BasicFields.Inv L x) : Shaped (SafeAt L) (FitsAt L) x.enc := by
  have h1 := Params.shaped h.1
  have h2 := NString.shaped h.2.1
  have h3 := NString.shaped h.2.2.1
  have h4 := IString.shaped h.2.2.2.1
  unfold Imap.BasicFields.enc
  shape

mutual
theorem BodyStructure.shaped : ∀ {x : BodyStructure}, BodyStructure.Inv L x → Shaped (SafeAt L) (FitsAt L) x.enc
  | .basic f t s x, h => by
    simp only [BodyStructure.Inv] at h
    have h1 := BasicFields.shaped h.1
    have h2 := IString.shaped h.2.1
    have h3 := IString.shaped h.2.2.1
    have h4 := opt_shaped fun a ha => SinglePartExt.shaped (h.2.2.2 a ha)
    simp only [Imap.BodyStructure.enc]
    shape
  | .message f e b n x, h => by
    simp only [BodyStructure.Inv] at h
    have h1 := BasicFields.shaped h.1
    have h2 := Envelope.shaped h.2.1
    have h3 := BodyStructure.shaped h.2.2.1
    have h4 := opt_shaped fun a ha => SinglePartExt.shaped (h.2.2.2.2.2 a ha)
    simp only [Imap.BodyStructure.enc]
    shape
  | .text f s n x, h => by
    simp only [BodyStructure.Inv] at h
    have h1 := BasicFields.shaped h.1
    have h2 := IString.shaped h.2.1
    have h4 := opt_shaped fun a ha => SinglePartExt.shaped (h.2.2.2 a ha)
    simp only [Imap.BodyStructure.enc]
    shape
  | .multi l s x, h => by
    simp only [BodyStructure.Inv] at h
    have h1 := BodyStructure.go_shaped h.2.1
    have h2 := IString.shaped h.2.2.1
    have h4 := opt_shaped fun a ha => MultiPartExt.shaped (h.2.2.2 a ha)
    simp only [Imap.BodyStructure.enc]
    shape

theorem BodyStructure.go_shaped : ∀ {l : List BodyStructure}, BodyStructure.Inv.go L l → Shaped (SafeAt L) (FitsAt L) (BodyStructure.enc.go l)
  | [], _ => by simp only [BodyStructure.enc.go]; exact .nil
  | k :: ks, h => by
    simp only [BodyStructure.Inv.go] at h
    simp only [BodyStructure.enc.go]
    exact .append (BodyStructure.shaped h.1) (BodyStructure.go_shaped h.2)
end

/-! ### Responses -/

theorem Capability.safe {x : Capability} (h : Capability.Inv L x) : SafeAt L x.name := by
  cases x with
  | auth m => exact SafeAt.append (.of rfl) (AuthMechanism.safe h)
  | quotaRes r => exact SafeAt.append (.of rfl) (Resource.safe h.1)
  | sort a =>
    cases a with
    | none => exact .of rfl
    | some a =>
      refine SafeAt.append (.of rfl) ?_
      cases a with
      | display => exact .of rfl
      | other a => exact SafeAt.atom h.1
  | thread a => exact SafeAt.append (.of rfl) (ThreadingAlgorithm.safe h)
  | other a => exact SafeAt.atom h.1
  | _ => exact .of rfl

theorem UidSet.shaped (l : List UidElement) : Shaped (SafeAt L) (FitsAt L) (encUidSet l) :=
  Shaped.joinMap (.of rfl) fun x _ => by cases x <;> unfold Imap.UidElement.enc <;> shape

theorem NoBreak.unbroken {bs : Bytes} (h : NoBreak bs) : isUnbroken bs = true := isUnbroken_of_forall fun b hb =>
  ⟨fun e => h.1 (e ▸ hb), fun e => h.2 (e ▸ hb)⟩

theorem Code.shaped {t : Bytes} {c : Code} (h : Code.Inv L t c) : Shaped (UnbrokenAt L) (FitsAt L) c.enc := by
  cases c with
  | badCharset l =>
    have := spaces (L := L) fun x hx => Charset.shaped (h x hx)
    refine Shaped.weaken ?_
    show Shaped (SafeAt L) (FitsAt L) (encBadCharset l)
    unfold encBadCharset
    split <;> shape
  | capability l =>
    have := spaces (L := L) fun x hx => Shaped.one (Capability.safe (h.2 x hx))
    refine Shaped.weaken ?_
    unfold Imap.Code.enc Imap.Capability.enc
    shape
  | permanentFlags l =>
    have := spaces (L := L) fun x hx => FlagPerm.shaped (h x hx)
    refine Shaped.weaken ?_
    unfold Imap.Code.enc
    shape
  | referral url => exact .wr (.of rfl) (.one fun e => NoBreak.unbroken (h.2.2.2 e))
  | metadata c =>
    refine .wr (.of rfl) ?_
    cases c <;> unfold Imap.MetadataCode.enc <;> shape
  | copyUid v s d =>
    have h1 := UidSet.shaped (L := L) s
    have h2 := UidSet.shaped (L := L) d
    refine Shaped.weaken ?_
    unfold Imap.Code.enc
    shape
  | modified s => exact Shaped.weaken (.wr (.of rfl) (SequenceSet.shaped s))
  | other bs => exact .one fun e => NoBreak.unbroken (h.2 e)
  | _ => unfold Imap.Code.enc; shape

theorem RespText.shaped {c : Option Code} {t : Bytes} (h : RespText.Inv L c t) : Shaped (UnbrokenAt L) (FitsAt L) (encRespText c t) := by
  have ht : UnbrokenAt L t := fun _ => text_unbroken h.1.2
  cases c with
  | none => exact .one ht
  | some c =>
    have := Code.shaped (h.2.1 c rfl)
    unfold encRespText
    shape

theorem StatusDataItem.shaped (x : StatusDataItem) : Shaped (SafeAt L) (FitsAt L) x.enc := by
  cases x <;> unfold Imap.StatusDataItem.enc <;> shape

theorem MessageDataItem.shaped {x : MessageDataItem} (h : MessageDataItem.Inv L x) : Shaped (SafeAt L) (FitsAt L) x.enc := by
  cases x with
  | body b => exact .wr (.of rfl) (BodyStructure.shaped h.1)
  | bodyStructure b => exact .wr (.of rfl) (BodyStructure.shaped h.1)
  | bodyExt s o d =>
    have h1 := sectionOpt_shaped h.1
    have h2 := NString.shaped h.2.2
    have h3 : Shaped (SafeAt L) (FitsAt L) (encOrigin o) := by cases o <;> unfold encOrigin <;> shape
    unfold Imap.MessageDataItem.enc
    shape
  | envelope e => exact .wr (.of rfl) (Envelope.shaped h)
  | flags l =>
    have := spaces (L := L) fun x hx => FlagFetch.shaped (h x hx)
    unfold Imap.MessageDataItem.enc
    shape
  | internalDate t => exact .wr (.of rfl) (DateTime.shaped h)
  | rfc822 s | rfc822Header s | rfc822Text s => exact .wr (.of rfl) (NString.shaped h)
  | binary s v =>
    have h1 := part_shaped (L := L) s
    have h2 := NString8.shaped h.2
    unfold Imap.MessageDataItem.enc
    shape
  | binarySize s n =>
    have h1 := part_shaped (L := L) s
    unfold Imap.MessageDataItem.enc
    shape
  | _ => unfold Imap.MessageDataItem.enc; shape

mutual
theorem Thread.shaped : ∀ (x : Thread), Shaped (SafeAt L) (FitsAt L) x.enc
  | .members p l => by
    have h1 := Thread.go_shaped l
    have h2 : Shaped (SafeAt L) (FitsAt L) (encPrefix p l) := by
      have := spaces (L := L) (f := encNat) (l := p) fun n _ => by unfold encNat; shape
      unfold encPrefix
      split <;> shape
    simp only [Imap.Thread.enc]
    shape
  | .nested l => by
    have h1 := Thread.go_shaped l
    simp only [Imap.Thread.enc]
    shape

theorem Thread.go_shaped : ∀ (l : List Thread), Shaped (SafeAt L) (FitsAt L) (Thread.enc.go l)
  | [] => by simp only [Thread.enc.go]; exact .nil
  | t :: l => by
    simp only [Thread.enc.go]
    exact .append (Thread.shaped t) (Thread.go_shaped l)
end

theorem delimiter_shaped {d : Option UInt8} (h : Opt TextChar d) : Shaped (SafeAt L) (FitsAt L) (encDelimiter d) := by
  cases d with
  | none => exact .one (.of rfl)
  | some c =>
    refine .merge (.merge (.one (.of ?_)))
    have h := (textChar_iff c).2 (h c rfl)
    have key : ∀ c : UInt8, isTextChar c = true → isSafe (b!"\"" ++ encQuotedChar c ++ b!"\"") = true := forall_byte (by decide)
    exact key c h

theorem Namespace.shaped {n : Namespace} (h : Namespace.Inv L n) : Shaped (SafeAt L) (FitsAt L) n.enc := by
  have h1 := IString.shaped h.1
  have h2 := delimiter_shaped (L := L) h.2.1
  have h3 : Shaped (SafeAt L) (FitsAt L) (n.extensions.map NamespaceExt.enc).flatten := Shaped.flattenMap fun e he => by
    have h1 := IString.shaped (h.2.2 e he).1
    have h2 := spaces fun x hx => IString.shaped ((h.2.2 e he).2.2 x hx)
    unfold Imap.NamespaceExt.enc
    shape
  unfold Imap.Namespace.enc
  shape

theorem namespaces_shaped {l : List Namespace} (h : All (Namespace.Inv L) l) : Shaped (SafeAt L) (FitsAt L) (encNamespaces l) := by
  have := Shaped.flattenMap fun x hx => Namespace.shaped (h x hx)
  unfold encNamespaces
  split <;> shape

theorem QuotaGet.shaped {x : QuotaGet} (h : QuotaGet.Inv x) : Shaped (SafeAt L) (FitsAt L) x.enc := by
  have := Resource.safe (L := L) h.1
  unfold Imap.QuotaGet.enc
  shape

theorem MetadataResponse.shaped {x : MetadataResponse} (h : MetadataResponse.Inv L x) : Shaped (SafeAt L) (FitsAt L) x.enc := by
  cases x with
  | withValues l =>
    have := spaces fun x hx => EntryValue.shaped (h.2 x hx)
    unfold Imap.MetadataResponse.enc
    shape
  | withoutValues l => exact spaces fun x hx => AString.shaped (h.2 x hx)

theorem numbers_shaped {kw : Bytes} (h : SafeAt L kw) (l : List NzU32) (m : Option Nat) : Shaped (SafeAt L) (FitsAt L) (encNumbers kw l ++ encModSeqOpt m) := by
  have h1 := spaces (L := L) (f := encNat) (l := l) fun n _ => by unfold encNat; shape
  refine .append ?_ ?_
  · unfold encNumbers
    split
    · exact .one (SafeAt.append (.of rfl) h)
    · exact .wr (SafeAt.append (SafeAt.append (.of rfl) h) (.of rfl)) h1
  · cases m <;> unfold encModSeqOpt <;> shape

theorem spaced_shaped {α : Type} {f : α → List W} {l : List α} (h : ∀ x ∈ l, Shaped (SafeAt L) (FitsAt L) (f x)) : Shaped (SafeAt L) (FitsAt L) (encSpaced f l) :=
  Shaped.flattenMap fun x hx => .wr (.of rfl) (h x hx)

theorem Data.shaped {d : Data} (h : Data.Inv L d) : Shaped (SafeAt L) (FitsAt L) d.encLine := by
  cases d with
  | capability l =>
    have := spaces (L := L) fun x hx => Shaped.one (Capability.safe (h.2 x hx))
    unfold Imap.Data.encLine Imap.Capability.enc
    shape
  | list l d m | lsub l d m =>
    have h1 := spaces (L := L) fun x hx => FlagNameAttribute.shaped (h.1 x hx)
    have h2 := delimiter_shaped (L := L) h.2.1
    have h3 := Mailbox.shaped h.2.2
    unfold Imap.Data.encLine
    shape
  | status m l =>
    have h1 := Mailbox.shaped h.1
    have h2 := spaces (L := L) fun x (_ : x ∈ l) => StatusDataItem.shaped x
    unfold Imap.Data.encLine
    shape
  | search l m | sort l m => exact numbers_shaped (.of rfl) l m
  | thread l =>
    have h1 := Shaped.flattenMap (p := SafeAt L) (q := FitsAt L) fun x (_ : x ∈ l) => Thread.shaped x
    show Shaped (SafeAt L) (FitsAt L) (encThreads l)
    unfold encThreads
    split <;> shape
  | flags l =>
    have h1 := spaces (L := L) fun x hx => Flag.shaped (h x hx)
    unfold Imap.Data.encLine
    shape
  | fetch n l =>
    have h1 := spaces fun x hx => MessageDataItem.shaped (h.2.2 x hx)
    unfold Imap.Data.encLine
    shape
  | enabled l => exact .wr (.of rfl) (spaced_shaped fun x hx => CapabilityEnable.shaped (h x hx))
  | quota r l =>
    have h1 := AString.shaped h.1
    have h2 := spaces (L := L) fun x hx => QuotaGet.shaped (h.2.2 x hx)
    unfold Imap.Data.encLine
    shape
  | quotaRoot m l =>
    have h1 := Mailbox.shaped h.1
    have h2 := spaced_shaped fun x hx => AString.shaped (h.2 x hx)
    unfold Imap.Data.encLine
    shape
  | id_ p => exact .wr (.of rfl) (IdParams.shaped h.2)
  | metadata m r =>
    have h1 := Mailbox.shaped h.2.1
    have h2 := MetadataResponse.shaped h.2.2
    unfold Imap.Data.encLine
    shape
  | vanished e s =>
    have h1 := SequenceSet.shaped (L := L) s
    unfold Imap.Data.encLine
    cases e <;> shape
  | namespace_ p o s =>
    have h1 := namespaces_shaped h.2.1
    have h2 := namespaces_shaped h.2.2.1
    have h3 := namespaces_shaped h.2.2.2
    unfold Imap.Data.encLine
    shape
  | _ => unfold Imap.Data.encLine; shape

/-! ### Messages -/

end Imap.Spec

namespace Imap

/-- Lines with announcements, followed by the literals that they announce. -/
inductive Pieces (p q : Bytes → Prop) : List Fragment → Prop
  | nil : Pieces p q []
  | cons {a d : Bytes} {m : Mode} {fs : List Fragment} : p a → q d → Pieces p q fs →
      Pieces p q (.line (a ++ announce d.length m) :: .literal d m :: fs)

/-- Fragments of calls that write text and announced literals, and then `t`. -/
theorem fragments_shaped {p q : Bytes → Prop} (h0 : p []) (ha : ∀ a b, p a → p b → p (a ++ b)) {xs : List W} (h : Shaped p q xs)
    {t : Bytes} (ht : t ≠ []) : ∃ fs l, fragments (xs ++ [.wr t]) = fs ++ [.line (l ++ t)] ∧ Pieces p q fs ∧ p l := by
  have key : ∀ {xs : List W}, Shaped p q xs → ∀ acc items, p acc →
      ∃ fs l, xs.foldl Ctx.step ⟨acc, items⟩ = ⟨l, items ++ fs⟩ ∧ Pieces p q fs ∧ p l := by
    intro xs h
    induction h with
    | nil => exact fun acc items hp => ⟨[], acc, by simp, .nil, hp⟩
    | @wr bs ws hb _ ih =>
      intro acc items hp
      exact ih (acc ++ bs) items (ha _ _ hp hb)
    | @lit a d m ws hb hq _ ih =>
      intro acc items hp
      obtain ⟨fs, l, h1, h2, h3⟩ := ih [] (items ++ [.line (acc ++ (a ++ announce d.length m)), .literal d m]) h0
      refine ⟨.line (acc ++ a ++ announce d.length m) :: .literal d m :: fs, l, ?_, .cons (ha _ _ hp hb) hq h2, h3⟩
      simp only [List.foldl_cons, Ctx.step, List.nil_append]
      simpa using h1
    | @merge a b ws _ ih =>
      intro acc items hp
      obtain ⟨fs, l, h1, h2, h3⟩ := ih acc items hp
      refine ⟨fs, l, ?_, h2, h3⟩
      simpa [Ctx.step] using h1
  obtain ⟨fs, l, h1, h2, h3⟩ := key h [] [] h0
  refine ⟨fs, l, ?_, h2, h3⟩
  unfold fragments
  rw [List.foldl_append, h1]
  cases t with
  | nil => exact absurd rfl ht
  | cons b t => simp [Ctx.step, Ctx.intoItems]

/-- The fragments of a message: announced literals, and a last line, which ends with the free text if there is some. -/
structure MessageShape (L : Spec.Level) (fs : List Fragment) (text : Option Bytes) where
  pieces : List Fragment
  body : Bytes
  eq : fs = pieces ++ [.line (body ++ b!"\r\n")]
  announced : Pieces (Spec.UnbrokenAt L) (Spec.FitsAt L) pieces
  unbroken : Spec.UnbrokenAt L body
  safe : text = none → Spec.SafeAt L body
  trailing : ∀ t ∈ text, ∃ l, body = l ++ b!" " ++ t

open Spec in
theorem shape_of_safe {L : Level} {ws : List W} (h : Shaped (SafeAt L) (FitsAt L) ws) :
    Nonempty (MessageShape L (fragments (ws ++ [.wr b!"\r\n"])) none) := by
  obtain ⟨fs, l, h1, h2, h3⟩ := fragments_shaped (.of rfl) (fun a b => SafeAt.append) h (t := b!"\r\n") (by simp)
  refine ⟨⟨fs, l, h1, ?_, h3.unbroken, fun _ => h3, nofun⟩⟩
  clear h1
  induction h2 with
  | nil => exact .nil
  | cons ha hq _ ih => exact .cons (SafeAt.unbroken ha) hq ih

open Spec in
theorem UnbrokenAt.append {L : Level} {xs ys : Bytes} (hx : UnbrokenAt L xs) (hy : UnbrokenAt L ys) : UnbrokenAt L (xs ++ ys) :=
  fun e => isUnbroken_append (hx e) (hy e)

open Spec in
theorem shape_of_text {L : Level} {ws xs : List W} {t : Bytes} (ht : UnbrokenAt L t)
    (hf : ∀ c : Ctx, ws.foldl Ctx.step c = (xs ++ [W.wr (b!" " ++ t ++ b!"\r\n")]).foldl Ctx.step c)
    (h : Shaped (UnbrokenAt L) (FitsAt L) xs) : Nonempty (MessageShape L (fragments ws) (some t)) := by
  obtain ⟨fs, l, h1, h2, h3⟩ := fragments_shaped (.of rfl) (fun a b => UnbrokenAt.append) h
    (t := b!" " ++ t ++ b!"\r\n") (by simp)
  refine ⟨⟨fs, l ++ b!" " ++ t, ?_, h2, UnbrokenAt.append (UnbrokenAt.append h3 (.of rfl)) ht, nofun, ?_⟩⟩
  · rw [← show fragments (xs ++ [.wr (b!" " ++ t ++ b!"\r\n")]) = fragments ws by unfold fragments; rw [hf], h1]
    simp
  · intro t' ht'
    cases ht'
    exact ⟨l, rfl⟩

open Spec in
theorem shape_of_respText [Quirks] {L : Level} {pre : List W} {c : Option Code} {t : Bytes} (h : RespText.Inv L c t)
    (hp : Shaped (UnbrokenAt L) (FitsAt L) pre) :
    Nonempty (MessageShape L (fragments (pre ++ .wr b!" " :: encRespText c t ++ [.wr b!"\r\n"])) (some t)) := by
  have ht : UnbrokenAt L t := fun _ => text_unbroken h.1.2
  cases c with
  | none =>
    refine shape_of_text (xs := pre) ht (fun c => ?_) hp
    simp [encRespText, Ctx.step]
  | some c =>
    have hc := Code.shaped (h.2.1 c rfl)
    refine shape_of_text (xs := pre ++ .wr b!" [" :: c.enc ++ [.wr b!"]"]) ht (fun x => ?_) (by shape)
    simp [encRespText, Ctx.step]

open Spec in
theorem message_shape [Quirks] (L : Level) (k : Codec) (m : k.Message) (h : Message.Inv L k m) :
    Nonempty (MessageShape L (k.encode m) (k.trailingText m)) := by
  cases k with
  | greeting =>
    have := shape_of_respText (pre := [.wr b!"* ", .wr (Greeting.kind m).name]) h (by cases (Greeting.kind m) <;> unfold GreetingKind.name <;> shape)
    exact this
  | command =>
    obtain ⟨t, b⟩ := m
    have h1 := SafeAt.tag (L := L) h.1
    have h2 := CommandBody.shaped h.2
    exact shape_of_safe (ws := .wr t :: .wr b!" " :: b.enc) (by shape)
  | authenticateData =>
    cases m with
    | continue_ d => exact shape_of_safe (ws := [.wr (b64Encode d)]) (.one (SafeAt.b64 d))
    | cancel => exact shape_of_safe (ws := [.wr b!"*"]) (.one (.of rfl))
  | idleDone => exact shape_of_safe (ws := [.wr b!"DONE"]) (.one (.of rfl))
  | response =>
    cases m with
    | data d => exact shape_of_safe (Data.shaped h)
    | continue_ r =>
      cases r with
      | base64 d => exact shape_of_safe (ws := [.wr b!"+ ", .wr (b64Encode d)]) (.wr (.of rfl) (.one (SafeAt.b64 d)))
      | basic c t =>
        have := shape_of_respText (pre := [.wr b!"+"]) h.1 (by shape)
        exact this
    | status s =>
      cases s with
      | untagged k c t =>
        have := shape_of_respText (pre := [.wr b!"*", .wr b!" ", .wr k.name]) h (by cases k <;> unfold StatusKind.name <;> shape)
        exact this
      | tagged tag k c t =>
        have ht := (SafeAt.tag (L := L) h.1).unbroken
        have := shape_of_respText (pre := [.wr tag, .wr b!" ", .wr k.name]) h.2 (by cases k <;> unfold StatusKind.name <;> shape)
        exact this
      | bye c t =>
        have := shape_of_respText (pre := [.wr b!"*", .wr b!" ", .wr b!"BYE"]) h (by shape)
        exact this

end Imap
