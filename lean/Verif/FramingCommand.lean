import Verif.Framing
import Verif.CommandLemmas
import Verif.FragInv
import Verif.Codec
/-
Framing of literals and of all the parsers of commands.
-/
set_option maxRecDepth 10000

namespace Imap.Frame

open Frag Spec

variable {α β : Type}

/-! ### Literals -/

theorem At.step {lt : Latest} {s : St} {x : Bytes} (r : Bytes) {d : UInt8} (h : At lt s x) (h10 : d ≠ 10) (h34 : d ≠ 34) :
    At (lineStep lt d).1 (s.step d) r := by
  obtain rfl := h
  simp [At, St.step, stepText, Quote.step, h10, h34]

theorem At.run {lt : Latest} {s : St} {x : Bytes} (r : Bytes) {w : Bytes} (h : At lt s x) (h10 : ∀ d ∈ w, d ≠ 10 ∧ d ≠ 34) :
    At (scan lt w) (s.run w) r := by
  induction w generalizing s lt with
  | nil => exact h
  | cons d w ih => exact ih (At.step r h (h10 d (by simp)).1 (h10 d (by simp)).2) fun e he => h10 e (by simp [he])

theorem At.waiting {lt : Latest} {s : St} {x : Bytes} (h : At lt s x) : Waiting s := by
  obtain rfl := h
  exact Or.inl ⟨_, _, rfl⟩

theorem Ready.at {s : St} {x : Bytes} (h : Ready .out s x) : At .other s x ∨ ∃ m, s = .ann ⟨m, 0⟩ := by
  rcases h with ⟨lt, rfl, hlt⟩ | ⟨_, _, h⟩
  · exact Or.inl (by rw [hlt rfl]; rfl)
  · exact Or.inr h

theorem Ready.step_at {s : St} {x : Bytes} (r : Bytes) {d : UInt8} (h : Ready .out s x) (h10 : d ≠ 10) (h34 : d ≠ 34) :
    At (lineStep .other d).1 (s.step d) r := by
  rcases Ready.at h with h | ⟨m, rfl⟩
  · exact At.step r h h10 h34
  · simp [At, St.step, stepText, Quote.step, h10, h34]

theorem tri_open : Tri (Ready .out) (fun _ => At .opening) (tag b!"{") := by
  constructor
  · intro s x r v hs h
    obtain rfl := exists_of_tag h
    exact ⟨b!"{", rfl, Ready.step_at (d := 123) r hs (by decide) (by decide)⟩
  · intro s x hs h
    rcases x with _ | ⟨d, x⟩
    · exact Ready.waiting hs
    · simp only [tag] at h; split at h <;> simp at h
  · intro s x t n m hs h
    rcases x with _ | ⟨d, x⟩
    · simp [tag] at h
    · simp only [tag] at h; split at h <;> simp at h

theorem tri_open8 : Tri (Ready .out) (fun _ => At .opening) (tag b!"~{") := by
  constructor
  · intro s x r v hs h
    obtain rfl := exists_of_tag h
    exact ⟨b!"~{", rfl, At.step (lt := .other) (d := 123) (x := []) r (Ready.step_at (d := 126) [] hs (by decide) (by decide))
      (by decide) (by decide)⟩
  · intro s x hs h
    rcases x with _ | ⟨d, _ | ⟨e, x⟩⟩
    · exact Ready.waiting hs
    · simp only [tag] at h
      split at h <;> simp at h
      next hd =>
        subst hd
        exact At.waiting (Ready.step_at (d := 126) [] hs (by decide) (by decide))
    · simp only [tag] at h; split at h <;> try simp at h
      split at h <;> simp at h
  · intro s x t n m hs h
    rcases x with _ | ⟨d, _ | ⟨e, x⟩⟩
    · simp [tag] at h
    · simp only [tag] at h; split at h <;> simp at h
    · simp only [tag] at h; split at h <;> try simp at h
      split at h <;> simp at h

theorem scan_opening {ds : Bytes} (hne : ds ≠ []) (h : ∀ d ∈ ds, isDigit d) (hv : decVal ds < 2^32) :
    scan .opening ds = .digit (decVal ds) := by
  cases ds with
  | nil => exact absurd rfl hne
  | cons d ds =>
    have hd : isDigit d := h d (by simp)
    have hst : (lineStep .opening d).1 = .digit (digitVal d) := by
      have : d ≠ 13 ∧ d ≠ 10 ∧ d ≠ 123 := by unfold isDigit at hd; grind
      unfold lineStep
      simp [this, hd]
    have := scan_digits (digitVal d) ds (fun d hd => h d (by simp [hd])) (by simpa [decVal] using hv)
    simp only [scan, List.foldl_cons, hst] at this ⊢
    simpa [decVal] using this

theorem digit_calm : ∀ d : UInt8, isDigit d = true → d ≠ 10 ∧ d ≠ 34 := forall_byte (by decide)

theorem tri_number : Tri (At .opening) (fun n => At (.digit n)) number := by
  constructor
  · intro s x r v hs h
    simp only [number, mapRes] at h
    split at h <;> try simp at h
    split at h <;> simp at h
    next r' ds e w _ e2 =>
      obtain ⟨rfl, rfl⟩ := h
      split at e2 <;> simp at e2
      next hlt =>
        subst e2
        obtain ⟨rfl, hne, hd⟩ := takeWhile1_ok' e
        refine ⟨ds, rfl, ?_⟩
        have := At.run r' hs fun d h => digit_calm d (hd d h)
        rwa [scan_opening hne (fun d h => by simpa using hd d h) (by simpa using hlt)] at this
  · intro s x hs h
    simp only [number, mapRes] at h
    split at h <;> try simp at h
    · split at h <;> simp at h
    · next e => exact At.waiting (At.run [] hs fun d h => digit_calm d (takeWhile1_inc e d h))
  · intro s x t n m hs h
    simp only [number, mapRes] at h
    split at h <;> try simp at h
    · split at h <;> simp at h
    · next e => exact (takeWhile1_fail e).elim

/-- The state after an optional `+`. -/
def plusOf (n : Nat) (o : Option Unit) : Latest := if o.isSome then .plus n else .digit n

theorem tri_plus (n : Nat) : Tri (At (.digit n)) (fun o => At (plusOf n o)) (opt (char 43)) := by
  constructor
  · intro s x r v hs h
    rcases x with _ | ⟨d, x⟩
    · simp [opt, char] at h
    · simp only [opt, char] at h
      by_cases hd : d = 43
      · simp [hd] at h
        obtain ⟨rfl, rfl⟩ := h
        subst hd
        exact ⟨[43], rfl, At.step (d := 43) _ hs (by decide) (by decide)⟩
      · simp [hd] at h
        obtain ⟨rfl, rfl⟩ := h
        exact ⟨[], rfl, hs⟩
  · intro s x hs h
    rcases x with _ | ⟨d, x⟩
    · exact At.waiting hs
    · simp only [opt, char] at h
      by_cases hd : d = 43 <;> simp [hd] at h
  · intro s x t k m hs h
    rcases x with _ | ⟨d, x⟩
    · simp [opt, char] at h
    · simp only [opt, char] at h
      by_cases hd : d = 43 <;> simp [hd] at h

/-- The mode of a literal. -/
def modeOf (o : Option Unit) : Mode := if o.isSome then .nonSync else .sync

theorem tri_close (n : Nat) (o : Option Unit) : Tri (At (plusOf n o)) (fun _ => At (.closing ⟨modeOf o, n⟩)) (tag b!"}") := by
  constructor
  · intro s x r v hs h
    obtain rfl := exists_of_tag h
    refine ⟨b!"}", rfl, ?_⟩
    have := At.step (d := 125) r hs (by decide) (by decide)
    cases o <;> exact this
  · intro s x hs h
    rcases x with _ | ⟨d, x⟩
    · exact At.waiting hs
    · simp only [tag] at h; split at h <;> simp at h
  · intro s x t n m hs h
    rcases x with _ | ⟨d, x⟩
    · simp [tag] at h
    · simp only [tag] at h; split at h <;> simp at h

/-- Just announced. -/
def Anned (a : Ann) (s : St) (_ : Bytes) : Prop := s = .ann a

/-- The end of a line with state `lt`. -/
def Eol (lt : Latest) (s : St) (_ : Bytes) : Prop := s = match annOf lt with | some a => St.ann a | none => .ended

theorem At.lf {lt : Latest} {s : St} {x : Bytes} (r : Bytes) (h : At lt s x) : Eol lt (s.step 10) r := by
  obtain rfl := h
  simp only [Eol, St.step, stepText, and_self, if_true]
  cases annOf lt <;> rfl

theorem annOf_cr (lt : Latest) (h : ∀ a, lt ≠ .cr a) : annOf (lineStep lt 13).1 = annOf lt := by
  cases lt <;> simp_all [lineStep, annOf]

theorem eol_cr {lt : Latest} (h : ∀ a, lt ≠ .cr a) {s : St} {x : Bytes} (he : Eol (lineStep lt 13).1 s x) : Eol lt s x := by
  unfold Eol at *
  rwa [annOf_cr lt h] at he

variable [Q : Quirks]

theorem tri_crlf {A : St → Bytes → Prop} {lt : Latest} (hlt : ∀ a, lt ≠ .cr a) (wait : ∀ s, A s [] → Waiting s)
    (cr : ∀ s x r, A s (13 :: x) → At (lineStep lt 13).1 (s.step 13) r) (lf : ∀ s x r, A s (10 :: x) → Eol lt (s.step 10) r) :
    Tri A (fun _ => Eol lt) crlf := by
  unfold crlf
  split
  · constructor
    · intro s x r v hs h
      rcases x with _ | ⟨d, x⟩
      · simp [opt, char, Res.andThen] at h
      · simp only [P.bind_apply, opt, char] at h
        by_cases hd : d = 13
        · subst hd
          simp at h
          obtain rfl := exists_of_char h
          exact ⟨[13, 10], rfl, eol_cr hlt (At.lf r (cr s _ [] hs))⟩
        · simp [hd] at h
          obtain h' := exists_of_char h
          simp at h'
          obtain ⟨rfl, rfl⟩ := h'
          exact ⟨[10], rfl, lf s _ x hs⟩
    · intro s x hs h
      rcases x with _ | ⟨d, x⟩
      · exact wait s hs
      · simp only [P.bind_apply, opt, char] at h
        by_cases hd : d = 13
        · subst hd
          simp at h
          rcases x with _ | ⟨e, x⟩
          · exact At.waiting (cr s _ [] hs)
          · simp only [char] at h; split at h <;> simp at h
        · simp [hd] at h
          simp only [char] at h
          split at h <;> simp at h
    · intro s x t n m hs h
      rcases x with _ | ⟨d, x⟩
      · simp [opt, char, Res.andThen] at h
      · simp only [P.bind_apply, opt, char] at h
        by_cases hd : d = 13
        · subst hd
          simp at h
          rcases x with _ | ⟨e, x⟩
          · simp [char] at h
          · simp only [char] at h; split at h <;> simp at h
        · simp [hd] at h
          simp only [char] at h
          split at h <;> simp at h
  · constructor
    · intro s x r v hs h
      obtain rfl := exists_of_tag h
      exact ⟨[13, 10], rfl, eol_cr hlt (At.lf r (cr s _ [] hs))⟩
    · intro s x hs h
      rcases x with _ | ⟨d, _ | ⟨e, x⟩⟩
      · exact wait s hs
      · simp only [tag] at h
        split at h <;> simp at h
        next hd =>
          subst hd
          exact At.waiting (cr s _ [] hs)
      · simp only [tag] at h; split at h <;> try simp at h
        split at h <;> simp at h
    · intro s x t n m hs h
      rcases x with _ | ⟨d, _ | ⟨e, x⟩⟩
      · simp [tag] at h
      · simp only [tag] at h; split at h <;> simp at h
      · simp only [tag] at h; split at h <;> try simp at h
        split at h <;> simp at h

theorem tri_crlf_ann (a : Ann) : Tri (At (.closing a)) (fun _ => Anned a) crlf :=
  tri_crlf (lt := .closing a) (by simp) (fun _ h => At.waiting h) (fun _ _ r h => At.step r h (by decide) (by decide))
    (fun _ _ r h => At.lf r h)

theorem tri_crlf_end : Tri (Ready .out) (fun _ s _ => s = .ended) crlf :=
  tri_crlf (lt := .other) (by simp) (fun _ h => Ready.waiting h) (fun _ _ r h => Ready.step_at r h (by decide) (by decide))
    (fun s _ r h => by
      rcases Ready.at h with h | ⟨m, rfl⟩
      · exact At.lf r h
      · exact rfl)

theorem tri_hdr {start : Bytes} (h : Tri (Ready .out) (fun _ => At .opening) (tag start)) :
    Tri (Ready .out) (fun v => Anned ⟨v.2, v.1⟩) (literalHdr start) := by
  unfold literalHdr
  exact Tri.bind h fun _ => Tri.bind tri_number fun n => Tri.bind (tri_plus n) fun o => Tri.bind (tri_close n o) fun _ =>
    Tri.bind (tri_crlf_ann _) fun _ => Tri.pure (v := (n, modeOf o)) (B := fun v : Nat × Mode => Anned ⟨v.2, v.1⟩)

omit Q in
theorem run_lit_lt (k : Nat) (w : Bytes) (h : w.length < k) : (St.lit k).run w = .lit (k - w.length) := by
  induction w generalizing k with
  | nil => rfl
  | cons d w ih =>
    obtain ⟨k, rfl⟩ : ∃ j, k = j + 2 := ⟨k - 2, by simp at h; omega⟩
    simp at h
    have : (St.lit (k + 2)).step d = .lit (k + 1) := rfl
    rw [run_cons, this, ih _ (by omega)]
    congr 1
    simp

omit Q in
theorem run_lit_eq (w : Bytes) (h : w ≠ []) : (St.lit w.length).run w = .text .other .out := by
  induction w with
  | nil => exact absurd rfl h
  | cons d w ih =>
    cases w with
    | nil => rfl
    | cons e w => exact ih (by simp)

omit Q in
theorem ann_step (m : Mode) (n : Nat) (d : UInt8) (hn : n ≠ 0) : (St.ann ⟨m, n⟩).step d = (St.lit n).step d := by
  match n with
  | 0 => exact absurd rfl hn
  | 1 => rfl
  | n + 2 => rfl

omit Q in
theorem ann_run (m : Mode) (n : Nat) (w : Bytes) (hn : n ≠ 0) (hw : w ≠ []) : (St.ann ⟨m, n⟩).run w = (St.lit n).run w := by
  cases w with
  | nil => exact absurd rfl hw
  | cons d w => rw [run_cons, run_cons, ann_step m n d hn]

omit Q in
theorem tri_data (n : Nat) (m : Mode) : Tri (Anned ⟨m, n⟩) (fun _ => Ready .out) (literalData n m) := by
  constructor
  · intro s x r v hs h
    simp only [literalData] at h
    split at h
    · simp at h
    · next hx =>
      simp only [take] at h
      split at h <;> simp at h
      next hlen =>
        obtain ⟨rfl, rfl⟩ := h
        refine ⟨x.take n, by simp, ?_⟩
        obtain rfl := hs
        by_cases hn : n = 0
        · subst hn
          exact Or.inr ⟨rfl, by simpa using hx, m, rfl⟩
        · have hl : (x.take n).length = n := by simp; omega
          have hne : x.take n ≠ [] := by intro h; rw [h] at hl; simp at hl; omega
          refine Or.inl ⟨.other, ?_, fun _ => rfl⟩
          rw [ann_run m n _ hn hne]
          have := run_lit_eq _ hne
          rwa [hl] at this
  · intro s x hs h
    simp only [literalData] at h
    split at h
    · simp at h
    · next hx =>
      simp only [take] at h
      split at h <;> simp at h
      next hlen =>
        obtain rfl := hs
        · refine Or.inr ⟨n - x.length, ?_⟩
          rw [ann_run m n x (by omega) (by simpa using hx), run_lit_lt _ _ hlen]
  · intro s x t k m' hs h
    simp only [literalData] at h
    split at h
    · next hx =>
      simp at h hx
      obtain ⟨_, rfl, rfl⟩ := h
      subst hx
      exact hs
    · simp only [take] at h; split at h <;> simp at h

theorem fr_literal : Fr .out .out literal := by
  unfold literal
  refine Tri.bind (tri_hdr tri_open) fun v => Tri.bind (tri_data v.1 v.2) fun d => ?_
  split
  · exact Fr.pure
  · exact Fr.failure (by simp)

theorem fr_literal8 : Fr .out .out literal8 := by
  unfold literal8
  exact Tri.bind (tri_hdr tri_open8) fun v => Tri.bind (tri_data v.1 v.2) fun d => Fr.pure

instance : Framed literal := ⟨fr_literal⟩
instance : Framed literal8 := ⟨fr_literal8⟩

/-! ### All parsers of commands -/

omit Q in
theorem Framed.use {p : P α} [h : Framed p] : Fr .out .out p := h.fr

omit Q in
theorem Fr.bind_same {a : Quote} {p : P α} {f : α → P β} (hp : Fr a a p) (hf : ∀ v, Fr a a (f v)) : Fr a a (p >>= f) := Fr.bind hp hf

/-- Break down a framing goal along the structure of the parser. -/
macro "framed" : tactic => `(tactic| repeat' with_reducible first
  | exact Framed.use
  | assumption
  | exact Fr.pure
  | exact Fr.alt_nil
  | refine Tri.gate ?_
  | refine Fr.alt_cons ?_ ?_
  | refine Fr.value ?_
  | refine Fr.mapf ?_
  | refine Fr.mapRes ?_
  | refine Fr.recognize ?_
  | refine Fr.opt ?_
  | refine Fr.many0 ?_
  | refine Fr.many1 ?_
  | refine Fr.sepList0 ?_ ?_
  | refine Fr.sepList1 ?_ ?_
  | exact Fr.sp (by decide)
  | exact Fr.char (by decide)
  | exact Fr.tag (by decide)
  | exact Fr.tagNC (by decide)
  | exact Fr.takeWhile (forall_byte (by decide))
  | exact Fr.takeWhile1 (forall_byte (by decide))
  | exact Fr.takeExactly (forall_byte (by decide))
  | exact Fr.take1or2 (forall_byte (by decide))
  | exact Fr.satisfy (forall_byte (by decide))
  | refine Fr.ite ?_ ?_
  | refine Fr.bind_same ?_ fun _ => ?_)

omit Q

instance : Framed number := ⟨by unfold number; framed⟩
instance : Framed number64 := ⟨by unfold number64; framed⟩
instance : Framed nzNumber := ⟨by unfold nzNumber; framed⟩
instance : Framed atom := ⟨by unfold atom; framed⟩
instance : Framed nil := ⟨by unfold nil; framed⟩
instance : Framed tagImap := ⟨by unfold tagImap; framed⟩
instance : Framed base64 := ⟨by unfold base64; framed⟩

instance : Framed quoted := ⟨by
  unfold quoted
  refine Fr.bind Fr.openQuote fun _ => Fr.bind (Fr.escaped ?_) fun _ => Fr.bind Fr.closeQuote fun _ => Fr.pure
  exact forall_byte (by decide)⟩

instance : Framed quotedUtf8 := ⟨by
  unfold quotedUtf8
  refine Fr.bind Fr.openQuote fun _ => Fr.bind (Fr.mapRes (Fr.escaped ?_)) fun _ => Fr.bind Fr.closeQuote fun _ => Fr.pure
  exact forall_byte (by decide)⟩

instance : Framed charset := ⟨by unfold charset; framed⟩

/-! Dates, which may be quoted -/

theorem fr_digit12 {q : Quote} (h : ∀ d, isDigit d = true → Calm q d = true) : Fr q q digit12 := Fr.mapf (Fr.take1or2 h)
theorem fr_digit2 {q : Quote} (h : ∀ d, isDigit d = true → Calm q d = true) : Fr q q digit2 := Fr.mapf (Fr.takeExactly h)
theorem fr_digit4 {q : Quote} (h : ∀ d, isDigit d = true → Calm q d = true) : Fr q q digit4 := Fr.mapf (Fr.takeExactly h)

theorem digit_out : ∀ d : UInt8, isDigit d = true → Calm .out d = true := forall_byte (by decide)
theorem digit_within : ∀ d : UInt8, isDigit d = true → Calm .within d = true := forall_byte (by decide)

theorem month_out : Fr .out .out dateMonth := by unfold dateMonth; framed
theorem month_within : Fr .within .within dateMonth := by unfold dateMonth; framed

theorem dateText_out : Fr .out .out dateText := by
  have h1 := fr_digit12 digit_out
  have h4 := fr_digit4 digit_out
  have hm := month_out
  unfold dateText
  framed

theorem dateText_within : Fr .within .within dateText := by
  have h1 := fr_digit12 digit_within
  have h4 := fr_digit4 digit_within
  have hm := month_within
  unfold dateText
  framed

instance : Framed date := ⟨by
  unfold date
  exact Fr.alt_cons dateText_out (Fr.alt_cons
    (Fr.bind Fr.openQuote fun _ => Fr.bind dateText_within fun _ => Fr.bind Fr.closeQuote fun _ => Fr.pure) Fr.alt_nil)⟩

theorem fr_mkDateTime {a : Quote} (d t z) : Fr a a (mkDateTime d t z) := by
  unfold mkDateTime
  split
  · exact Fr.pure
  · exact Fr.failure (by simp)

instance : Framed dateTime := ⟨by
  have h2 := fr_digit2 digit_within
  have h4 := fr_digit4 digit_within
  have hm := month_within
  have hd : Fr .within .within dateDayFixed := by unfold dateDayFixed; framed
  have ht : Fr .within .within time := by unfold time; framed
  have hz : Fr .within .within zone := by unfold zone; framed
  have h45 : Fr .within .within (tag b!"-") := Fr.tag (by decide)
  have hsp : Fr .within .within sp := Fr.sp (by decide)
  unfold dateTime
  exact Fr.bind Fr.openQuote fun _ => Fr.bind hd fun _ => Fr.bind h45 fun _ => Fr.bind hm fun _ => Fr.bind h45 fun _ =>
    Fr.bind h4 fun _ => Fr.bind hsp fun _ => Fr.bind ht fun _ => Fr.bind hsp fun _ => Fr.bind hz fun _ =>
    Fr.bind Fr.closeQuote fun _ => fr_mkDateTime _ _ _⟩

/-! The flag in MODSEQ, which is quoted -/

theorem tagNC_quote (t : Bytes) : tagNC (34 :: t) = (dquote >>= fun _ => tagNC t : P Unit) := by
  have k : ∀ d : UInt8, (lower 34 = lower d ↔ d = 34) := forall_byte (by decide)
  funext x
  cases x with
  | nil => rfl
  | cons d x =>
    simp only [tagNC, P.bind_apply, dquote, char, k]
    split <;> simp

theorem fr_backslashes : Fr .within .within (tag b!"\\\\") := by
  constructor
  · intro s x r v hs h
    obtain rfl := exists_of_tag h
    exact ⟨b!"\\\\", rfl, within_esc r hs (by decide)⟩
  · intro s x hs h
    rcases x with _ | ⟨d, _ | ⟨e, x⟩⟩
    · exact Ready.waiting hs
    · simp only [tag] at h
      split at h <;> simp at h
      next hd =>
        subst hd
        exact within_esc_wait hs
    · simp only [tag] at h; split at h <;> try simp at h
      split at h <;> simp at h
  · intro s x t n m hs h
    rcases x with _ | ⟨d, _ | ⟨e, x⟩⟩
    · simp [tag] at h
    · simp only [tag] at h; split at h <;> simp at h
    · simp only [tag] at h; split at h <;> try simp at h
      split at h <;> simp at h

instance : Framed entryName := ⟨by
  have ha : Fr .within .within atom := Fr.takeWhile1 (forall_byte (by decide))
  have hb := fr_backslashes
  have hf : Fr .within .within attrFlag := by unfold attrFlag; framed
  have ht : Fr .out .within (tagNC b!"\"/flags/") := by
    rw [tagNC_quote]
    exact Fr.bind Fr.openQuote fun _ => Fr.tagNC (by decide)
  unfold entryName
  exact Fr.bind ht fun _ => Fr.bind hf fun _ => Fr.bind Fr.closeQuote fun _ => Fr.pure⟩

/-! The rest -/

section
include Q
instance : Framed string := ⟨by unfold string; framed⟩
instance : Framed astring := ⟨by unfold astring; framed⟩
instance : Framed nstring := ⟨by unfold nstring; framed⟩
instance : Framed seqNumber := ⟨by unfold seqNumber; framed⟩
instance : Framed seqRange := ⟨by unfold seqRange; framed⟩
instance : Framed sequenceSet := ⟨by unfold sequenceSet; framed⟩
instance : Framed mailbox := ⟨by unfold mailbox; framed⟩
instance : Framed listMailbox := ⟨by unfold listMailbox; framed⟩
instance : Framed flag := ⟨by unfold flag; framed⟩
instance : Framed flagList := ⟨by unfold flagList; framed⟩
instance : Framed authType := ⟨by unfold authType; framed⟩
instance : Framed statusAtt := ⟨by unfold statusAtt; framed⟩
instance : Framed headerList := ⟨by unfold headerList; framed⟩
instance : Framed sectionMsgtext := ⟨by unfold sectionMsgtext; framed⟩
instance : Framed sectionPart := ⟨by unfold sectionPart; framed⟩
instance : Framed sectionText := ⟨by unfold sectionText; framed⟩
instance : Framed sectionSpec := ⟨by unfold sectionSpec; framed⟩
instance : Framed «section» := ⟨by unfold «section»; framed⟩
instance : Framed sectionBinary := ⟨by unfold sectionBinary; framed⟩
instance : Framed partial_ := ⟨by unfold partial_; framed⟩
instance : Framed fetchAtt := ⟨by unfold fetchAtt; framed⟩
instance : Framed macroOrNames := ⟨by unfold macroOrNames; framed⟩
instance : Framed entryTypeReq := ⟨by unfold entryTypeReq; framed⟩
instance : Framed searchModseqExt := ⟨by unfold searchModseqExt; framed⟩
instance : Framed modSequenceValue := ⟨by unfold modSequenceValue; framed⟩
instance : Framed modSequenceValzer := ⟨by unfold modSequenceValzer; framed⟩
instance : Framed searchModsequence := ⟨by unfold searchModsequence; framed⟩
instance : Framed dateSome := ⟨by unfold dateSome; framed⟩

theorem fr_searchKey (n : Nat) : Fr .out .out (searchKey n) := by
  induction n with
  | zero => exact Fr.failure (by simp)
  | succ n ih => unfold searchKey; framed

instance (n : Nat) : Framed (searchKey n) := ⟨fr_searchKey n⟩
instance : Framed searchCriteria := ⟨by unfold searchCriteria; framed⟩
instance : Framed qresync := ⟨by unfold qresync; framed⟩
instance : Framed selectParam := ⟨by unfold selectParam; framed⟩
instance : Framed selectParams := ⟨by unfold selectParams; framed⟩
instance : Framed fetchModifier := ⟨by unfold fetchModifier; framed⟩
instance : Framed fetchModifiers := ⟨by unfold fetchModifiers; framed⟩
instance : Framed storeModifier := ⟨by unfold storeModifier; framed⟩
instance : Framed storeModifiers := ⟨by unfold storeModifiers; framed⟩
instance : Framed storeAttFlags := ⟨by unfold storeAttFlags; framed⟩
instance : Framed capabilityEnable := ⟨by unfold capabilityEnable; framed⟩
instance : Framed resourceName := ⟨by unfold resourceName; framed⟩
instance : Framed setquotaResource := ⟨by unfold setquotaResource; framed⟩
instance : Framed sortKey := ⟨by unfold sortKey; framed⟩
instance : Framed sortCriterion := ⟨by unfold sortCriterion; framed⟩
instance : Framed sortCriteria := ⟨by unfold sortCriteria; framed⟩
instance : Framed threadAlg := ⟨by unfold threadAlg; framed⟩
instance : Framed idParam := ⟨by unfold idParam; framed⟩
instance : Framed idParamsList := ⟨by unfold idParamsList; framed⟩
instance : Framed idCommand := ⟨by unfold idCommand; framed⟩
instance : Framed entry := ⟨by unfold entry; framed⟩
instance : Framed imapValue := ⟨by unfold imapValue; framed⟩
instance : Framed entryValue := ⟨by unfold entryValue; framed⟩
instance : Framed entryValues := ⟨by unfold entryValues; framed⟩
instance : Framed entries := ⟨by unfold entries; framed⟩
instance : Framed getmetadataOption := ⟨by unfold getmetadataOption; framed⟩
instance : Framed getmetadataOptions := ⟨by unfold getmetadataOptions; framed⟩
instance : Framed append := ⟨by unfold append; framed⟩
instance : Framed create := ⟨by unfold create; framed⟩
instance : Framed delete := ⟨by unfold delete; framed⟩
instance : Framed examine := ⟨by unfold examine; framed⟩
instance : Framed list := ⟨by unfold list; framed⟩
instance : Framed lsub := ⟨by unfold lsub; framed⟩
instance : Framed rename := ⟨by unfold rename; framed⟩
instance : Framed select := ⟨by unfold select; framed⟩
instance : Framed status := ⟨by unfold status; framed⟩
instance : Framed subscribe := ⟨by unfold subscribe; framed⟩
instance : Framed unsubscribe := ⟨by unfold unsubscribe; framed⟩
instance : Framed enable := ⟨by unfold enable; framed⟩
instance : Framed compress := ⟨by unfold compress; framed⟩
instance : Framed getquota := ⟨by unfold getquota; framed⟩
instance : Framed getquotaroot := ⟨by unfold getquotaroot; framed⟩
instance : Framed setquota := ⟨by unfold setquota; framed⟩
instance : Framed setmetadata := ⟨by unfold setmetadata; framed⟩
instance : Framed getmetadata := ⟨by unfold getmetadata; framed⟩
instance : Framed commandAny := ⟨by unfold commandAny; framed⟩
instance : Framed commandAuth := ⟨by unfold commandAuth; framed⟩
instance : Framed login := ⟨by unfold login; framed⟩
instance : Framed authenticate := ⟨by unfold authenticate; framed⟩
instance : Framed commandNonauth := ⟨by unfold commandNonauth; framed⟩
instance : Framed uidExpunge := ⟨by unfold uidExpunge; framed⟩
instance : Framed copy := ⟨by unfold copy; framed⟩
instance : Framed move := ⟨by unfold move; framed⟩
instance : Framed fetch := ⟨by unfold fetch; framed⟩
instance : Framed store := ⟨by unfold store; framed⟩
instance : Framed search := ⟨by unfold search; framed⟩
instance : Framed sort := ⟨by unfold sort; framed⟩
instance : Framed thread := ⟨by unfold thread; framed⟩
instance : Framed uidBody := ⟨by unfold uidBody; framed⟩
instance : Framed uid := ⟨by unfold uid; framed⟩
instance : Framed commandSelect := ⟨by unfold commandSelect; framed⟩

/-- The end of a message. -/
def Done (s : St) (_ : Bytes) : Prop := s = .ended

theorem tri_commandBody : Tri (Ready .out) (fun _ => Done) commandBody := by
  have h : Fr .out .out (alt [commandAny, commandAuth, commandNonauth, commandSelect]) := by framed
  unfold commandBody
  exact Tri.bind h fun _ => Tri.bind tri_crlf_end fun _ => Tri.pure (B := fun _ => Done)

theorem tri_fillTag {A : St → Bytes → Prop} {B : α → St → Bytes → Prop} {p : P α} (t : Bytes) (h : Tri A B p) :
    Tri A B (fun i => fillTag t (p i)) := by
  constructor
  · intro s x r v hs e
    refine h.ok hs ?_
    revert e
    cases p x with
    | failure k => cases k <;> simp [fillTag]
    | _ => simp [fillTag]
  · intro s x hs e
    refine h.inc hs ?_
    revert e
    cases p x with
    | failure k => cases k <;> simp [fillTag]
    | _ => simp [fillTag]
  · intro s x t' n m hs e
    cases hp : p x with
    | failure k =>
      rw [hp] at e
      cases k <;> simp [fillTag] at e
      obtain ⟨_, rfl, rfl⟩ := e
      exact h.lit hs hp
    | _ => rw [hp] at e; simp [fillTag] at e

theorem tri_command : Tri (Ready .out) (fun _ => Done) command := by
  unfold command
  exact Tri.bind Framed.use fun t => Tri.bind (Fr.sp (by decide)) fun _ =>
    tri_fillTag t (Tri.bind tri_commandBody fun _ => Tri.pure (B := fun _ => Done))

theorem tri_authenticateData : Tri (Ready .out) (fun _ => Done) authenticateData := by
  have h1 : Fr .out .out (tag b!"*") := by framed
  unfold authenticateData
  refine Tri.orElse ?_ (Tri.orElse ?_ Tri.failR)
  · exact Tri.map (D := fun _ => Done) (Tri.bind Framed.use fun _ => Tri.bind tri_crlf_end fun _ => Tri.pure (B := fun _ => Done))
  · exact Tri.bind (Tri.bind h1 fun _ => tri_crlf_end) fun _ => Tri.pure (B := fun _ => Done)

theorem tri_idleDone : Tri (Ready .out) (fun _ => Done) idleDone := by
  have h1 : Fr .out .out (tagNC b!"DONE") := by framed
  unfold idleDone
  exact Tri.bind (Tri.bind h1 fun _ => tri_crlf_end) fun _ => Tri.pure (B := fun _ => Done)

end

/-! ### The automaton and the specification -/

/-- The beginning of a message. -/
abbrev start : St := .text .other .out

theorem run_quoted (lt : Latest) (q : Quote) {x : Bytes} (h : ∀ u v, x = u ++ b!"\n" ++ v → u.foldl Quote.step q ≠ .out) :
    (St.text lt q).run x = .text (scan lt x) (x.foldl Quote.step q) := by
  induction x generalizing lt q with
  | nil => rfl
  | cons d x ih =>
    have hd : ¬ (d = 10 ∧ q = .out) := by
      rintro ⟨rfl, rfl⟩
      exact h [] x rfl rfl
    have h' : ∀ u v, x = u ++ b!"\n" ++ v → u.foldl Quote.step (q.step d) ≠ .out := by
      rintro u v rfl
      exact h (d :: u) v rfl
    rw [run_cons, show (St.text lt q).step d = .text (lineStep lt d).1 (q.step d) by simp only [St.step, stepText, hd, if_false], ih _ _ h']
    rfl

theorem run_noLF (lt : Latest) (q : Quote) {x : Bytes} (h : (10 : UInt8) ∉ x) :
    (St.text lt q).run x = .text (scan lt x) (x.foldl Quote.step q) :=
  run_quoted lt q (by rintro u v rfl; simp at h)

theorem closed_iff (body : Bytes) : QuotesClosed (body ++ b!"\n") ↔ body.foldl Quote.step .out = .out := by
  unfold QuotesClosed
  rw [List.foldl_append]
  generalize body.foldl Quote.step .out = q
  cases q <;> simp [Quote.step]

theorem run_line_ann {l : Bytes} {a : Ann} (hl : IsLine l) (hc : QuotesClosed l) (ha : Announces l a) : start.run l = .ann a := by
  obtain ⟨body, rfl, hb⟩ := hl
  rw [closed_iff] at hc
  rw [announces_body body] at ha
  rw [run_append, run_noLF _ _ hb]
  simp [St.step, stepText, hc, ha]

theorem run_line_end {l : Bytes} (hl : IsLine l) (hc : QuotesClosed l) (ha : ∀ a, ¬ Announces l a) : start.run l = .ended := by
  obtain ⟨body, rfl, hb⟩ := hl
  rw [closed_iff] at hc
  have ha' : annOf (scan .other body) = none := by
    cases h : annOf (scan .other body) with
    | none => rfl
    | some a => exact absurd ((announces_body body a).2 h) (ha a)
  rw [run_append, run_noLF _ _ hb]
  simp [St.step, stepText, hc, ha']

/-- In a literal. -/
theorem run_ann_short {a : Ann} {d : Bytes} (h : d.length ≤ a.length) (hne : d ≠ []) :
    (∃ k, (St.ann a).run d = .lit k) ∨ (St.ann a).run d = start := by
  obtain ⟨m, n⟩ := a
  have hl : 0 < d.length := List.length_pos_iff.2 hne
  simp at h
  rw [ann_run m n d (by omega) hne]
  rcases Nat.lt_or_eq_of_le h with h | h
  · exact .inl ⟨_, run_lit_lt _ _ h⟩
  · subst h; exact .inr (run_lit_eq d hne)

theorem run_ann_rest {a : Ann} {d rest : Bytes} (h : d.length = a.length) (hne : rest ≠ []) :
    (St.ann a).run (d ++ rest) = start.run rest := by
  obtain ⟨m, n⟩ := a
  cases d with
  | nil =>
    simp at h
    subst h
    cases rest with
    | nil => exact absurd rfl hne
    | cons e rest => rfl
  | cons e d =>
    simp at h
    rw [run_append, ann_run m n _ (by omega) (by simp)]
    have := run_lit_eq (e :: d) (by simp)
    simp only [List.length_cons] at this
    rw [← h, this]

theorem closed_here {pre l rest : Bytes} {k : Nat} (hp : pre.length = k) (h : QuotesClosed (((pre ++ (l ++ rest)).take (k + l.length)).drop k)) :
    QuotesClosed l := by
  subst hp
  rwa [show ((pre ++ (l ++ rest)).take (pre.length + l.length)).drop pre.length = l by
    simp [List.take_append, List.take_of_length_le]] at h

theorem message_ne {k w infos} (h : Message k w infos) : w ≠ [] := by
  cases h with
  | last hl => obtain ⟨b, rfl, _⟩ := hl; simp
  | more hl => obtain ⟨b, rfl, _⟩ := hl; simp

theorem run_message {k w infos} (h : Message k w infos) (pre : Bytes) (hp : pre.length = k) (hc : LinesClosed (pre ++ w) infos) :
    start.run w = .ended := by
  induction h generalizing pre with
  | @last k l e hl ha he =>
    refine run_line_end hl (closed_here (rest := []) hp ?_) ha
    simpa using hc _ _ _ _ (List.mem_singleton.2 rfl)
  | @more k l a e lit rest infos hl ha he hlit hm ih =>
    have hcl : QuotesClosed l := closed_here (rest := lit ++ rest) hp (by simpa using hc _ _ _ _ (List.mem_cons_self ..))
    rw [List.append_assoc, run_append, run_line_ann hl hcl ha, run_ann_rest hlit (message_ne hm)]
    refine ih (pre ++ l ++ lit) (by simp [hp]; omega) ?_
    intro s t o en hm
    have := hc s t o en (by simp [hm])
    simpa using this

theorem unfinished_stop {k w infos} (h : Unfinished k w infos) {s t o e} (hm : Info.line s t o e ∈ infos) : t ≤ k + w.length := by
  induction h with
  | inLine => simp at hm
  | inLiteral => simp at hm; simp [hm]
  | more hl ha he hlit hu ih =>
    simp at hm
    rcases hm with hm | hm
    · simp [hm]
    · have := ih hm; simp; omega

theorem unfinished_start {k w infos} (h : Unfinished k w infos) {s t o e} (hm : Info.line s t o e ∈ infos) : k < t := by
  induction h with
  | inLine => simp at hm
  | inLiteral hl =>
    obtain ⟨b, rfl, _⟩ := hl
    simp at hm; simp [hm]
  | more hl ha he hlit hu ih =>
    obtain ⟨b, rfl, _⟩ := hl
    simp at hm
    rcases hm with hm | hm
    · simp [hm]
    · have := ih hm; omega

theorem same_line {k w infos} (h : Unfinished k w infos) {s s' t a a' e e'} (h1 : Info.line s t (some a) e ∈ infos)
    (h2 : Info.line s' t (some a') e' ∈ infos) : a = a' := by
  induction h with
  | inLine => simp at h1
  | inLiteral => simp at h1 h2; rw [h1.2.2.1, h2.2.2.1]
  | more hl ha he hlit hu ih =>
    simp at h1 h2
    rcases h1 with h1 | h1 <;> rcases h2 with h2 | h2
    · rw [h1.2.2.1, h2.2.2.1]
    · have := unfinished_start hu h2; omega
    · have := unfinished_start hu h1; omega
    · exact ih h1 h2

/-- The automaton after an unfinished message. -/
theorem run_unfinished {k w infos} (h : Unfinished k w infos) (pre : Bytes) (hp : pre.length = k) (hc : LinesClosed (pre ++ w) infos) :
    (∃ a s e, start.run w = .ann a ∧ Info.line s (k + w.length) (some a) e ∈ infos) ∨
    (((∃ lt q, start.run w = .text lt q) ∨ ∃ j, start.run w = .lit j) ∧ ∀ s a e, Info.line s (k + w.length) a e ∉ infos) := by
  induction h generalizing pre with
  | @inLine k l hl => exact .inr ⟨.inl ⟨_, _, run_noLF _ _ hl⟩, by simp⟩
  | @inLiteral k l a e lit hl ha he hlit =>
    have hcl : QuotesClosed l := closed_here (rest := lit) hp (by simpa using hc _ _ _ _ (List.mem_singleton.2 rfl))
    rw [run_append, run_line_ann hl hcl ha]
    by_cases hne : lit = []
    · subst hne
      exact .inl ⟨a, k, e, rfl, by simp⟩
    · refine .inr ⟨?_, ?_⟩
      · rcases run_ann_short hlit hne with h | h
        · exact .inr h
        · exact .inl ⟨_, _, h⟩
      · intro s a' e' h
        simp at h
        exact hne h.2.1
  | @more k l a e lit rest infos hl ha he hlit hu ih =>
    have hcl : QuotesClosed l := closed_here (rest := lit ++ rest) hp (by simpa using hc _ _ _ _ (List.mem_cons_self ..))
    rw [List.append_assoc, run_append, run_line_ann hl hcl ha]
    by_cases hr : rest = []
    · subst hr
      have hi : ∀ s t o e, Info.line s t o e ∉ infos := by
        intro s t o e h
        have h1 := unfinished_start hu h
        have h2 := unfinished_stop hu h
        simp at h2
        omega
      by_cases hne : lit = []
      · subst hne
        exact .inl ⟨a, k, e, rfl, by simp⟩
      · rw [List.append_nil]
        refine .inr ⟨?_, ?_⟩
        · rcases run_ann_short (a := a) (by omega) hne with h | h
          · exact .inr h
          · exact .inl ⟨_, _, h⟩
        · intro s a' e' h
          simp at h
          rcases h with h | h
          · exact hne h.2.1
          · exact hi _ _ _ _ h
    · rw [run_ann_rest hlit hr]
      have hl : ∀ s o e', Info.line s (k + (l ++ (lit ++ rest)).length) o e' ∉ [Info.line k (k + l.length) (some a) e,
          .literal (k + l.length) (k + l.length + lit.length)] := by
        intro s o e' h
        simp at h
        exact hr h.2.1.2
      have hk : k + (l ++ (lit ++ rest)).length = k + l.length + lit.length + rest.length := by simp; omega
      have := ih (pre ++ l ++ lit) (by simp [hp]; omega) (by
        intro s t o en hm
        have := hc s t o en (by simp [hm])
        simpa using this)
      rw [hk] at hl ⊢
      rcases this with ⟨a', s, e', h1, h2⟩ | ⟨h1, h2⟩
      · exact .inl ⟨a', s, e', h1, by simp [h2]⟩
      · refine .inr ⟨h1, ?_⟩
        intro s o e' h
        rw [show Info.line k (k + l.length) (some a) e :: Info.literal (k + l.length) (k + l.length + lit.length) :: infos =
          [Info.line k (k + l.length) (some a) e, Info.literal (k + l.length) (k + l.length + lit.length)] ++ infos from rfl,
          List.mem_append] at h
        rcases h with h | h
        · exact hl _ _ _ h
        · exact h2 _ _ _ h

theorem exists_ending (l : Bytes) : ∃ e, EndsWith l e := by
  by_cases h : ∃ pre, l = pre ++ b!"\r\n"
  · exact ⟨.crlf, h⟩
  · exact ⟨.lf, h⟩

/-- What the automaton says about complete messages, unless quoted strings are open at the end of a line. -/
theorem run_spec (n : Nat) : ∀ (w : Bytes), w.length ≤ n → ∀ (k : Nat) (pre : Bytes), pre.length = k →
    start.run w = .ended → (∃ infos, Message k w infos ∧ LinesClosed (pre ++ w) infos) ∨
    (∃ u v infos, w = u ++ v ∧ (Message k u infos ∨ Unfinished k u infos) ∧ ¬ LinesClosed (pre ++ u) infos) := by
  induction n with
  | zero =>
    intro w hw k pre hp
    obtain rfl : w = [] := List.length_eq_zero_iff.1 (by omega)
    simp
  | succ n ih =>
    intro w hw k pre hp
    rcases lf_cases w with h | ⟨body, rest, rfl, hb⟩
    · rw [run_noLF _ _ h]; simp
    · have hl : IsLine (body ++ b!"\n") := ⟨body, rfl, hb⟩
      rw [show body ++ 10 :: rest = (body ++ b!"\n") ++ rest by simp] at hw ⊢
      generalize body ++ b!"\n" = l at hl hw ⊢
      have hl0 : 0 < l.length := by obtain ⟨b, rfl, _⟩ := hl; simp
      obtain ⟨e, he⟩ := exists_ending l
      have slice : ∀ x : Bytes, ((pre ++ (l ++ x)).take (k + l.length)).drop k = l := by
        intro x; subst hp; simp [List.take_append, List.take_of_length_le]
      by_cases hc : QuotesClosed l
      · by_cases ha : ∃ a, Announces l a
        · obtain ⟨a, ha⟩ := ha
          rw [run_append, run_line_ann hl hc ha]
          by_cases hlen : rest.length ≤ a.length
          · by_cases hne : rest = []
            · subst hne; simp
            · rcases run_ann_short hlen hne with ⟨j, h⟩ | h <;> rw [h] <;> simp
          · obtain ⟨lit, rest, rfl, hlit⟩ : ∃ d r, rest = d ++ r ∧ d.length = a.length :=
              ⟨rest.take a.length, rest.drop a.length, by simp, by simp; omega⟩
            have hr : rest ≠ [] := by rintro rfl; simp at hlen; omega
            rw [run_ann_rest hlit hr]
            intro h
            rcases ih rest (by simp at hw; omega) (k + l.length + lit.length) (pre ++ l ++ lit) (by simp [hp]; omega) h with
              ⟨infos, hm, hcl⟩ | ⟨u, v, infos, rfl, hm, hcl⟩
            · refine .inl ⟨_, by rw [← List.append_assoc]; exact .more hl ha he hlit hm, ?_⟩
              intro s t o en hmem
              simp at hmem
              rcases hmem with ⟨rfl, rfl, rfl, rfl⟩ | hmem
              · rw [slice]; exact hc
              · have := hcl s t o en hmem
                simpa using this
            · refine .inr ⟨l ++ lit ++ u, v, .line k (k + l.length) (some a) e :: .literal (k + l.length) (k + l.length + lit.length) :: infos,
                by simp, ?_, ?_⟩
              · rcases hm with hm | hm
                · exact .inl (.more hl ha he hlit hm)
                · exact .inr (.more hl ha he hlit hm)
              · intro h2
                apply hcl
                intro s t o en hmem
                have := h2 s t o en (by simp [hmem])
                simpa using this
        · simp only [not_exists] at ha
          rw [run_append, run_line_end hl hc ha]
          cases rest with
          | nil =>
            refine fun _ => .inl ⟨_, by rw [List.append_nil]; exact .last hl ha he, ?_⟩
            intro s t o en hmem
            simp only [List.mem_singleton, Info.line.injEq] at hmem
            obtain ⟨rfl, rfl, rfl, rfl⟩ := hmem
            rw [slice]; exact hc
          | cons d rest => rw [run_cons, St.step, run_over]; simp
      · refine fun _ => .inr ?_
        by_cases ha : ∃ a, Announces l a
        · obtain ⟨a, ha⟩ := ha
          refine ⟨l, rest, [.line k (k + l.length) (some a) e], rfl, .inr ?_, ?_⟩
          · have := Unfinished.inLiteral (start := k) (lit := []) hl ha he (by simp)
            simpa using this
          · intro h
            have := h _ _ _ _ (List.mem_singleton.2 rfl)
            have e := slice []
            rw [List.append_nil] at e
            rw [e] at this
            exact hc this
        · simp only [not_exists] at ha
          refine ⟨l, rest, [.line k (k + l.length) none e], rfl, .inl (.last hl ha he), ?_⟩
          intro h
          have := h _ _ _ _ (List.mem_singleton.2 rfl)
          have e := slice []
          rw [List.append_nil] at e
          rw [e] at this
          exact hc this

end Imap.Frame
