import Verif.FramingCommand
import Verif.ResponseRT
/-
The parsers of texts and codes stay within one line.
-/
set_option maxRecDepth 10000

namespace Imap.Frame

open Frag Spec

variable {α β : Type} {p : P α}

/-- The parser stays within the current line, waits only for the rest of it, and never waits for a literal. -/
structure Fl (p : P α) : Prop where
  ok : ∀ {x r v}, p x = .ok r v → ∃ w, x = w ++ r ∧ (10 : UInt8) ∉ w
  inc : ∀ {x}, p x = .incomplete → (10 : UInt8) ∉ x
  lit : ∀ {x t n m}, p x ≠ .failure (.literal t n m)

/-- `Fl` as a class. -/
class Flat (p : P α) : Prop where
  fl : Fl p

theorem Flat.use [h : Flat p] : Fl p := h.fl

theorem andThen_inc {x : Res α} {f : α → Bytes → Res β} (h : x.andThen f = .incomplete) :
    x = .incomplete ∨ ∃ r v, x = .ok r v ∧ f v r = .incomplete := by
  cases x <;> simp [Res.andThen] at h ⊢
  exact h

theorem andThen_fail {x : Res α} {f : α → Bytes → Res β} {k : Fail} (h : x.andThen f = .failure k) :
    x = .failure k ∨ ∃ r v, x = .ok r v ∧ f v r = .failure k := by
  cases x <;> simp [Res.andThen] at h ⊢
  · exact h
  · exact h

theorem Fl.gate {b : Bool} (h : Fl p) : Fl (gate b p) := by
  cases b
  · exact ⟨by simp, by simp, by simp⟩
  · rw [gate_true]; exact h

theorem Fl.bind {f : α → P β} (hp : Fl p) (hf : ∀ v, Fl (f v)) : Fl (p >>= f) := by
  constructor
  · intro x r v h
    simp only [P.bind_apply] at h
    obtain ⟨r1, v1, e1, h'⟩ := Res.andThen_eq_ok.1 h
    replace h := h'
    obtain ⟨w, rfl, hw⟩ := hp.ok e1
    obtain ⟨w', rfl, hw'⟩ := (hf v1).ok h
    exact ⟨w ++ w', by simp, by simp [hw, hw']⟩
  · intro x h
    simp only [P.bind_apply] at h
    replace h := andThen_inc h
    rcases h with h | ⟨r1, v1, e1, h⟩
    · exact hp.inc h
    · obtain ⟨w, rfl, hw⟩ := hp.ok e1
      simp [hw, (hf v1).inc h]
  · intro x t n m h
    simp only [P.bind_apply] at h
    replace h := andThen_fail h
    rcases h with h | ⟨r1, v1, e1, h⟩
    · exact hp.lit h
    · exact (hf v1).lit h

theorem Fl.pure {v : α} : Fl (Pure.pure v : P α) := by
  constructor
  · intro x r v h; simp [P.pure_apply] at h; exact ⟨[], by simp [h.1], by simp⟩
  · intro x h; simp [P.pure_apply] at h
  · intro x t n m h; simp [P.pure_apply] at h

theorem Fl.failR : Fl (P.fail : P α) := by constructor <;> intros <;> simp_all [P.fail]

theorem Fl.mapf {f : α → β} (hp : Fl p) : Fl (f <$> p) := by
  constructor
  · intro x r v h
    simp only [P.map_apply] at h
    obtain ⟨r1, v1, e1, h'⟩ := Res.andThen_eq_ok.1 h
    replace h := h'
    simp at h
    obtain ⟨rfl, rfl⟩ := h
    exact hp.ok e1
  · intro x h
    simp only [P.map_apply] at h
    replace h := andThen_inc h
    rcases h with h | ⟨r1, v1, e1, h⟩
    · exact hp.inc h
    · simp at h
  · intro x t n m h
    simp only [P.map_apply] at h
    replace h := andThen_fail h
    rcases h with h | ⟨r1, v1, e1, h⟩
    · exact hp.lit h
    · simp at h

theorem Fl.value {v : β} (hp : Fl p) : Fl (Imap.value v p) := Fl.bind hp fun _ => Fl.pure

theorem Fl.orElse {p' : P α} (hp : Fl p) (hp' : Fl p') : Fl (Imap.orElse p p') := by
  constructor
  · intro x r v h
    unfold Imap.orElse at h
    split at h
    · exact hp'.ok h
    · exact hp.ok h
  · intro x h
    unfold Imap.orElse at h
    split at h
    · exact hp'.inc h
    · exact hp.inc h
  · intro x t n m h
    unfold Imap.orElse at h
    split at h
    · exact hp'.lit h
    · exact hp.lit h

theorem Fl.alt_nil : Fl (alt [] : P α) := Fl.failR
theorem Fl.alt_cons {ps : List (P α)} (hp : Fl p) (hps : Fl (alt ps)) : Fl (alt (p :: ps)) := Fl.orElse hp hps

theorem Fl.ite {t : Prop} [Decidable t] {p' : P α} (hp : Fl p) (hp' : Fl p') : Fl (if t then p else p') := by
  split <;> assumption

theorem Fl.opt (hp : Fl p) : Fl (Imap.opt p) := by
  constructor
  · intro x r v h
    replace h := exists_of_opt h
    rcases h with ⟨v, rfl, h⟩ | ⟨rfl, rfl, h⟩
    · exact hp.ok h
    · exact ⟨[], rfl, by simp⟩
  · intro x h
    unfold Imap.opt at h
    split at h <;> simp at h
    exact hp.inc (by assumption)
  · intro x t n m h
    unfold Imap.opt at h
    split at h <;> simp at h
    subst h
    exact hp.lit (by assumption)

theorem Fl.mapRes {f : α → Option β} (hp : Fl p) : Fl (Imap.mapRes p f) := by
  constructor
  · intro x r v h
    obtain ⟨v, h, _⟩ := exists_of_mapRes h
    exact hp.ok h
  · intro x h
    unfold Imap.mapRes at h
    split at h <;> try simp at h
    · split at h <;> simp at h
    · exact hp.inc (by assumption)
  · intro x t n m h
    unfold Imap.mapRes at h
    split at h <;> try simp at h
    · split at h <;> simp at h
    · subst h; exact hp.lit (by assumption)

theorem Fl.recognize (hp : Fl p) : Fl (Imap.recognize p) := by
  constructor
  · intro x r v h
    unfold Imap.recognize at h
    obtain ⟨r1, v1, e1, h'⟩ := Res.andThen_eq_ok.1 h
    replace h := h'
    simp at h
    obtain ⟨rfl, rfl⟩ := h
    exact hp.ok e1
  · intro x h
    unfold Imap.recognize at h
    replace h := andThen_inc h
    rcases h with h | ⟨r1, v1, e1, h⟩
    · exact hp.inc h
    · simp at h
  · intro x t n m h
    unfold Imap.recognize at h
    replace h := andThen_fail h
    rcases h with h | ⟨r1, v1, e1, h⟩
    · exact hp.lit h
    · simp at h

theorem Fl.peek (hi : ∀ x, p x = .incomplete → (10 : UInt8) ∉ x) (hl : ∀ x t n m, p x ≠ .failure (.literal t n m)) : Fl (Imap.peek p) := by
  constructor
  · intro x r v h
    unfold Imap.peek at h
    obtain ⟨r1, v1, e1, h'⟩ := Res.andThen_eq_ok.1 h
    replace h := h'
    simp at h
    obtain ⟨rfl, rfl⟩ := h
    exact ⟨[], by simp, by simp⟩
  · intro x h
    unfold Imap.peek at h
    replace h := andThen_inc h
    rcases h with h | ⟨r1, v1, e1, h⟩
    · exact hi _ h
    · simp at h
  · intro x t n m h
    unfold Imap.peek at h
    replace h := andThen_fail h
    rcases h with h | ⟨r1, v1, e1, h⟩
    · exact hl _ _ _ _ h
    · simp at h

theorem Fl.many0 (hp : Fl p) : Fl (Imap.many0 p : P (List α)) := by
  constructor
  · intro x r v h
    fun_induction Imap.many0 p x generalizing v with
    | case1 x r' v' e hlt ih =>
      simp only [Res.andThen_eq_ok] at h
      obtain ⟨r2, v2, h1, h2⟩ := h
      simp at h2
      obtain ⟨rfl, rfl⟩ := h2
      obtain ⟨w, rfl, hw⟩ := hp.ok e
      obtain ⟨w', rfl, hw'⟩ := ih h1
      exact ⟨w ++ w', by simp, by simp [hw, hw']⟩
    | case2 => simp at h
    | case3 => simp at h; obtain ⟨rfl, rfl⟩ := h; exact ⟨[], by simp, by simp⟩
    | case4 => simp at h
    | case5 => simp at h
  · intro x h
    fun_induction Imap.many0 p x with
    | case1 x r' v' e hlt ih =>
      replace h := andThen_inc h
      rcases h with h | ⟨r1, v1, e1, h⟩
      · obtain ⟨w, rfl, hw⟩ := hp.ok e
        simp [hw, ih h]
      · simp at h
    | case2 => simp at h
    | case3 => simp at h
    | case4 x e => exact hp.inc e
    | case5 => simp at h
  · intro x t n m h
    fun_induction Imap.many0 p x with
    | case1 x r' v' e hlt ih =>
      replace h := andThen_fail h
      rcases h with h | ⟨r1, v1, e1, h⟩
      · exact ih h
      · simp at h
    | case2 => simp at h
    | case3 => simp at h
    | case4 => simp at h
    | case5 x k e => simp at h; subst h; exact hp.lit e

theorem Fl.many1 (hp : Fl p) : Fl (Imap.many1 p) := by
  unfold Imap.many1
  exact Fl.bind hp fun _ => Fl.bind (Fl.many0 hp) fun _ => Fl.pure

theorem Fl.sepList1 {sep : P Unit} (hs : Fl sep) (hp : Fl p) : Fl (Imap.sepList1 sep p) := by
  unfold Imap.sepList1
  exact Fl.bind hp fun _ => Fl.bind (Fl.many0 (Fl.bind hs fun _ => hp)) fun _ => Fl.pure

theorem Fl.char {d : UInt8} (hd : d ≠ 10) : Fl (Imap.char d) := by
  constructor
  · intro x r v h; obtain rfl := exists_of_char h; exact ⟨[d], rfl, by simpa using hd.symm⟩
  · intro x h
    cases x with
    | nil => simp
    | cons e x => simp only [Imap.char] at h; split at h <;> simp at h
  · intro x t n m h
    cases x with
    | nil => simp [Imap.char] at h
    | cons e x => simp only [Imap.char] at h; split at h <;> simp at h

theorem Fl.sp : Fl Imap.sp := Fl.char (by decide)

theorem Fl.tag {t : Bytes} (ht : (10 : UInt8) ∉ t) : Fl (Imap.tag t) := by
  constructor
  · intro x r v h; obtain rfl := exists_of_tag h; exact ⟨t, rfl, ht⟩
  · intro x h
    induction t generalizing x with
    | nil => simp [Imap.tag] at h
    | cons k t ih =>
      cases x with
      | nil => simp
      | cons d x =>
        simp only [Imap.tag] at h
        split at h <;> try simp at h
        next e =>
          subst e
          have := ih (by simp at ht; exact ht.2) h
          simp at ht ⊢
          exact ⟨ht.1, this⟩
  · intro x y n m h
    induction t generalizing x with
    | nil => simp [Imap.tag] at h
    | cons k t ih =>
      cases x with
      | nil => simp [Imap.tag] at h
      | cons d x =>
        simp only [Imap.tag] at h
        split at h <;> try simp at h
        exact ih (by simp at ht; exact ht.2) h

theorem lower_lf {d e : UInt8} (h : lower d = lower e) (hd : d ≠ 10) : e ≠ 10 := by
  have k : ∀ d : UInt8, lower d = lower 10 → d = 10 := forall_byte (by decide)
  rintro rfl
  exact hd (k d h)

theorem Fl.tagNC {t : Bytes} (ht : (10 : UInt8) ∉ t) : Fl (Imap.tagNC t) := by
  constructor
  · intro x r v h
    induction t generalizing x with
    | nil => simp [Imap.tagNC] at h; exact ⟨[], by simp [h], by simp⟩
    | cons k t ih =>
      cases x with
      | nil => simp [Imap.tagNC] at h
      | cons d x =>
        simp only [Imap.tagNC] at h
        split at h <;> try simp at h
        next e =>
          simp at ht
          obtain ⟨w, rfl, hw⟩ := ih ht.2 h
          exact ⟨d :: w, rfl, by simp [hw]; exact (lower_lf e (Ne.symm ht.1)).symm⟩
  · intro x h
    induction t generalizing x with
    | nil => simp [Imap.tagNC] at h
    | cons k t ih =>
      cases x with
      | nil => simp
      | cons d x =>
        simp only [Imap.tagNC] at h
        split at h <;> try simp at h
        next e =>
          simp at ht
          simp [ih ht.2 h]
          exact (lower_lf e (Ne.symm ht.1)).symm
  · intro x y n m h
    induction t generalizing x with
    | nil => simp [Imap.tagNC] at h
    | cons k t ih =>
      cases x with
      | nil => simp [Imap.tagNC] at h
      | cons d x =>
        simp only [Imap.tagNC] at h
        split at h <;> try simp at h
        exact ih (by simp at ht; exact ht.2) h

theorem Fl.takeWhile {f : UInt8 → Bool} (hf : f 10 = false) : Fl (Imap.takeWhile f) := by
  constructor
  · intro x r v h
    obtain ⟨rfl, hv⟩ := takeWhile_ok h
    exact ⟨v, rfl, fun h => by simpa [hf] using hv _ h⟩
  · intro x h h10
    simpa [hf] using takeWhile_inc h _ h10
  · intro x t n m h
    exact takeWhile_fail h

theorem Fl.takeWhile1 {f : UInt8 → Bool} (hf : f 10 = false) : Fl (Imap.takeWhile1 f) := by
  constructor
  · intro x r v h
    obtain ⟨rfl, -, hv⟩ := takeWhile1_ok' h
    exact ⟨v, rfl, fun h => by simpa [hf] using hv _ h⟩
  · intro x h h10
    simpa [hf] using takeWhile1_inc h _ h10
  · intro x t n m h
    exact takeWhile1_fail h

theorem Fl.escaped {f : UInt8 → Bool} (hf : f 10 = false) : Fl (Imap.escaped f) := by
  have hq : ∀ d : UInt8, isQuotedSpecials d = true → 10 ≠ d := forall_byte (by decide)
  have hn : ∀ d : UInt8, f d = true → 10 ≠ d := by rintro d hd rfl; simp [hf] at hd
  constructor
  · intro x r v h
    fun_induction Imap.escaped f x generalizing v with
    | case1 => simp at h
    | case2 => simp at h
    | case3 => simp at h; obtain ⟨rfl, rfl⟩ := h; exact ⟨[], by simp, by simp⟩
    | case4 d e x hd ih =>
      simp only [Res.andThen_eq_ok] at h
      obtain ⟨r', v', h1, h2⟩ := h
      simp at h2
      obtain ⟨rfl, rfl⟩ := h2
      obtain ⟨w, hw, hw2⟩ := ih h1
      exact ⟨d :: w, by simp [hw], by simp [hw2, hn d hd]⟩
    | case5 d e x hd h92 hs ih =>
      simp only [Res.andThen_eq_ok] at h
      obtain ⟨r', v', h1, h2⟩ := h
      simp at h2
      obtain ⟨rfl, rfl⟩ := h2
      simp at h92
      subst h92
      obtain ⟨w, hw, hw2⟩ := ih h1
      exact ⟨92 :: e :: w, by simp [hw], by simp [hw2, hq e hs]⟩
    | case6 => simp at h
    | case7 => simp at h; obtain ⟨rfl, rfl⟩ := h; exact ⟨[], by simp, by simp⟩
  · intro x h
    fun_induction Imap.escaped f x with
    | case1 => simp
    | case2 d hd =>
      simp at hd ⊢
      rcases hd with hd | rfl
      · exact hn d hd
      · decide
    | case3 => simp at h
    | case4 d e x hd ih =>
      replace h := andThen_inc h
      rcases h with h | ⟨r1, v1, e1, h⟩
      · rw [List.mem_cons, not_or]; exact ⟨hn d hd, ih h⟩
      · simp at h
    | case5 d e x hd h92 hs ih =>
      replace h := andThen_inc h
      rcases h with h | ⟨r1, v1, e1, h⟩
      · simp at h92
        subst h92
        simp [ih h, hq e hs]
      · simp at h
    | case6 => simp at h
    | case7 => simp at h
  · intro x t n m h
    fun_induction Imap.escaped f x with
    | case1 => simp at h
    | case2 => simp at h
    | case3 => simp at h
    | case4 d e x hd ih =>
      replace h := andThen_fail h
      rcases h with h | ⟨r1, v1, e1, h⟩
      · exact ih h
      · simp at h
    | case5 d e x hd h92 hs ih =>
      replace h := andThen_fail h
      rcases h with h | ⟨r1, v1, e1, h⟩
      · exact ih h
      · simp at h
    | case6 => simp at h
    | case7 => simp at h

/-- Break down the goal along the structure of the parser. -/
macro "flat" : tactic => `(tactic| repeat' with_reducible first
  | exact Flat.use
  | assumption
  | exact Fl.pure
  | exact Fl.alt_nil
  | refine Fl.gate ?_
  | refine Fl.alt_cons ?_ ?_
  | refine Fl.value ?_
  | refine Fl.mapf ?_
  | refine Fl.mapRes ?_
  | refine Fl.recognize ?_
  | refine Fl.opt ?_
  | refine Fl.many0 ?_
  | refine Fl.many1 ?_
  | refine Fl.sepList1 ?_ ?_
  | exact Fl.sp
  | exact Fl.char (by decide)
  | exact Fl.tag (by decide)
  | exact Fl.tagNC (by decide)
  | exact Fl.takeWhile (by decide)
  | exact Fl.takeWhile1 (by decide)
  | exact Fl.escaped (by decide)
  | refine Fl.ite ?_ ?_
  | refine Fl.bind ?_ fun _ => ?_)

instance : Flat number := ⟨by unfold number; flat⟩
instance : Flat number64 := ⟨by unfold number64; flat⟩
instance : Flat nzNumber := ⟨by unfold nzNumber; flat⟩
instance : Flat modSequenceValue := ⟨by unfold modSequenceValue; flat⟩
instance : Flat atom := ⟨by unfold atom; flat⟩
instance : Flat tagImap := ⟨by unfold tagImap; flat⟩
instance : Flat text := ⟨by unfold text; flat⟩
instance : Flat quoted := ⟨by unfold quoted dquote; flat⟩
instance : Flat charset := ⟨by unfold charset; flat⟩
instance : Flat flag := ⟨by unfold flag; flat⟩
instance : Flat flagPerm := ⟨by unfold flagPerm; flat⟩
instance : Flat seqNumber := ⟨by unfold seqNumber; flat⟩
instance : Flat seqRange := ⟨by unfold seqRange; flat⟩
instance : Flat sequenceSet := ⟨by unfold sequenceSet; flat⟩
instance [Quirks] : Flat capability := ⟨by unfold capability; flat⟩
instance : Flat uidRange := ⟨by unfold uidRange; flat⟩
instance : Flat uidSet := ⟨by unfold uidSet; flat⟩
instance : Flat metadataCode := ⟨by unfold metadataCode; flat⟩
instance : Flat charsetList := ⟨by unfold charsetList; flat⟩
instance : Flat flagPermList := ⟨by unfold flagPermList; flat⟩
instance : Flat respCodeApnd := ⟨by unfold respCodeApnd; flat⟩
instance : Flat respCodeCopy := ⟨by unfold respCodeCopy; flat⟩
instance : Flat codeOther := ⟨by unfold codeOther; flat⟩
instance : Flat respTextPlain := ⟨by unfold respTextPlain; flat⟩
instance : Flat condAuthKind := ⟨by unfold condAuthKind; flat⟩
instance : Flat condStateKind := ⟨by unfold condStateKind; flat⟩

section
variable [Quirks]

/-- The line break. -/
theorem crlf_ok {x r : Bytes} {v : Unit} (h : crlf x = .ok r v) : ∃ c, x = c ++ b!"\n" ++ r ∧ (10 : UInt8) ∉ c := by
  obtain ⟨e, rfl, -⟩ := exists_of_crlf h
  cases e
  · exact ⟨[], rfl, by simp⟩
  · exact ⟨[13], rfl, by simp⟩

theorem crlf_inc {x : Bytes} (h : crlf x = .incomplete) : (10 : UInt8) ∉ x := by
  unfold crlf at h
  split at h
  · rcases x with _ | ⟨d, _ | ⟨e, x⟩⟩
    · simp
    · simp only [P.bind_apply, opt, char] at h
      by_cases hd : d = 13
      · simp [hd]
      · simp [hd] at h; simp only [char] at h; split at h <;> simp at h
    · simp only [P.bind_apply, opt, char] at h
      by_cases hd : d = 13
      · simp [hd] at h; simp only [char] at h; split at h <;> simp at h
      · simp [hd] at h; simp only [char] at h; split at h <;> simp at h
  · rcases x with _ | ⟨d, _ | ⟨e, x⟩⟩
    · simp
    · simp only [tag] at h; split at h <;> simp at h
      next hd => simp [← hd]
    · simp only [tag] at h; split at h <;> try simp at h
      split at h <;> simp at h

theorem crlf_lit {x : Bytes} {t n m} : crlf x ≠ .failure (.literal t n m) := by
  intro h
  unfold crlf at h
  split at h
  · rcases x with _ | ⟨d, _ | ⟨e, x⟩⟩
    · simp [opt, char, Res.andThen] at h
    · simp only [P.bind_apply, opt, char] at h
      by_cases hd : d = 13
      · simp [hd, char] at h
      · simp [hd] at h; simp only [char] at h; split at h <;> simp at h
    · simp only [P.bind_apply, opt, char] at h
      by_cases hd : d = 13
      · simp [hd] at h; simp only [char] at h; split at h <;> simp at h
      · simp [hd] at h; simp only [char] at h; split at h <;> simp at h
  · rcases x with _ | ⟨d, _ | ⟨e, x⟩⟩
    · simp [tag] at h
    · simp only [tag] at h; split at h <;> simp at h
    · simp only [tag] at h; split at h <;> try simp at h
      split at h <;> simp at h

instance : Flat (peek crlf) := ⟨Fl.peek (fun _ h => crlf_inc h) fun _ _ _ _ => crlf_lit⟩
instance : Flat capabilityData := ⟨by unfold capabilityData; flat⟩
instance : Flat respTextCode := ⟨by unfold respTextCode; flat⟩
instance : Flat codeKnown := ⟨by unfold codeKnown; flat⟩
instance : Flat textAfterCode := ⟨by unfold textAfterCode; flat⟩
instance : Flat respTextCoded := ⟨by unfold respTextCoded; flat⟩
instance : Flat respText := ⟨by
  have h1 : Fl (opt (tag b!"[")) := by flat
  have h : Fl (peek (opt (tag b!"["))) := Fl.peek (fun _ => h1.inc) fun _ _ _ _ => h1.lit
  unfold respText; flat⟩
instance : Flat respCondAuth := ⟨by unfold respCondAuth; flat⟩
instance : Flat respCondBye := ⟨by unfold respCondBye; flat⟩
instance : Flat respCondState := ⟨by unfold respCondState; flat⟩

/-- The parser consumes one line. -/
structure Ln (p : P α) : Prop where
  ok : ∀ {x r v}, p x = .ok r v → ∃ w, x = w ++ r ∧ IsLine w
  inc : ∀ {x}, p x = .incomplete → (10 : UInt8) ∉ x
  lit : ∀ {x t n m}, p x ≠ .failure (.literal t n m)

omit [Quirks] in
theorem Ln.bind {f : α → P β} (hp : Fl p) (hf : ∀ v, Ln (f v)) : Ln (p >>= f) := by
  constructor
  · intro x r v h
    simp only [P.bind_apply] at h
    obtain ⟨r1, v1, e1, h'⟩ := Res.andThen_eq_ok.1 h
    replace h := h'
    obtain ⟨w, rfl, hw⟩ := hp.ok e1
    obtain ⟨_, rfl, l, rfl, hl⟩ := (hf v1).ok h
    exact ⟨w ++ (l ++ b!"\n"), by simp, w ++ l, by simp, by simp [hw, hl]⟩
  · intro x h
    simp only [P.bind_apply] at h
    replace h := andThen_inc h
    rcases h with h | ⟨r1, v1, e1, h⟩
    · exact hp.inc h
    · obtain ⟨w, rfl, hw⟩ := hp.ok e1
      simp [hw, (hf v1).inc h]
  · intro x t n m h
    simp only [P.bind_apply] at h
    replace h := andThen_fail h
    rcases h with h | ⟨r1, v1, e1, h⟩
    · exact hp.lit h
    · exact (hf v1).lit h

/-- The end of the line. -/
theorem Ln.crlf {v : α} : Ln (do crlf; return v : P α) := by
  constructor
  · intro x r v h
    simp only [P.bind_apply] at h
    obtain ⟨r1, v1, e1, h'⟩ := Res.andThen_eq_ok.1 h
    replace h := h'
    simp [P.pure_apply] at h
    obtain ⟨rfl, rfl⟩ := h
    obtain ⟨c, rfl, hc⟩ := crlf_ok e1
    exact ⟨c ++ b!"\n", rfl, c, rfl, hc⟩
  · intro x h
    simp only [P.bind_apply] at h
    replace h := andThen_inc h
    rcases h with h | ⟨r1, v1, e1, h⟩
    · exact crlf_inc h
    · simp [P.pure_apply] at h
  · intro x t n m h
    simp only [P.bind_apply] at h
    replace h := andThen_fail h
    rcases h with h | ⟨r1, v1, e1, h⟩
    · exact crlf_lit h
    · simp [P.pure_apply] at h

omit [Quirks] in
theorem Ln.orElse {p' : P α} (hp : Ln p) (hp' : Ln p') : Ln (Imap.orElse p p') := by
  constructor
  · intro x r v h
    unfold Imap.orElse at h
    split at h
    · exact hp'.ok h
    · exact hp.ok h
  · intro x h
    unfold Imap.orElse at h
    split at h
    · exact hp'.inc h
    · exact hp.inc h
  · intro x t n m h
    unfold Imap.orElse at h
    split at h
    · exact hp'.lit h
    · exact hp.lit h

omit [Quirks] in
theorem Ln.failR : Ln (P.fail : P α) := by constructor <;> intros <;> simp_all [P.fail]

theorem ln_greeting : Ln greeting := by
  unfold greeting
  refine Ln.bind (by flat) fun _ => Ln.bind (by flat) fun _ => Ln.crlf

theorem ln_tagged : Ln responseTagged := by
  unfold responseTagged
  exact Ln.bind (by flat) fun _ => Ln.bind (by flat) fun _ => Ln.bind (by flat) fun _ => Ln.crlf

theorem ln_fatal : Ln responseFatal := by
  unfold responseFatal
  exact Ln.bind (by flat) fun _ => Ln.bind (by flat) fun _ => Ln.crlf

theorem ln_done : Ln responseDone := by
  unfold responseDone
  exact Ln.orElse ln_tagged (Ln.orElse ln_fatal Ln.failR)

theorem ln_emptyContinueReq : Ln emptyContinueReq := by
  unfold emptyContinueReq
  exact Ln.bind (by flat) fun _ => Ln.crlf

end

end Imap.Frame
