import Verif.GrammarServerParts
import Verif.ResponsePost
import Verif.WellFormedLemmas
import Verif.Props.CaseResponse
/-
Parsers and grammars: texts at the end of lines, greetings, status responses and continuation requests.
-/
set_option maxRecDepth 10000

namespace Imap.Gr

open Imap.Grammar (G Star choice onlyIf optD sepBy1 sepBy0 such token octets named lit is plus)

variable {α β γ : Type}

section
variable [q : Quirks]

/-! ### The ends of lines -/

/-- The input starts with the end of a line. -/
def Line (r : Bytes) : Prop := ∃ w r', r = w ++ r' ∧ Grammar.crlf w ()

theorem Line.starts {r : Bytes} (h : Line r) : Starts T r := by
  obtain ⟨w, r', rfl, rfl | ⟨-, rfl⟩⟩ := h
  · exact ⟨13, _, rfl, by simp⟩
  · exact ⟨10, _, rfl, by simp⟩

theorem Line.crlf {r : Bytes} (h : Line r) : ∃ r', Imap.crlf r = .ok r' () := by
  obtain ⟨w, r', rfl, h⟩ := h
  exact ⟨r', fits_crlf.complete _ h⟩

/-- The same as `Fits` for what is followed by the end of a line. -/
structure FitsLine (p : P α) (g : G α) : Prop where
  sound : ∀ {x r v}, p x = .ok r v → ∃ w, x = w ++ r ∧ g w v
  complete : ∀ {w v r}, g w v → Line r → p (w ++ r) = .ok r v

theorem Fits.toLine {p : P α} {g : G α} (h : Fits p g T) : FitsLine p g := ⟨h.sound, fun hg hr => h.complete hg hr.starts⟩

theorem FitsLine.iff {p : P α} {g g' : G α} (h : FitsLine p g) (hg : ∀ w v, g' w v ↔ g w v) : FitsLine p g' :=
  ⟨fun e => let ⟨w, e', hw⟩ := h.sound e; ⟨w, e', (hg w _).2 hw⟩, fun hw => h.complete ((hg _ _).1 hw)⟩

theorem FitsLine.map {p : P α} {g : G α} {f : α → β} (hp : FitsLine p g) : FitsLine (f <$> p) (f <$> g) := ⟨by
  intro x r v e
  obtain ⟨i, a, e1, e2⟩ := Res.andThen_eq_ok.1 e
  cases e2
  obtain ⟨w1, rfl, h1⟩ := hp.sound e1
  exact ⟨w1, rfl, a, h1, rfl⟩, by
  rintro w v r ⟨a, h, rfl⟩ hr
  rw [P.map_apply, hp.complete h hr]; rfl⟩

theorem FitsLine.bind {p : P α} {g : G α} {f : α → P β} {k : α → G β} {S1 : List UInt8} {B : List Bytes} (hp : Fits p g S1)
    (hf : ∀ a, FitsLine (f a) (k a)) [hk : ∀ a, Begs (k a) T B] (hB : headsIn S1 B = true) : FitsLine (p >>= f) (g >>= k) := ⟨by
  intro x r v e
  obtain ⟨i, a, e1, e2⟩ := Res.andThen_eq_ok.1 e
  obtain ⟨w1, rfl, h1⟩ := hp.sound e1
  obtain ⟨w2, rfl, h2⟩ := (hf a).sound e2
  exact ⟨w1 ++ w2, by simp, w1, w2, a, rfl, h1, h2⟩, by
  rintro w v r ⟨w1, w2, a, rfl, h1, h2⟩ hr
  rw [List.append_assoc, P.bind_apply, hp.complete h1 ((hk a).starts hB h2 hr.starts), Res.andThen_ok]
  exact (hf a).complete h2 hr⟩

/-- What comes first does not depend on what follows. -/
theorem FitsLine.any {p : P α} {g : G α} {f : α → P β} {k : α → G β} (hp : FitsAny p g)
    (hf : ∀ a, FitsLine (f a) (k a)) : FitsLine (p >>= f) (g >>= k) := ⟨by
  intro x r v e
  obtain ⟨i, a, e1, e2⟩ := Res.andThen_eq_ok.1 e
  obtain ⟨w1, rfl, h1⟩ := hp.sound e1
  obtain ⟨w2, rfl, h2⟩ := (hf a).sound e2
  exact ⟨w1 ++ w2, by simp, w1, w2, a, rfl, h1, h2⟩, by
  rintro w v r ⟨w1, w2, a, rfl, h1, h2⟩ hr
  rw [List.append_assoc, P.bind_apply, hp.complete _ h1, Res.andThen_ok]
  exact (hf a).complete h2 hr⟩

theorem FitsLine.word {p : P Unit} {k k' : Bytes} {f : Unit → P β} {h : Unit → G β} (hp : Word p k) (hf : FitsLine (f ()) (h ()))
    (hk : k' = k := by rfl) : FitsLine (p >>= f) (Grammar.lit k' >>= h) := by
  refine FitsLine.any ?_ fun _ => hf
  subst hk
  obtain rfl := hp.out
  exact ⟨fun e => exists_of_tagNC' e, fun _ h => tagNC_ok h _⟩

theorem FitsLine.alt_one {p : P α} {g : G α} (h : FitsLine p g) : FitsLine (alt [p]) (choice [g]) := ⟨by
  intro x r v e
  obtain ⟨p', hp, e'⟩ := exists_of_alt e
  simp only [List.mem_singleton] at hp
  subst hp
  obtain ⟨w, rfl, hw⟩ := h.sound e'
  exact ⟨w, rfl, _, by simp, hw⟩, by
  rintro w v r ⟨g', hg, hw⟩ hr
  simp only [List.mem_singleton] at hg
  subst hg
  rw [alt_cons, orElse_ok (h.complete hw hr)]⟩

theorem FitsLine.alt_cons {p : P α} {g : G α} {ps : List (P α)} {gs : List (G α)} {E B : List Bytes} (h : FitsLine p g)
    (hs : FitsLine (alt ps) (choice gs)) [he : Errs p E] [hb : Begs (choice gs) T B] (hEB : apart E B = true) :
    FitsLine (alt (p :: ps)) (choice (g :: gs)) := ⟨by
  intro x r v e
  rw [Imap.alt_cons] at e
  unfold orElse at e
  split at e
  · obtain ⟨w, rfl, g', hg, hw⟩ := hs.sound e
    exact ⟨w, rfl, g', by simp [hg], hw⟩
  · obtain ⟨w, rfl, hw⟩ := h.sound e
    exact ⟨w, rfl, g, by simp, hw⟩, by
  rintro w v r ⟨g', hg, hw⟩ hr
  rcases List.mem_cons.1 hg with rfl | hg
  · rw [Imap.alt_cons, orElse_ok (h.complete hw hr)]
  · have hc : choice gs w v := ⟨g', hg, hw⟩
    rw [Imap.alt_cons, orElse_error (he.of_begs hb hEB hc hr.starts)]
    exact hs.complete hc hr⟩

/-- With the end of the line. -/
theorem FitsLine.crlf {p : P α} {g : G α} {f : α → β} (h : FitsLine p g) :
    FitsAny (do let b ← p; Imap.crlf; return f b) (do let b ← g; Grammar.crlf; return f b) := ⟨by
  intro x r v e
  simp only [P.bind_apply, Res.andThen_eq_ok] at e
  obtain ⟨i, b, e1, i', _, e2, e3⟩ := e
  cases e3
  obtain ⟨w, rfl, h1⟩ := h.sound e1
  obtain ⟨w2, rfl, h2⟩ := fits_crlf.sound e2
  exact ⟨w ++ w2, by simp, w, w2, b, rfl, h1, w2, [], (), by simp, h2, rfl, rfl⟩, by
  rintro w v r ⟨w1, _, b, rfl, h1, w2, _, _, rfl, h2, rfl, rfl⟩
  rw [List.append_nil, List.append_assoc, P.bind_apply, h.complete h1 ⟨w2, r, rfl, h2⟩, Res.andThen_ok, P.bind_apply, fits_crlf.complete r h2]
  rfl⟩

theorem FitsAny.word {p : P Unit} {k k' : Bytes} {f : Unit → P β} {h : Unit → G β} (hp : Word p k) (hf : FitsAny (f ()) (h ()))
    (hk : k' = k := by rfl) : FitsAny (p >>= f) (Grammar.lit k' >>= h) := by
  subst hk
  obtain rfl := hp.out
  refine ⟨?_, ?_⟩
  · intro x r v e
    obtain ⟨i, a, e1, e2⟩ := Res.andThen_eq_ok.1 e
    obtain ⟨w1, rfl, h1⟩ := exists_of_tagNC' e1
    obtain ⟨w2, rfl, h2⟩ := hf.sound e2
    exact ⟨w1 ++ w2, by simp, w1, w2, a, rfl, h1, h2⟩
  · rintro w v r ⟨w1, w2, a, rfl, h1, h2⟩
    rw [List.append_assoc, P.bind_apply, tagNC_ok h1, Res.andThen_ok]
    exact hf.complete _ h2

theorem FitsAny.map {p : P α} {g : G α} {f : α → β} (hp : FitsAny p g) : FitsAny (f <$> p) (f <$> g) := ⟨by
  intro x r v e
  obtain ⟨i, a, e1, e2⟩ := Res.andThen_eq_ok.1 e
  cases e2
  obtain ⟨w1, rfl, h1⟩ := hp.sound e1
  exact ⟨w1, rfl, a, h1, rfl⟩, by
  rintro w v r ⟨a, h, rfl⟩
  rw [P.map_apply, hp.complete _ h]; rfl⟩

/-! ### Texts -/

/-- There is no CR and no LF. -/
def NoEol (w : Bytes) : Prop := 13 ∉ w ∧ 10 ∉ w

omit q in
theorem NoEol.all {w : Bytes} (h : NoEol w) : w.all (locX true) = true := by
  rw [List.all_eq_true]
  intro b hb
  have h1 : b ≠ 13 := fun e => h.1 (e ▸ hb)
  have h2 : b ≠ 10 := fun e => h.2 (e ▸ hb)
  simp [locX, h1, h2]

omit q in
theorem NoEol.append {u w : Bytes} (hu : NoEol u) (hw : NoEol w) : NoEol (u ++ w) := by
  simp only [NoEol, List.mem_append, not_or] at *
  tauto

omit q in
theorem split_eol (w : Bytes) : NoEol w ∨ ∃ a b t, w = a ++ b :: t ∧ NoEol a ∧ (b = 13 ∨ b = 10) := by
  induction w with
  | nil => left; simp [NoEol]
  | cons c w ih =>
    by_cases hc : c = 13 ∨ c = 10
    · exact .inr ⟨[], c, w, rfl, by simp [NoEol], hc⟩
    · rcases ih with h | ⟨a, b, t, rfl, h, hb⟩
      · left
        simp only [NoEol, List.mem_cons, not_or] at h ⊢
        simp only [not_or] at hc
        exact ⟨⟨fun e => hc.1 e.symm, h.1⟩, ⟨fun e => hc.2 e.symm, h.2⟩⟩
      · refine .inr ⟨c :: a, b, t, rfl, ?_, hb⟩
        simp only [NoEol, List.mem_cons, not_or] at h ⊢
        simp only [not_or] at hc
        exact ⟨⟨fun e => hc.1 e.symm, h.1⟩, ⟨fun e => hc.2 e.symm, h.2⟩⟩

omit q in
/-- Texts that are found on a line. -/
theorem Fits.noEol {p : P α} {g : G α} {S : List UInt8} (h : Fits p g S) [hl : Local p] {b : UInt8} (hb : b ∈ S) (hn : b ≠ 13 ∧ b ≠ 10)
    {w : Bytes} {v : α} (hw : g w v) : NoEol w := by
  rcases split_eol w with h' | ⟨a, c, t, rfl, ha, hc⟩
  · exact h'
  · have hy : LocY true (c :: t ++ [b]) := ⟨c, t ++ [b], rfl, hc⟩
    have h1 := h.complete hw (r := [b]) ⟨b, [], rfl, hb⟩
    rw [List.append_assoc] at h1
    rcases hl.loc true a ha.all with ⟨r, u, -, -, e⟩ | e
    · rw [e _ hy] at h1
      cases r with
      | nil =>
        simp only [List.nil_append, List.cons_append, Res.ok.injEq, List.cons.injEq] at h1
        obtain ⟨⟨rfl, -⟩, -⟩ := h1
        tauto
      | cons x r => simp at h1
    · rw [e _ hy] at h1
      simp at h1

theorem Line.eol {r : Bytes} (h : Line r) : EolTail r := by
  obtain ⟨b, r', rfl, hb⟩ := h.starts
  exact ⟨b, r', rfl, by simpa using hb⟩

omit q in
theorem textChar_noEol' {w : Bytes} (h : ∀ b ∈ w, Spec.TextChar b) : NoEol w := by
  constructor
  · intro h'
    have := h _ h'
    revert this; decide
  · intro h'
    have := h _ h'
    revert this; decide

omit q in
theorem fits_textChars : Fits text Grammar.Server.text T := fits_takeWhile1 Spec.textChar_iff (by decide)

omit q in
instance : Begs0 Grammar.Server.text (allOf isTextChar) := begs0_token fun b h => (Spec.textChar_iff b).2 h

instance : Begs0 Grammar.Server.afterCode [b!"]"] := Begs0.bind _ _

/-- The text after a code. -/
theorem fits_textAfterCode : FitsLine textAfterCode
    (if q.missingText then optD b!"..." (do Grammar.sp; Grammar.Server.text) else do Grammar.sp; Grammar.Server.text) := by
  have h1 : FitsLine (do sp; text) (do Grammar.sp; Grammar.Server.text) := FitsLine.word inferInstance fits_textChars.toLine
  unfold textAfterCode
  split
  · refine ⟨?_, ?_⟩
    · intro x r v e
      rcases exists_of_alt2 e with h | h
      · obtain ⟨w, rfl, hw⟩ := h1.sound h
        exact ⟨w, rfl, .inr hw⟩
      · simp only [value, P.bind_apply, peek, Res.andThen_eq_ok] at h
        obtain ⟨i, u, ⟨j, u', e1, e2⟩, e3⟩ := h
        cases e2
        cases e3
        exact ⟨[], rfl, .inl ⟨rfl, rfl⟩⟩
    · rintro w v r (⟨rfl, rfl⟩ | hw) hr
      · have he : (do sp; text : P Bytes) r = .error := by
          obtain ⟨b, r', rfl, hb⟩ := hr.starts
          simp only [List.mem_cons, List.not_mem_nil, or_false] at hb
          rcases hb with rfl | rfl <;> rfl
        obtain ⟨r', hc⟩ := hr.crlf
        rw [List.nil_append, alt_cons, orElse_error he, alt_cons]
        refine orElse_ok ?_
        simp only [value, P.bind_apply, peek, hc, Res.andThen_ok]
        rfl
      · rw [alt_cons, orElse_ok (h1.complete hw hr)]
  · exact h1

/-- A known code and the text. -/
theorem fits_known : FitsLine (do tag b!"["; let c ← respTextCode; tag b!"]"; let t ← textAfterCode; return (some c, t))
    (do lit b!"["; let c ← Grammar.Server.respTextCode; let t ← Grammar.Server.afterCode; return (some c, t)) := by
  refine FitsLine.word inferInstance (FitsLine.bind fits_respTextCode (fun c => ?_) (by decide +kernel))
  have h : FitsLine (do tag b!"]"; textAfterCode) Grammar.Server.afterCode := FitsLine.word inferInstance fits_textAfterCode
  have := h.map (f := fun t => (some c, t))
  simpa only [map_eq_pure_bind, bind_assoc] using this

omit q in
theorem symbol_eq {w k : Bytes} (hk : symbols k = true) (h : lowerAll w = lowerAll k) : w = k := by
  induction k generalizing w with
  | nil => simpa [lowerAll] using h
  | cons b k ih =>
    cases w with
    | nil => simp [lowerAll] at h
    | cons c w =>
      simp only [symbols, List.all_cons, Bool.and_eq_true, beq_iff_eq] at hk
      simp only [lowerAll, List.map_cons, List.cons.injEq] at h
      rw [(lower_symbol hk.1.1 hk.1.2).2 h.1.symm, ih hk.2 h.2]

theorem afterCode_noEol {w t : Bytes} (h : Grammar.Server.afterCode w t) : NoEol w := by
  obtain ⟨w1, w2, _, rfl, h1, h2⟩ := h
  obtain rfl := symbol_eq (by decide) h1
  refine NoEol.append (by simp [NoEol]) ?_
  have key : (do Grammar.sp; Grammar.Server.text) w2 t → NoEol w2 := by
    rintro ⟨w3, w4, _, rfl, h3, rfl, -, h4⟩
    obtain rfl := symbol_eq (k := b!" ") (by decide) h3
    exact NoEol.append (by simp [NoEol]) (textChar_noEol' h4)
  split at h2
  rotate_left
  · exact key h2
  revert h2
  rintro (⟨rfl, -⟩ | h)
  · simp [NoEol]
  · exact key h

theorem codeKnown_ok {x r : Bytes} {c : Code} : codeKnown x = .ok r c ↔ respTextCode x = .ok (b!"]" ++ r) c := by
  simp only [codeKnown, P.bind_apply, Res.andThen_eq_ok]
  constructor
  · rintro ⟨i, c', h1, j, u, h2, h3⟩
    cases h3
    obtain rfl := exists_of_tag h2
    exact h1
  · intro h
    exact ⟨_, _, h, r, (), rfl, rfl⟩

instance : Begs0 Grammar.Server.respText (b!"[" :: allOf isTextChar) := ⟨by
  rintro w v ⟨g, hg, h⟩
  simp only [List.mem_cons, List.not_mem_nil, or_false] at hg
  rcases hg with rfl | rfl | rfl
  · obtain ⟨w1, w2, _, rfl, h, -⟩ := h
    exact ⟨_, List.mem_cons_self .., w1, w2, rfl, h⟩
  · obtain ⟨⟨w1, w2, _, rfl, h, -⟩, -⟩ := h
    exact ⟨_, List.mem_cons_self .., w1, w2, rfl, h⟩
  · obtain ⟨t, ⟨h, -⟩, -⟩ := h
    have hb : Begs0 Grammar.Server.text (allOf isTextChar) := inferInstance
    obtain ⟨k, hk, hb⟩ := hb.out h
    exact ⟨k, List.mem_cons_of_mem _ hk, hb⟩⟩

theorem respText_bracket (x : Bytes) : respText (91 :: x) = respTextCoded (91 :: x) := by
  simp [respText, P.bind_apply, peek, Imap.opt, Imap.tag, Res.andThen]

theorem respText_plain {b : UInt8} {x : Bytes} (h : b ≠ 91) : respText (b :: x) = respTextPlain (b :: x) := by
  simp [respText, P.bind_apply, peek, Imap.opt, Imap.tag, Res.andThen, h.symm]

theorem fits_respText : FitsLine respText Grammar.Server.respText := by
  refine ⟨?_, ?_⟩
  · intro x r v e
    cases x with
    | nil => simp [respText, P.bind_apply, peek, Imap.opt, Imap.tag] at e
    | cons b x =>
      by_cases hb : b = 91
      · subst hb
        rw [respText_bracket] at e
        simp only [respTextCoded, P.bind_apply, Res.andThen_eq_ok] at e
        obtain ⟨i, _, e1, j, c, e2, i2, t, e3, e4⟩ := e
        cases e4
        have : i = x := by simpa [Imap.tag] using e1.symm
        subst this
        have hA : ∃ w, j = w ++ r ∧ Grammar.Server.afterCode (b!"]" ++ w) t := by
          obtain ⟨w, rfl, hw⟩ := fits_textAfterCode.sound e3
          exact ⟨w, rfl, b!"]", w, (), rfl, rfl, hw⟩
        obtain ⟨w, rfl, hA⟩ := hA
        rw [alt_cons] at e2
        cases hk : codeKnown i with
        | ok j' c' =>
          rw [orElse_ok hk] at e2
          cases e2
          obtain ⟨p, rfl, hp⟩ := fits_respTextCode.sound (codeKnown_ok.1 hk)
          refine ⟨b!"[" ++ (p ++ (b!"]" ++ w)), by simp, _, List.mem_cons_self .., ?_⟩
          exact ⟨b!"[", _, (), rfl, rfl, p, _, c, rfl, hp, _, [], t, by simp, hA, rfl, rfl⟩
        | incomplete => simp [orElse, hk] at e2
        | failure k => simp [orElse, hk] at e2
        | error =>
          rw [orElse_error hk] at e2
          obtain ⟨p', hp', e2⟩ := exists_of_alt e2
          simp only [List.mem_singleton] at hp'
          subst hp'
          simp only [codeOther, P.bind_apply, Res.andThen_eq_ok] at e2
          obtain ⟨i3, bs, e5, i4, _, e6, e7⟩ := e2
          cases e7
          obtain ⟨rfl, hbs, -⟩ := exists_of_takeWhile e5
          obtain rfl := exists_of_tag e6
          refine ⟨b!"[" ++ (bs ++ (b!"]" ++ w)), by simp, _, List.mem_cons_of_mem _ (List.mem_cons_self ..), ?_, ?_⟩
          · refine ⟨b!"[", _, (), rfl, rfl, bs, _, .other bs, rfl, ⟨rfl, ?_⟩, _, [], t, by simp, hA, rfl, rfl⟩
            intro b hb
            exact (Spec.codeOther_iff b).1 (List.all_eq_true.1 hbs b hb)
          · rintro ⟨p, s, c, e8, hp⟩
            have e9 : bs ++ (b!"]" ++ w) = p ++ (b!"]" ++ s) := by simpa using e8
            have h1 := fits_respTextCode.complete hp (r := b!"]" ++ (s ++ r)) ⟨93, _, rfl, by simp⟩
            have h2 := codeKnown_ok.2 h1
            rw [show p ++ (b!"]" ++ (s ++ r)) = bs ++ (b!"]" ++ (w ++ r)) by
              rw [← List.append_assoc b!"]" w r, ← List.append_assoc bs, e9]; simp] at h2
            rw [hk] at h2
            simp at h2
      · rw [respText_plain hb] at e
        simp only [respTextPlain, P.bind_apply, Res.andThen_eq_ok] at e
        obtain ⟨i, t, e1, e2⟩ := e
        cases e2
        obtain ⟨w, e3, hw⟩ := fits_textChars.sound e1
        refine ⟨w, e3, _, List.mem_cons_of_mem _ (List.mem_cons_of_mem _ (List.mem_cons_self ..)), t, ⟨hw, ?_⟩, rfl⟩
        rintro ⟨s, rfl⟩
        simp at e3
        exact hb e3.1
  · rintro w v r ⟨g, hg, h⟩ hr
    simp only [List.mem_cons, List.not_mem_nil, or_false] at hg
    rcases hg with rfl | rfl | rfl
    · have h' := fits_known.complete h hr
      simp only [P.bind_apply, Res.andThen_eq_ok] at h'
      obtain ⟨i, _, e1, j, c, e2, i2, _, e3, i3, t, e4, e5⟩ := h'
      have e6 := exists_of_tag e1
      rw [e6]
      rw [show b!"[" ++ i = 91 :: i from rfl, respText_bracket]
      cases e5
      simp only [respTextCoded, P.bind_apply]
      have hk : codeKnown i = .ok i2 c := codeKnown_ok.2 (by rw [e2, ← exists_of_tag e3])
      rw [show Imap.tag b!"[" (91 :: i) = .ok i () from rfl, Res.andThen_ok, P.bind_apply, alt_cons, orElse_ok hk, Res.andThen_ok, P.bind_apply, e4]
      rfl
    · obtain ⟨⟨w1, w2, _, rfl, h1, bs, w3, c, rfl, ⟨rfl, hbs⟩, w4, w5, t, rfl, h4, rfl, rfl⟩, hn⟩ := h
      obtain rfl := symbol_eq (k := b!"[") (by decide) h1
      rw [List.append_nil] at *
      have hno : NoEol (bs ++ w4) := by
        refine NoEol.append ⟨fun h' => ?_, fun h' => ?_⟩ (afterCode_noEol h4)
        · exact hbs _ h' (by simp)
        · exact hbs _ h' (by simp)
      have hk : codeKnown ((bs ++ w4) ++ r) = .error := by
        rcases (inferInstance : Local respTextCode).loc true (bs ++ w4) hno.all with ⟨r0, c, -, -, e⟩ | e
        · have e1 := e r hr.eol
          rw [codeKnown, P.bind_apply, e1, Res.andThen_ok, P.bind_apply]
          obtain ⟨b, r', rfl, hb⟩ := hr.starts
          cases r0 with
          | nil =>
            have : b ≠ 93 := by rintro rfl; simp at hb
            simp [Imap.tag, this.symm]
          | cons b' r0 =>
            by_cases hb' : b' = 93
            · exfalso
              subst hb'
              obtain ⟨p, e2, hp⟩ := fits_respTextCode.sound e1
              apply hn
              refine ⟨p, r0, c, ?_, hp⟩
              have e3 : bs ++ w4 = p ++ 93 :: r0 := by
                have : (bs ++ w4) ++ b :: r' = (p ++ 93 :: r0) ++ b :: r' := by rw [e2]; simp
                exact List.append_cancel_right this
              rw [e3]; simp
            · simp [Imap.tag, Ne.symm hb']
        · rw [codeKnown, P.bind_apply, e r hr.eol]; rfl
      obtain ⟨w6, w7, _, rfl, h6, h7⟩ := h4
      obtain rfl := symbol_eq (k := b!"]") (by decide) h6
      have hbs' : bs.all isCodeOtherChar = true := List.all_eq_true.2 fun b hb => (Spec.codeOther_iff b).2 (hbs b hb)
      have ho : codeOther ((bs ++ (b!"]" ++ w7)) ++ r) = .ok (w7 ++ r) (.other bs) := by
        have : takeWhile isCodeOtherChar (bs ++ (b!"]" ++ (w7 ++ r))) = .ok (b!"]" ++ (w7 ++ r)) bs := takeWhile_append hbs' (by rfl)
        rw [List.append_assoc, List.append_assoc, codeOther, P.bind_apply, this]
        rfl
      rw [List.append_assoc, show b!"[" ++ ((bs ++ (b!"]" ++ w7)) ++ r) = 91 :: ((bs ++ (b!"]" ++ w7)) ++ r) from rfl, respText_bracket]
      simp only [respTextCoded, P.bind_apply]
      rw [show ∀ i, Imap.tag b!"[" (91 :: i) = .ok i () from fun _ => rfl, Res.andThen_ok, P.bind_apply, alt_cons, orElse_error hk, alt_cons,
        orElse_ok ho, Res.andThen_ok, P.bind_apply, fits_textAfterCode.complete h7 hr]
      rfl
    · obtain ⟨t, ⟨h, hn⟩, rfl⟩ := h
      have ht := fits_textChars.complete h hr.starts
      obtain ⟨rfl, hne, -⟩ := h
      cases t with
      | nil => exact absurd rfl hne
      | cons b t =>
        have hb : b ≠ 91 := by
          rintro rfl
          exact hn ⟨t, rfl⟩
        rw [List.cons_append] at ht ⊢
        rw [respText_plain hb, respTextPlain, P.bind_apply, ht]
        rfl

theorem respText_noEol {w : Bytes} {v : Option Code × Bytes} (h : Grammar.Server.respText w v) : NoEol w := by
  obtain ⟨g, hg, h⟩ := h
  simp only [List.mem_cons, List.not_mem_nil, or_false] at hg
  rcases hg with rfl | rfl | rfl
  · obtain ⟨w1, w2, _, rfl, h1, p, w3, c, rfl, hp, w4, w5, t, rfl, h4, rfl, rfl⟩ := h
    obtain rfl := symbol_eq (k := b!"[") (by decide) h1
    refine NoEol.append (by simp [NoEol]) (NoEol.append (fits_respTextCode.noEol (b := 93) (by simp) (by decide) hp) ?_)
    rw [List.append_nil]
    exact afterCode_noEol h4
  · obtain ⟨⟨w1, w2, _, rfl, h1, bs, w3, c, rfl, ⟨rfl, hbs⟩, w4, w5, t, rfl, h4, rfl, rfl⟩, hn⟩ := h
    obtain rfl := symbol_eq (k := b!"[") (by decide) h1
    refine NoEol.append (by simp [NoEol]) (NoEol.append ⟨fun h' => ?_, fun h' => ?_⟩ ?_)
    · exact hbs _ h' (by simp)
    · exact hbs _ h' (by simp)
    rw [List.append_nil]
    exact afterCode_noEol h4
  · obtain ⟨t, ⟨⟨rfl, -, h⟩, -⟩, -⟩ := h
    exact textChar_noEol' h

/-! ### Greetings and status responses -/

omit q in
theorem choice_bind {gs : List (G α)} {f : α → G β} {w : Bytes} {v : β} : (choice gs >>= f) w v ↔ ∃ g ∈ gs, (g >>= f) w v := by
  constructor
  · rintro ⟨w1, w2, a, rfl, ⟨g, hg, h1⟩, h2⟩
    exact ⟨g, hg, w1, w2, a, rfl, h1, h2⟩
  · rintro ⟨g, hg, w1, w2, a, rfl, h1, h2⟩
    exact ⟨w1, w2, a, rfl, ⟨g, hg, h1⟩, h2⟩

instance : Errs respCondBye [b!"BYE "] := Errs.bind _ _

theorem fits_respCondBye : FitsLine respCondBye (do lit b!"BYE "; Grammar.Server.respText) := FitsLine.word inferInstance fits_respText

omit q in
theorem fits_isWord {p : P Unit} {k : Bytes} {a : α} (hp : Word p k) : FitsAny (value a p) (is k a) := by
  obtain rfl := hp.out
  refine ⟨?_, ?_⟩
  · intro x r v e
    obtain ⟨i, u, e1, e2⟩ := Res.andThen_eq_ok.1 e
    cases e2
    obtain ⟨w, rfl, h⟩ := exists_of_tagNC' e1
    exact ⟨w, rfl, h, rfl⟩
  · rintro w v r ⟨h, rfl⟩
    rw [value, P.bind_apply, tagNC_ok h]; rfl

omit q in
theorem fits_condAuthKind {S : List UInt8} : Fits condAuthKind (choice [is b!"OK " GreetingKind.ok, is b!"PREAUTH " .preAuth]) S :=
  Fits.alt_cons (Fits.is inferInstance) (Fits.alt_one (Fits.is inferInstance)) (hb := Begs.of _ inferInstance) (by decide +kernel)

omit q in
theorem fits_condStateKind {S : List UInt8} : Fits condStateKind Grammar.Server.condition S :=
  Fits.alt_cons (Fits.is inferInstance) (Fits.alt_cons (Fits.is inferInstance) (Fits.alt_one (Fits.is inferInstance))
    (hb := Begs.of _ inferInstance) (by decide +kernel)) (hb := Begs.of _ inferInstance) (by decide +kernel)

omit q in
instance : Errs condAuthKind [b!"OK ", b!"PREAUTH "] := by
  have : Errs condAuthKind ([b!"OK "] ++ [b!"PREAUTH "]) := by unfold condAuthKind; infer_instance
  exact this

omit q in
instance : Errs condStateKind [b!"OK ", b!"NO ", b!"BAD "] := by
  have : Errs condStateKind ([b!"OK "] ++ ([b!"NO "] ++ [b!"BAD "])) := by unfold condStateKind; infer_instance
  exact this

omit q in
instance : Begs0 Grammar.Server.condition [b!"OK ", b!"NO ", b!"BAD "] := by
  have : Begs0 Grammar.Server.condition ([b!"OK "] ++ ([b!"NO "] ++ ([b!"BAD "] ++ []))) := by unfold Grammar.Server.condition; infer_instance
  exact this

theorem fits_respCondState : FitsLine respCondState (do let k ← Grammar.Server.condition; let x ← Grammar.Server.respText; return (k, x)) := by
  refine FitsLine.bind (S1 := (allOf (fun _ => true)).flatten) fits_condStateKind (fun k => ?_) (by decide +kernel)
  have := fits_respText.map (f := fun x => (k, x))
  simpa only [map_eq_pure_bind] using this

theorem fits_greeting : FitsAny greeting Grammar.Server.greeting := by
  have h : FitsLine (alt [respCondAuth, (fun t => (GreetingKind.bye, t)) <$> respCondBye])
      (choice [(do let k ← choice [is b!"OK " GreetingKind.ok, is b!"PREAUTH " .preAuth]; let x ← Grammar.Server.respText; return (k, x)),
        (fun t => (GreetingKind.bye, t)) <$> (do lit b!"BYE "; Grammar.Server.respText)]) := by
    refine FitsLine.alt_cons (E := [b!"OK ", b!"PREAUTH "]) (he := Errs.bind _ _) ?_ (FitsLine.alt_one fits_respCondBye.map) (by decide +kernel)
    refine FitsLine.bind (S1 := (allOf (fun _ => true)).flatten) fits_condAuthKind (fun k => ?_) (by decide +kernel)
    have := fits_respText.map (f := fun x => (k, x))
    simpa only [map_eq_pure_bind] using this
  have hg : ∀ w v, (do let k ← choice [is b!"OK " GreetingKind.ok, is b!"PREAUTH " .preAuth, is b!"BYE " .bye]; let x ← Grammar.Server.respText; return (k, x) : G _) w v ↔
      (choice [(do let k ← choice [is b!"OK " GreetingKind.ok, is b!"PREAUTH " .preAuth]; let x ← Grammar.Server.respText; return (k, x)),
        (fun t => (GreetingKind.bye, t)) <$> (do lit b!"BYE "; Grammar.Server.respText)]) w v := by
    intro w v
    simp only [is_eq, choice_bind, choice_cons, choice_nil, List.mem_cons, List.not_mem_nil, or_false, exists_eq_or_imp, exists_eq_left, bind_assoc,
      pure_bind, map_eq_pure_bind, or_assoc]
  have h' := (h.iff hg).crlf (f := fun x => (⟨x.1, x.2.1, x.2.2⟩ : Greeting))
  have := FitsAny.word (p := tag b!"* ") (k := b!"* ") (f := fun _ => _) (h := fun _ => _) (word_tag (by decide)) h'
  simp only [bind_assoc, pure_bind] at this
  exact this

instance : Begs0 Grammar.Server.responseTagged (allOf isTagChar) := by
  have : Begs0 Grammar.tag (allOf isTagChar) := begs0_token fun b h => (Spec.tagChar_iff b).2 h
  exact Begs0.bind _ _

theorem fits_responseTagged : FitsAny responseTagged Grammar.Server.responseTagged := by
  have ht : Fits tagImap Grammar.tag b!" " := fits_takeWhile1 Spec.tagChar_iff (by decide)
  have h : FitsLine (do let a ← tagImap; sp; let x ← respCondState; return (a, x))
      (do let a ← Grammar.tag; Grammar.sp; let x ← (do let k ← Grammar.Server.condition; let x ← Grammar.Server.respText; return (k, x)); return (a, x)) := by
    refine FitsLine.bind ht (fun a => FitsLine.word inferInstance ?_) (by decide +kernel)
    have := fits_respCondState.map (f := fun x => (a, x))
    simpa only [map_eq_pure_bind] using this
  have h' := h.crlf (f := fun x => Status.tagged x.1 x.2.1 x.2.2.1 x.2.2.2)
  simp only [bind_assoc, pure_bind] at h'
  exact h'

/-! ### Continuation requests -/

omit q in
theorem stripCr_noEol {t : Bytes} (ht : NoEol t) : stripCr t = t := by
  unfold stripCr
  rw [if_neg]
  intro h
  exact ht.1 (List.mem_of_getLast? h)

/-- The base64 alternative sees the whole line. -/
theorem continueBase64_noEol {t w r : Bytes} (ht : NoEol t) (hw : Grammar.crlf w ()) :
    ∃ i, crlf i = .ok r () ∧ continueBase64 (t ++ (w ++ r)) =
      match b64Decode t with
      | some d => .ok i d
      | none => .error := by
  unfold continueBase64
  cases hq : Quirks.crlfRelaxed
  · obtain rfl : w = b!"\r\n" := by
      rcases hw with rfl | ⟨h, -⟩
      · rfl
      · rw [h] at hq; simp at hq
    refine ⟨b!"\r\n" ++ r, fits_crlf.complete r (.inl rfl), ?_⟩
    simp only [Bool.false_eq_true, if_false, mapRes, takeUntil]
    rw [show t ++ (b!"\r\n" ++ r) = t ++ 13 :: 10 :: r by simp, splitOnce_crlf ht.2]
    dsimp only
    cases b64Decode t <;> rfl
  · refine ⟨b!"\n" ++ r, fits_crlf.complete r (.inr ⟨hq, rfl⟩), ?_⟩
    simp only [if_true, mapRes, takeUntil]
    rcases hw with rfl | ⟨-, rfl⟩
    · rw [show t ++ (b!"\r\n" ++ r) = (t ++ [13]) ++ 10 :: r by simp, splitOnce_lf (by simpa using ht.2)]
      dsimp only
      rw [show stripCr (t ++ [13]) = t by simp [stripCr]]
      cases b64Decode t <;> rfl
    · rw [show t ++ (b!"\n" ++ r) = t ++ 10 :: r by simp, splitOnce_lf ht.2]
      dsimp only
      rw [stripCr_noEol ht]
      cases b64Decode t <;> rfl

omit q in
theorem base64_noEol {w d : Bytes} (h : Grammar.base64 w d) : NoEol w := by
  have key : ∀ b : UInt8, isTextChar b = true → b ≠ 13 ∧ b ≠ 10 := forall_byte (by decide)
  have hall := b64Encode_text d
  rw [← h.trans (base64_eq d), List.all_eq_true] at hall
  exact ⟨fun h' => (key _ (hall _ h')).1 rfl, fun h' => (key _ (hall _ h')).2 rfl⟩

theorem fits_continueReq : FitsAny continueReq (choice [
    .base64 <$> (do lit b!"+ "; let d ← Grammar.base64; Grammar.crlf; return d),
    do lit b!"+ "; let x ← Grammar.Server.except Grammar.Server.respText (fun w => ∃ d, Grammar.base64 w d); Grammar.crlf; return .basic x.1 x.2]) := by
  refine ⟨?_, ?_⟩
  · intro x r v e
    obtain ⟨y, e1, e2⟩ := exists_of_mapRes e
    simp only [continueInner, P.bind_apply, Res.andThen_eq_ok] at e1
    obtain ⟨i, _, h1, j, y', h2, i2, _, h3, h4⟩ := e1
    cases h4
    obtain rfl := exists_of_tag h1
    rw [alt_cons] at h2
    cases hb : continueBase64 i with
    | ok j' d =>
      rw [orElse_ok (r := j') (v := ContinueEither.base64 d) (by rw [P.map_apply, hb]; rfl)] at h2
      cases h2
      simp only [ContinueEither.toReq, Option.some.injEq] at e2
      subst e2
      obtain ⟨w2, rfl, hw2⟩ := fits_crlf.sound h3
      have hw2' : Grammar.crlf w2 () := hw2
      obtain ⟨w1, w3, rfl, h5, h6⟩ : ∃ w1 w3, i = w1 ++ (w3 ++ r) ∧ Grammar.base64 w1 d ∧ Grammar.crlf w3 () := by
        unfold continueBase64 at hb
        split at hb
        · next hq =>
          obtain ⟨s, h6, h7⟩ := exists_of_mapRes hb
          obtain ⟨rfl, r', h8⟩ := exists_of_takeUntil h6
          have h7 := (C24_base64 _ _).1 h7
          have hy : w2 = b!"\n" := by
            rcases hw2 with rfl | ⟨-, rfl⟩
            · simp at h8
            · rfl
          subst hy
          unfold stripCr at h7
          split at h7
          · next hl =>
            refine ⟨s.dropLast, b!"\r\n", ?_, h7.trans (base64_eq d).symm, .inl rfl⟩
            have : s.dropLast ++ [13] = s := dropLast_append hl
            conv_lhs => rw [← this]
            simp
          · exact ⟨s, b!"\n", rfl, h7.trans (base64_eq d).symm, .inr ⟨hq, rfl⟩⟩
        · obtain ⟨s, h6, h7⟩ := exists_of_mapRes hb
          obtain ⟨rfl, r', h8⟩ := exists_of_takeUntil h6
          exact ⟨s, w2, rfl, ((C24_base64 _ _).1 h7).trans (base64_eq d).symm, hw2'⟩
      exact ⟨b!"+ " ++ (w1 ++ w3), by simp, _, List.mem_cons_self .., d, ⟨b!"+ ", _, (), rfl, rfl, w1, w3, d, rfl, h5, w3, [], (), by simp, h6, rfl, rfl⟩, rfl⟩
    | incomplete => simp [orElse, P.map_apply, hb] at h2
    | failure k => simp [orElse, P.map_apply, hb] at h2
    | error =>
      rw [orElse_error (by rw [P.map_apply, hb]; rfl)] at h2
      obtain ⟨p', hp', h2⟩ := exists_of_alt h2
      simp only [List.mem_singleton] at hp'
      subst hp'
      simp only [P.map_apply, Res.andThen_eq_ok] at h2
      obtain ⟨j', x, h5, h6⟩ := h2
      cases h6
      obtain ⟨w, rfl, hw⟩ := fits_respText.sound h5
      obtain ⟨w2, rfl, hw2⟩ := fits_crlf.sound h3
      simp only [ContinueEither.toReq] at e2
      have : v = .basic x.1 x.2 := by
        unfold ContinueReq.ofBasic at e2
        split_ifs at e2
        simpa using e2.symm
      subst this
      refine ⟨b!"+ " ++ (w ++ w2), by simp, _, List.mem_cons_of_mem _ (List.mem_cons_self ..), b!"+ ", _, (), rfl, rfl,
        w, w2, x, rfl, ⟨hw, ?_⟩, w2, [], (), by simp, hw2, rfl, rfl⟩
      rintro ⟨d, hd⟩
      obtain ⟨i, -, h⟩ := continueBase64_noEol (r := r) (respText_noEol hw) hw2
      rw [hb, (C24_base64 w d).2 (hd.trans (base64_eq d))] at h
      simp at h
  · rintro w v r ⟨g, hg, h⟩
    simp only [List.mem_cons, List.not_mem_nil, or_false] at hg
    rcases hg with rfl | rfl
    · obtain ⟨d, ⟨w1, w2, _, rfl, h1, w3, w4, d', rfl, h3, w5, w6, _, rfl, h5, rfl, rfl⟩, rfl⟩ := h
      obtain rfl := symbol_eq (k := b!"+ ") (by decide) h1
      obtain ⟨i, hi, hb⟩ := continueBase64_noEol (r := r) (base64_noEol h3) h5
      rw [(C24_base64 w3 d).2 (h3.trans (base64_eq d))] at hb
      refine mapRes_ok (v := ContinueEither.base64 d) ?_ rfl
      simp only [continueInner, P.bind_apply, List.append_assoc, List.append_nil]
      rw [tag_append, Res.andThen_ok, P.bind_apply, alt_cons, orElse_ok (r := i) (v := ContinueEither.base64 d) (by rw [P.map_apply, hb]; rfl), Res.andThen_ok, P.bind_apply, hi]
      rfl
    · obtain ⟨w1, w2, _, rfl, h1, w3, w4, x, rfl, ⟨h3, hn⟩, w5, w6, _, rfl, h5, rfl, rfl⟩ := h
      obtain rfl := symbol_eq (k := b!"+ ") (by decide) h1
      obtain ⟨i, hi, hb⟩ := continueBase64_noEol (r := r) (respText_noEol h3) h5
      have hd : b64Decode w3 = none := by
        cases hd : b64Decode w3 with
        | none => rfl
        | some d => exact absurd ⟨d, ((C24_base64 w3 d).1 hd).trans (base64_eq d).symm⟩ hn
      rw [hd] at hb
      have hr := fits_respText.complete h3 (r := w5 ++ r) ⟨w5, r, rfl, h5⟩
      have hc : continueInner (b!"+ " ++ (w3 ++ (w5 ++ r))) = .ok r (.basic x) := by
        simp only [continueInner, P.bind_apply]
        rw [tag_append, Res.andThen_ok, P.bind_apply, alt_cons, orElse_error (by rw [P.map_apply, hb]; rfl), alt_cons,
          orElse_ok (r := w5 ++ r) (v := ContinueEither.basic x) (by rw [P.map_apply, hr]; rfl), Res.andThen_ok, P.bind_apply, fits_crlf.complete r h5]
        rfl
      have hs := continueInner_toReq hc
      obtain ⟨c, hs⟩ := Option.isSome_iff_exists.1 hs
      have : c = .basic x.1 x.2 := by
        simp only [ContinueEither.toReq, ContinueReq.ofBasic] at hs
        split_ifs at hs
        simpa using hs.symm
      subst this
      simp only [List.append_assoc, List.append_nil]
      exact mapRes_ok hc hs

end

end Imap.Gr
