import Verif.GrammarServerBody
import Verif.GrammarServerLine
/-
Parsers and grammars: body structures.
-/
set_option maxRecDepth 10000

namespace Imap.Gr

open Imap.Grammar (G Star choice onlyIf optD sepBy1 sepBy0 such token octets named lit is plus)

/-! ### Strings and keywords -/

theorem tagNC_quotedChars {c : UInt8 → Prop} {K u s rest : Bytes} (hK : ∀ b ∈ K, lower b ∉ b!"\"\\") (h : Grammar.QuotedChars c u s) :
    tagNC (K ++ b!"\" ") (u ++ (b!"\" " ++ rest)) = .error ∨ tagNC (K ++ b!"\" ") (u ++ (b!"\" " ++ rest)) = .ok rest () := by
  induction h generalizing K with
  | nil =>
    cases K with
    | nil => exact .inr rfl
    | cons k K =>
      left
      have := hK k (List.mem_cons_self ..)
      simp only [List.cons_append, List.nil_append, tagNC]
      rw [if_neg]
      intro e
      rw [e] at this
      exact this (by decide)
  | @plain b w s hb h1 t ih =>
    cases K with
    | nil =>
      left
      simp only [List.cons_append, List.nil_append, tagNC]
      rw [if_neg]
      intro e
      refine h1 ?_
      have : ∀ b : UInt8, lower 34 = lower b → b ∈ b!"\"\\" := forall_byte (by decide)
      exact this b e
    | cons k K =>
      simp only [List.cons_append, tagNC]
      split
      · exact ih fun b hb => hK b (List.mem_cons_of_mem _ hb)
      · exact .inl rfl
  | @escaped b w s hb t ih =>
    left
    cases K with
    | nil => rfl
    | cons k K =>
      have := hK k (List.mem_cons_self ..)
      simp only [List.cons_append, tagNC]
      rw [if_neg]
      intro e
      rw [e] at this
      exact this (by decide)

theorem errs_begs {α β : Type} {p : P α} {g : G β} {S : List UInt8} {E B : List Bytes} [e : Errs p E] [q : Begs g S B] (h : apart E B = true) {w r : Bytes} {v : β}
    (hg : g w v) (hr : Starts S r) : p (w ++ r) = .error := e.of_begs q h hg hr

variable [q : Quirks]

/-- A string, and the keyword `"K"`. -/
theorem tagNC_string {K w rest : Bytes} {v : IString} (hK : ∀ b ∈ K, lower b ∉ b!"\"\\") (h : Grammar.string w v) :
    tagNC (b!"\"" ++ K ++ b!"\" ") (w ++ (b!" " ++ rest)) = .error ∨ tagNC (b!"\"" ++ K ++ b!"\" ") (w ++ (b!" " ++ rest)) = .ok rest () := by
  have key : ∀ {c : UInt8 → Prop} {u s : Bytes}, Grammar.QuotedChars c u s →
      tagNC (b!"\"" ++ K ++ b!"\" ") (b!"\"" ++ u ++ b!"\"" ++ (b!" " ++ rest)) = .error ∨
      tagNC (b!"\"" ++ K ++ b!"\" ") (b!"\"" ++ u ++ b!"\"" ++ (b!" " ++ rest)) = .ok rest () := by
    intro c u s h
    have := tagNC_quotedChars (rest := rest) hK h
    simp only [List.append_assoc, List.cons_append, List.nil_append, tagNC, ↓reduceIte] at this ⊢
    exact this
  simp only [Grammar.string, choice_cons, choice_nil, or_false] at h
  rcases h with ⟨s, ⟨u, rfl, h⟩, -⟩ | ⟨-, s, ⟨u, rfl, h, -⟩, -⟩ | ⟨s, h, -⟩
  · exact key h
  · exact key h
  · left
    obtain ⟨k, hk, hb⟩ := (inferInstance : Begs0 Grammar.literal [b!"{"]).out h
    simp only [List.mem_singleton] at hk
    subst hk
    have hd : diverges (b!"\"" ++ K ++ b!"\" ") (w ++ (b!" " ++ rest)) = true :=
      diverges_append _ (diverges_of_begins hb (by simp [diverges]; decide))
    exact (inferInstance : Errs (tagNC (b!"\"" ++ K ++ b!"\" ")) [b!"\"" ++ K ++ b!"\" "]).out fun k hk => by
      simp only [List.mem_singleton] at hk
      subst hk
      exact hd

/-! ### Bodies of a single part -/

theorem fits_bodyMessage {m : P BodyStructure} {g : G BodyStructure} (h : Fits m g b!" ") [Begs0 g [b!"("]] :
    Fits (do let x ← bodyTypeMsg m; let ext ← opt (do sp; bodyExt1part); return BodyStructure.single x.1 ext x.2) (Grammar.Server.bodyMessage g) b!")" := by
  simp only [bodyTypeMsg, Grammar.Server.bodyMessage, bind_assoc, pure_bind, ext1part_eq]
  refine Fits.word2 inferInstance inferInstance ?_
  refine Fits.bind (S1 := b!" )") fits_bodyFields (fun _ => Fits.word inferInstance ?_) (by decide +kernel)
  refine Fits.bind (S1 := b!" ") fits_envelope (fun _ => Fits.word inferInstance ?_) (by decide +kernel)
  refine Fits.bind (S1 := b!" ") h (fun _ => Fits.word inferInstance ?_) (by decide +kernel)
  refine Fits.bind (S1 := b!" )") (fits_number (by decide)) (fun _ => ?_) (by decide +kernel)
  exact Fits.opt (S1 := b!")") (Fits.word inferInstance fits_ext1part) (fun _ => Fits.pure) Fits.pure (by decide +kernel) (by decide +kernel)

theorem fits_bodyText :
    Fits (do let x ← bodyTypeText; let ext ← opt (do sp; bodyExt1part); return BodyStructure.single x.1 ext x.2) Grammar.Server.bodyText b!")" := by
  simp only [bodyTypeText, Grammar.Server.bodyText, bind_assoc, pure_bind, ext1part_eq]
  refine Fits.word inferInstance ?_
  refine Fits.bind (S1 := b!" )") fits_string (fun _ => Fits.word inferInstance ?_) (by decide +kernel)
  refine Fits.bind (S1 := b!" )") fits_bodyFields (fun _ => Fits.word inferInstance ?_) (by decide +kernel)
  refine Fits.bind (S1 := b!" )") (fits_number (by decide)) (fun _ => ?_) (by decide +kernel)
  exact Fits.opt (S1 := b!")") (Fits.word inferInstance fits_ext1part) (fun _ => Fits.pure) Fits.pure (by decide +kernel) (by decide +kernel)

theorem fits_bodyBasic :
    Fits (do let x ← bodyTypeBasic; let ext ← opt (do sp; bodyExt1part); return BodyStructure.single x.1 ext x.2) Grammar.Server.bodyBasic b!")" := by
  simp only [bodyTypeBasic, Grammar.Server.bodyBasic, bind_assoc, pure_bind, ext1part_eq]
  refine Fits.bind (S1 := b!" )") fits_string (fun _ => Fits.word inferInstance ?_) (by decide +kernel)
  refine Fits.bind (S1 := b!" )") fits_string (fun _ => Fits.word inferInstance ?_) (by decide +kernel)
  refine Fits.bind (S1 := b!" )") fits_bodyFields (fun _ => ?_) (by decide +kernel)
  exact Fits.opt (S1 := b!")") (Fits.word inferInstance fits_ext1part) (fun _ => Fits.pure) Fits.pure (by decide +kernel) (by decide +kernel)

/-- The rest of a basic body. -/
def gBasicRest (f : BasicFields) (t s : IString) : G BodyStructure := do
  let x ← Grammar.Server.ext1part
  return .basic f t s x

instance (f : BasicFields) (t s : IString) : Begs (gBasicRest f t s) b!")" ((nstringHeads.map fun e => b!" " ++ e) ++ [b!")"]) := by
  unfold gBasicRest
  rw [ext1part_eq]
  exact Begs.opt_bind _ _

/-- What a basic body is. -/
theorem bodyBasic_inv {w : Bytes} {v : BodyStructure} (h : Grammar.Server.bodyBasic w v) :
    ∃ wt ws wf wx t s f, w = wt ++ (b!" " ++ (ws ++ (b!" " ++ (wf ++ wx)))) ∧ Grammar.string wt t ∧ Grammar.string ws s ∧
      Grammar.Server.bodyFields wf f ∧ gBasicRest f t s wx v := by
  obtain ⟨wt, _, t, rfl, ht, sp1, _, _, rfl, hsp1, ws, _, s, rfl, hs, sp2, _, _, rfl, hsp2, wf, wx, f, rfl, hf, hx⟩ := h
  have e1 : sp1 = b!" " := symbol_eq (by decide) hsp1
  have e2 : sp2 = b!" " := symbol_eq (by decide) hsp2
  subst e1 e2
  exact ⟨wt, ws, wf, wx, t, s, f, rfl, ht, hs, hf, hx⟩

theorem begs_basicRest {f : BasicFields} {t s : IString} :
    Begs (gBasicRest f t s) b!")" ((nstringHeads.map fun e => b!" " ++ e) ++ [b!")"]) := inferInstance

theorem bodyTypeText_error {w r : Bytes} {v : BodyStructure} (h : Grammar.Server.bodyBasic w v) (hr : Starts b!")" r) :
    (bodyTypeText : P (BasicFields × SpecificFields BodyStructure)) (w ++ r) = .error := by
  obtain ⟨wt, ws, wf, wx, t, s, f, rfl, ht, hs, hf, hx⟩ := bodyBasic_inv h
  have hn : ∀ f s, (do sp; let n ← number; return (f, .text s n) : P (BasicFields × SpecificFields BodyStructure)) (wx ++ r) = .error := fun f s =>
    errs_begs (q := begs_basicRest) (by decide +kernel) hx hr
  have e := tagNC_string (K := b!"TEXT") (rest := ws ++ (b!" " ++ (wf ++ (wx ++ r)))) (by decide) ht
  rw [bodyTypeText, P.bind_apply]
  simp only [List.append_assoc] at e ⊢
  rcases e with e | e
  · erw [e]
    rfl
  · erw [e]
    rw [Res.andThen_ok, P.bind_apply, fits_string.complete (S := b!" ") hs (show Starts b!" " (b!" " ++ (wf ++ (wx ++ r))) from ⟨32, _, rfl, by decide⟩), Res.andThen_ok, P.bind_apply,
      show sp (b!" " ++ (wf ++ (wx ++ r))) = .ok (wf ++ (wx ++ r)) () from rfl, Res.andThen_ok, P.bind_apply, fits_bodyFields.complete hf (begs_basicRest.starts (by decide +kernel) hx hr), Res.andThen_ok]
    exact hn _ _

theorem bodyTypeMsg_error {m : P BodyStructure} {w r : Bytes} {v : BodyStructure} (h : Grammar.Server.bodyBasic w v) (hr : Starts b!")" r) :
    bodyTypeMsg m (w ++ r) = .error := by
  obtain ⟨wt, ws, wf, wx, t, s, f, rfl, ht, hs, hf, hx⟩ := bodyBasic_inv h
  have hn : ∀ f, (do sp; let e ← envelope; sp; let b ← m; sp; let n ← number; return (f, .message e b n) : P (BasicFields × SpecificFields BodyStructure))
      (wx ++ r) = .error := fun f => errs_begs (q := begs_basicRest) (by decide +kernel) hx hr
  have e := tagNC_string (K := b!"MESSAGE") (rest := ws ++ (b!" " ++ (wf ++ (wx ++ r)))) (by decide) ht
  have e' := tagNC_string (K := b!"RFC822") (rest := wf ++ (wx ++ r)) (by decide) hs
  have e2 : (bodyTypeMsg m : P (BasicFields × SpecificFields BodyStructure)) = (do
      tagNC b!"\"MESSAGE\" "
      tagNC b!"\"RFC822\" "
      let f ← bodyFields
      sp; let e ← envelope; sp; let b ← m; sp; let n ← number; return (f, .message e b n)) := by
    rw [bodyTypeMsg, word_word (k := b!"\"MESSAGE\" \"RFC822\" ") inferInstance inferInstance]
    exact (word_word (k := b!"\"MESSAGE\" \"RFC822\" ") inferInstance inferInstance).symm
  rw [e2, P.bind_apply]
  simp only [List.append_assoc] at e e' ⊢
  rcases e with e | e
  · erw [e]
    rfl
  erw [e]
  rw [Res.andThen_ok, P.bind_apply]
  rcases e' with e' | e'
  · erw [e']
    rfl
  · erw [e']
    rw [Res.andThen_ok, P.bind_apply, fits_bodyFields.complete hf (begs_basicRest.starts (by decide +kernel) hx hr), Res.andThen_ok]
    exact hn _

/-- The choice among the bodies of a single part. -/
def gSingle (g : G BodyStructure) : G BodyStructure := choice [Grammar.Server.bodyMessage g, Grammar.Server.bodyText, Grammar.Server.bodyBasic]

/-- What bodies of a single part begin with. -/
instance begs_gSingle (g : G BodyStructure) : Begs0 (gSingle g) ([b!"\"MESSAGE\" \"RFC822\" "] ++ ([b!"\"TEXT\" "] ++ (stringHeads ++ []))) := by
    have h1 : Begs0 (Grammar.Server.bodyMessage g) [b!"\"MESSAGE\" \"RFC822\" "] := Begs0.bind _ _
    have h2 : Begs0 Grammar.Server.bodyText [b!"\"TEXT\" "] := Begs0.bind _ _
    have h3 : Begs0 Grammar.Server.bodyBasic stringHeads := Begs0.bind _ _
    unfold gSingle
    infer_instance

theorem fits_single {m : P BodyStructure} {g : G BodyStructure} (h : Fits m g b!" ") [Begs0 g [b!"("]] (n : Nat) :
    Fits (bodyType1part (n + 1) m) (gSingle g) b!")" := by
  have hM := fits_bodyMessage h
  have hT := fits_bodyText
  have hB := fits_bodyBasic
  have e : bodyType1part (n + 1) m = (alt [bodyTypeMsg m, bodyTypeText, bodyTypeBasic] >>= fun x => do
      let ext ← opt (do sp; bodyExt1part)
      return BodyStructure.single x.1 ext x.2) := by
    unfold bodyType1part
    rw [if_neg (by omega)]
  rw [e]
  clear e
  generalize ht : (fun x : BasicFields × SpecificFields BodyStructure => (do
      let ext ← opt (do sp; bodyExt1part)
      return BodyStructure.single x.1 ext x.2 : P BodyStructure)) = tl at *
  simp only [gSingle]
  constructor
  · intro x r v hx
    rw [P.bind_apply, Res.andThen_eq_ok] at hx
    obtain ⟨r1, a, h1, h2⟩ := hx
    obtain ⟨p, hp, h1⟩ := exists_of_alt h1
    simp only [choice_cons, choice_nil, or_false]
    have key : (p >>= tl) x = .ok r v := by rw [P.bind_apply, h1, Res.andThen_ok, h2]
    simp only [List.mem_cons, List.not_mem_nil, or_false] at hp
    rcases hp with rfl | rfl | rfl
    · obtain ⟨w, e, hw⟩ := hM.sound key
      exact ⟨w, e, .inl hw⟩
    · obtain ⟨w, e, hw⟩ := hT.sound key
      exact ⟨w, e, .inr (.inl hw)⟩
    · obtain ⟨w, e, hw⟩ := hB.sound key
      exact ⟨w, e, .inr (.inr hw)⟩
  · intro w v r hw hr
    simp only [choice_cons, choice_nil, or_false] at hw
    rw [P.bind_apply]
    rcases hw with hw | hw | hw
    · have := hM.complete hw hr
      rw [P.bind_apply, Res.andThen_eq_ok] at this
      obtain ⟨r1, a, h1, h2⟩ := this
      rw [alt_cons, orElse_ok h1, Res.andThen_ok, h2]
    · have he : bodyTypeMsg m (w ++ r) = .error := by
        have h1 : Errs (bodyTypeMsg m) [b!"\"MESSAGE\" \"RFC822\""] := Errs.bind _ _
        have h2 : Begs Grammar.Server.bodyText b!")" [b!"\"TEXT\" "] := Begs.of _ (Begs0.bind _ _)
        exact errs_begs (by decide +kernel) hw hr
      have := hT.complete hw hr
      rw [P.bind_apply, Res.andThen_eq_ok] at this
      obtain ⟨r1, a, h1, h2⟩ := this
      rw [alt_cons, orElse_error he, alt_cons, orElse_ok h1, Res.andThen_ok, h2]
    · have := hB.complete hw hr
      rw [P.bind_apply, Res.andThen_eq_ok] at this
      obtain ⟨r1, a, h1, h2⟩ := this
      rw [alt_cons, orElse_error (bodyTypeMsg_error hw hr), alt_cons, orElse_error (bodyTypeText_error hw hr), alt_cons, orElse_ok h1, Res.andThen_ok, h2]

/-! ### Multiparts -/

theorem fits_multipart {p : P BodyStructure} {g : G BodyStructure} (h : Fits p g b!" (") [Begs0 g [b!"("]] (he : (∃ w v, g w v) → Errs p [b!"("]) (n : Nat) :
    Fits (bodyTypeMpart (n + 1) p) (Grammar.Server.bodyMultipart g) b!")" := by
  have e : bodyTypeMpart (n + 1) p = (do
      let bs ← many1 p
      sp
      let s ← string
      let ext ← opt (do sp; bodyExtMpart)
      return .multi bs s ext) := by
    unfold bodyTypeMpart
    rw [if_neg (by omega)]
  rw [e, Grammar.Server.bodyMultipart]
  have tail : ∀ l, Fits (do sp; let s ← string; let ext ← opt (do sp; bodyExtMpart); return BodyStructure.multi l s ext)
      (do Grammar.sp; let s ← Grammar.string; let x ← Grammar.Server.extMpart; return .multi l s x) b!")" := by
    intro l
    rw [extMpart_eq]
    refine Fits.word inferInstance (Fits.bind (S1 := b!" )") fits_string (fun _ => ?_) (by decide +kernel))
    exact Fits.opt (S1 := b!")") (Fits.word inferInstance fits_extMpart) (fun _ => Fits.pure) Fits.pure (by decide +kernel) (by decide +kernel)
  by_cases hg : ∃ w v, g w v
  · have := he hg
    exact Fits.many1 h tail (by decide +kernel) (by decide +kernel) (by decide +kernel)
  · refine ⟨?_, ?_⟩
    · intro x r v hx
      rw [many1_bind, P.bind_apply, Res.andThen_eq_ok] at hx
      obtain ⟨r1, a, h1, -⟩ := hx
      obtain ⟨w, -, hw⟩ := h.sound h1
      exact absurd ⟨w, _, hw⟩ hg
    · rintro w v r ⟨w1, w2, l, rfl, hw, -⟩ hr
      obtain ⟨w3, w4, a, rfl, hw3, -⟩ := hw
      exact absurd ⟨_, _, hw3⟩ hg

/-! ### Bodies -/

instance begs_bodyUpTo (k n : Nat) : Begs0 (Grammar.Server.bodyUpTo k n) [b!"("] := by
  cases k with
  | zero => exact Begs0.mono (B := []) (by unfold Grammar.Server.bodyUpTo; infer_instance) (by simp)
  | succ k =>
    match n with
    | 0 => exact Begs0.mono (B := []) (by unfold Grammar.Server.bodyUpTo; infer_instance) (by simp)
    | 1 => exact Begs0.mono (B := []) (by unfold Grammar.Server.bodyUpTo; infer_instance) (by simp)
    | n + 2 => unfold Grammar.Server.bodyUpTo Grammar.parens; exact Begs0.bind _ _

theorem errs_bodyFuel (k n : Nat) : Errs (bodyFuel (k + 1) (n + 1)) [b!"("] := by
  unfold bodyFuel bodyStep
  rw [if_neg (by omega)]
  exact Errs.bind _ _

theorem fits_bodyFuel (k n : Nat) {S : List UInt8} : Fits (bodyFuel k n) (Grammar.Server.bodyUpTo k n) S := by
  induction k generalizing n S with
  | zero =>
    unfold bodyFuel Grammar.Server.bodyUpTo
    refine ⟨fun h => by simp at h, ?_⟩
    rintro w v r ⟨g, hg, -⟩
    simp at hg
  | succ k ih =>
    match n with
    | 0 =>
      unfold bodyFuel bodyStep Grammar.Server.bodyUpTo
      refine ⟨fun h => by simp at h, ?_⟩
      rintro w v r ⟨g, hg, -⟩
      simp at hg
    | 1 =>
      unfold bodyFuel bodyStep Grammar.Server.bodyUpTo
      refine ⟨fun {x r v} h => ?_, ?_⟩
      · simp only [Nat.reduceEqDiff, if_false, P.bind_apply, Res.andThen_eq_ok] at h
        obtain ⟨r1, _, -, r2, b, h, -⟩ := h
        obtain ⟨p, hp, h⟩ := exists_of_alt h
        simp only [List.mem_cons, List.not_mem_nil, or_false] at hp
        rcases hp with rfl | rfl
        · simp [bodyType1part] at h
        · simp [bodyTypeMpart] at h
      · rintro w v r ⟨g, hg, -⟩
        simp at hg
    | n + 2 =>
      unfold bodyFuel bodyStep Grammar.Server.bodyUpTo
      rw [if_neg (by omega)]
      refine Fits.parens ?_
      have h1 := fits_single (ih 7 (S := b!" ")) n
      have h2 : Fits (bodyTypeMpart (n + 1) (bodyFuel k (n + 1))) (Grammar.Server.bodyMultipart (Grammar.Server.bodyUpTo k (n + 1))) b!")" := by
        refine fits_multipart (ih (n + 1)) ?_ n
        rintro ⟨w, v, h⟩
        cases k with
        | zero =>
          unfold Grammar.Server.bodyUpTo at h
          obtain ⟨g, hg, -⟩ := h
          simp at hg
        | succ k => exact errs_bodyFuel k n
      have he : Errs (bodyType1part (n + 1) (bodyFuel k 7)) ([b!"\"MESSAGE\" \"RFC822\""] ++ ([b!"\"TEXT\" "] ++ stringHeads)) := by
        have h1 : Errs (bodyTypeMsg (bodyFuel k 7)) [b!"\"MESSAGE\" \"RFC822\""] := Errs.bind _ _
        have h2 : Errs (bodyTypeText : P (BasicFields × SpecificFields BodyStructure)) [b!"\"TEXT\" "] := Errs.bind _ _
        have h3 : Errs (bodyTypeBasic : P (BasicFields × SpecificFields BodyStructure)) stringHeads := Errs.bind _ _
        unfold bodyType1part
        rw [if_neg (by omega)]
        exact Errs.bind _ _
      have hb : Begs0 (Grammar.Server.bodyMultipart (Grammar.Server.bodyUpTo k (n + 1))) [b!"("] := by
        unfold Grammar.Server.bodyMultipart
        rw [plus_bind]
        exact Begs0.bind _ _
      have := Fits.alt_cons h1 (Fits.alt_one h2) (hb := Begs.of _ inferInstance) (by decide +kernel)
      refine Fits.iff this fun w v => ?_
      simp only [gSingle, choice_cons, choice_nil, or_false, or_assoc]

/-! More height gives more bodies. -/

omit q in
theorem Star.mono {α : Type} {g g' : G α} (h : ∀ w v, g w v → g' w v) {w : Bytes} {l : List α} (hs : Star g w l) : Star g' w l := by
  induction hs with
  | nil => exact .nil
  | cons hg _ ih => exact .cons (h _ _ hg) ih

theorem bodyUpTo_succ {k n : Nat} {w : Bytes} {v : BodyStructure} (h : Grammar.Server.bodyUpTo k n w v) : Grammar.Server.bodyUpTo (k + 1) n w v := by
  induction k generalizing n w v with
  | zero =>
    unfold Grammar.Server.bodyUpTo at h
    obtain ⟨g, hg, -⟩ := h
    simp at hg
  | succ k ih =>
    match n with
    | 0 =>
      unfold Grammar.Server.bodyUpTo at h
      obtain ⟨g, hg, -⟩ := h
      simp at hg
    | 1 =>
      unfold Grammar.Server.bodyUpTo at h
      obtain ⟨g, hg, -⟩ := h
      simp at hg
    | n + 2 =>
      unfold Grammar.Server.bodyUpTo at h ⊢
      obtain ⟨w1, w2, _, rfl, h1, w3, w4, b, rfl, h2, h3⟩ := h
      refine ⟨w1, _, (), rfl, h1, w3, w4, b, rfl, ?_, h3⟩
      simp only [choice_cons, choice_nil, or_false] at h2 ⊢
      rcases h2 with h2 | h2 | h2 | h2
      · left
        obtain ⟨a1, _, x1, rfl, h1, a2, _, x2, rfl, h2, a3, _, x3, rfl, h3, a4, _, x4, rfl, h4, a5, _, x5, rfl, h5, a6, _, x6, rfl, h6, h7⟩ := h2
        exact ⟨a1, _, x1, rfl, h1, a2, _, x2, rfl, h2, a3, _, x3, rfl, h3, a4, _, x4, rfl, h4, a5, _, x5, rfl, h5, a6, _, x6, rfl, ih h6, h7⟩
      · exact .inr (.inl h2)
      · exact .inr (.inr (.inl h2))
      · right; right; right
        obtain ⟨a1, a2, l, rfl, ⟨a3, a4, b, rfl, h3, a5, a6, l', rfl, h4, h5⟩, h2⟩ := h2
        exact ⟨_, a2, l, rfl, ⟨a3, _, b, rfl, ih h3, a5, a6, l', rfl, Star.mono (fun _ _ => ih) h4, h5⟩, h2⟩

theorem bodyUpTo_le {k k' n : Nat} {w : Bytes} {v : BodyStructure} (hk : k ≤ k') (h : Grammar.Server.bodyUpTo k n w v) :
    Grammar.Server.bodyUpTo k' n w v := by
  induction hk with
  | refl => exact h
  | step _ ih => exact bodyUpTo_succ ih

theorem fits_body {S : List UInt8} : Fits (body 8) Grammar.Server.body S := by
  constructor
  · intro x r v h
    obtain ⟨w, e, hw⟩ := (fits_bodyFuel (x.length + 1) 8 (S := S)).sound h
    exact ⟨w, e, _, hw⟩
  · rintro w v r ⟨k, hk⟩ hr
    have h1 := (fits_bodyFuel (max k ((w ++ r).length + 1)) 8 (S := S)).complete (bodyUpTo_le (Nat.le_max_left _ _) hk) hr
    rwa [bodyFuel_stable _ _ _ (by omega)] at h1

instance : Begs0 Grammar.Server.body [b!"("] := ⟨by
  rintro w v ⟨k, h⟩
  exact (begs_bodyUpTo k 8).out h⟩

instance : Errs (body 8) [b!"("] := ⟨by decide, fun {x} h => by
  have := (errs_bodyFuel x.length 7).out h
  exact this⟩

end Imap.Gr
