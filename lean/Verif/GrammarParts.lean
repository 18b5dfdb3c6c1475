import Verif.GrammarLemmas
/-
Parsers and grammars: strings, numbers and other parts of messages.
-/
set_option maxRecDepth 10000

namespace Imap.Gr

open Imap.Grammar (G Star choice onlyIf optD sepBy1 sepBy0 such token octets named lit is plus)

variable {α β γ : Type}

/-! ### Characters -/

/-- The bytes of a class, as keywords. -/
def allOf (f : UInt8 → Bool) : List Bytes := (((List.range 256).map UInt8.ofNat).filter f).map fun b => [b]

theorem mem_allOf {f : UInt8 → Bool} {b : UInt8} (h : f b = true) : [b] ∈ allOf f := by
  refine List.mem_map.2 ⟨b, List.mem_filter.2 ⟨List.mem_map.2 ⟨b.toNat, ?_, ?_⟩, h⟩, rfl⟩
  · rw [List.mem_range]; exact b.toNat_lt
  · simp

theorem begs0_token {c : UInt8 → Prop} {f : UInt8 → Bool} (h : ∀ b, c b → f b = true) : Begs0 (token c) (allOf f) := ⟨by
  rintro w v ⟨rfl, hne, hc⟩
  cases v with
  | nil => exact absurd rfl hne
  | cons b w => exact ⟨[b], mem_allOf (h b (hc b (by simp))), [b], w, rfl, rfl⟩⟩

theorem errs_takeWhile1 {f : UInt8 → Bool} (h : allOf f ≠ []) : Errs (takeWhile1 f) (allOf f) := ⟨h, by
  intro x hx
  cases x with
  | nil =>
    obtain ⟨k, hk⟩ := List.exists_mem_of_ne_nil _ h
    have := hx k hk
    cases k <;> simp [diverges] at this
  | cons b x =>
    simp only [takeWhile1]
    split
    · next hb =>
      have := hx _ (mem_allOf hb)
      simp [diverges] at this
    · rfl⟩

/-- The bytes are not in the class. -/
def outside (f : UInt8 → Bool) (S : List UInt8) : Bool := S.all fun b => !f b

theorem stops_of_starts {f : UInt8 → Bool} {S : List UInt8} {r : Bytes} (h : outside f S = true) (hr : Starts S r) : Stops f r = true := by
  obtain ⟨b, r', rfl, hb⟩ := hr
  exact List.all_eq_true.1 h b hb

theorem fits_takeWhile1 {c : UInt8 → Prop} {f : UInt8 → Bool} (h : ∀ b, f b = true ↔ c b) {S : List UInt8} (hS : outside f S = true) :
    Fits (takeWhile1 f) (token c) S := ⟨by
  intro x r v e
  obtain ⟨rfl, hne, ha, -⟩ := exists_of_takeWhile1 e
  exact ⟨v, rfl, rfl, by simpa using hne, fun b hb => (h b).1 (List.all_eq_true.1 ha b hb)⟩, by
  rintro w v r ⟨rfl, hne, hc⟩ hr
  exact takeWhile1_append hne (List.all_eq_true.2 fun b hb => (h b).2 (hc b hb)) (stops_of_starts hS hr)⟩

instance : Begs0 Grammar.atom (allOf isAtomChar) := begs0_token fun b h => (Spec.atomChar_iff b).2 h
instance : Begs0 (token Spec.AStringChar) (allOf isAStringChar) := begs0_token fun b h => (Spec.aStringChar_iff b).2 h
instance : Begs0 (token Spec.ListChar) (allOf isListChar) := begs0_token fun b h => (Spec.listChar_iff b).2 h
instance : Errs atom (allOf isAtomChar) := errs_takeWhile1 (by decide +kernel)
instance : Errs (takeWhile1 isAStringChar) (allOf isAStringChar) := errs_takeWhile1 (by decide +kernel)
instance : Errs (takeWhile1 isListChar) (allOf isListChar) := errs_takeWhile1 (by decide +kernel)

theorem fits_atom {S : List UInt8} (hS : outside isAtomChar S = true) : Fits atom Grammar.atom S := fits_takeWhile1 Spec.atomChar_iff hS

theorem fits_named {F : Bytes → α} {table : List (Bytes × α)} {other : Bytes → α} (h : Spec.Recognises table other F)
    {S : List UInt8} (hS : outside isAtomChar S = true) : Fits (F <$> atom) (named table other) S := by
  have hF : ∀ w, Spec.IsAtom w → ∀ v, v = F w ↔ (lowerAll w, v) ∈ table ∨ (lowerAll w ∉ table.map Prod.fst ∧ v = other w) := by
    intro w _ v
    by_cases hm : lowerAll w ∈ table.map Prod.fst
    · obtain ⟨x, hx, e⟩ := List.mem_map.1 hm
      have hx' := (h w).1 x hx e.symm
      constructor
      · rintro rfl
        left
        rw [hx', ← e]
        exact hx
      · rintro (h' | ⟨h', -⟩)
        · exact ((h w).1 _ h' rfl).symm
        · exact absurd hm h'
    · have hx' := (h w).2 fun x hx e => hm (List.mem_map.2 ⟨x, hx, e.symm⟩)
      constructor
      · rintro rfl
        exact .inr ⟨hm, hx'⟩
      · rintro (h' | ⟨-, rfl⟩)
        · exact absurd (List.mem_map.2 ⟨_, h', rfl⟩) hm
        · exact hx'.symm
  refine Fits.iff (fits_atom hS).map fun w v => ⟨?_, ?_⟩
  · rintro ⟨ha, hv⟩
    exact ⟨w, ⟨rfl, ha⟩, (hF w ha v).2 hv⟩
  · rintro ⟨a, ⟨rfl, ha⟩, rfl⟩
    exact ⟨ha, (hF a ha _).1 rfl⟩

instance begs0_named (table : List (Bytes × α)) (other : Bytes → α) : Begs0 (named table other) (allOf isAtomChar) := ⟨by
  rintro w v ⟨ha, -⟩
  have h : Begs0 Grammar.atom (allOf isAtomChar) := inferInstance
  exact h.out (v := w) ⟨rfl, ha⟩⟩

/-! ### Numbers -/

theorem digit_iff : ∀ b : UInt8, isDigit b = true ↔ Spec.Digit b := by
  intro b
  have : ∀ b, isDigit b = decide (Spec.Digit b) := forall_byte (by decide)
  rw [this]; simp

theorem noDigit {S : List UInt8} (hS : outside isDigit S = true) {r : Bytes} (hr : Starts S r) : Spec.NextIsNoDigit r := by
  obtain ⟨b, r', rfl, hb⟩ := hr
  refine ⟨b, r', rfl, fun hd => ?_⟩
  have := List.all_eq_true.1 hS b hb
  rw [(digit_iff b).2 hd] at this
  simp at this

instance begs0_number : Begs0 Grammar.number (allOf isDigit) := ⟨by
  rintro w v ⟨⟨hne, hd⟩, -⟩
  cases w with
  | nil => exact absurd rfl hne
  | cons b w => exact ⟨[b], mem_allOf ((digit_iff b).2 (hd b (by simp))), [b], w, rfl, rfl⟩⟩

instance begs0_number64 : Begs0 Grammar.number64 (allOf isDigit) := ⟨by
  rintro w v ⟨⟨hne, hd⟩, -⟩
  cases w with
  | nil => exact absurd rfl hne
  | cons b w => exact ⟨[b], mem_allOf ((digit_iff b).2 (hd b (by simp))), [b], w, rfl, rfl⟩⟩

instance : Begs0 Grammar.nzNumber (allOf isDigit) := Begs0.such _ _
instance : Begs0 Grammar.modSequenceValue (allOf isDigit) := Begs0.such _ _
instance : Begs0 Grammar.modSequenceValzer (allOf isDigit) := begs0_number64

instance : Errs (takeWhile1 isDigit) (allOf isDigit) := errs_takeWhile1 (by decide +kernel)
instance : Errs number (allOf isDigit) := Errs.mapRes _ _
instance : Errs number64 (allOf isDigit) := Errs.mapRes _ _
instance : Errs nzNumber (allOf isDigit) := Errs.mapRes _ _
instance : Errs modSequenceValue (allOf isDigit) := Errs.mapRes _ _
instance : Errs modSequenceValzer (allOf isDigit) := inferInstanceAs (Errs number64 _)

theorem fits_number {S : List UInt8} (hS : outside isDigit S = true) : Fits number Grammar.number S := ⟨by
  intro x r v e
  obtain ⟨w, rfl, h1, -, h2, h3⟩ := C31_decoded.1.1 e
  exact ⟨w, rfl, h1, h2, h3⟩, by
  rintro w v r ⟨h1, h2, h3⟩ hr
  exact C31_decoded.1.2 ⟨w, rfl, h1, noDigit hS hr, h2, h3⟩⟩

theorem fits_number64 {S : List UInt8} (hS : outside isDigit S = true) : Fits number64 Grammar.number64 S := ⟨by
  intro x r v e
  obtain ⟨w, rfl, h1, -, h2, h3⟩ := C31_decoded.2.1.1 e
  exact ⟨w, rfl, h1, h2, h3⟩, by
  rintro w v r ⟨h1, h2, h3⟩ hr
  exact C31_decoded.2.1.2 ⟨w, rfl, h1, noDigit hS hr, h2, h3⟩⟩

theorem fits_positive {p : P Nat} {g : G Nat} {S : List UInt8} (h : Fits p g S) :
    Fits (mapRes p fun n => if n = 0 then none else some n) (such g (1 ≤ ·)) S := ⟨by
  intro x r v e
  obtain ⟨n, e1, e2⟩ := exists_of_mapRes e
  split at e2
  · simp at e2
  · cases e2
    obtain ⟨w, rfl, hw⟩ := h.sound e1
    exact ⟨w, rfl, hw, by omega⟩, by
  rintro w v r ⟨hw, hv⟩ hr
  exact mapRes_ok (h.complete hw hr) (if_neg (by omega))⟩

theorem fits_nzNumber {S : List UInt8} (hS : outside isDigit S = true) : Fits nzNumber Grammar.nzNumber S :=
  fits_positive (fits_number hS)

theorem fits_modSequenceValue {S : List UInt8} (hS : outside isDigit S = true) : Fits modSequenceValue Grammar.modSequenceValue S :=
  fits_positive (fits_number64 hS)

/-! ### Strings -/

theorem escapeQuoted_special {b : UInt8} (h : b ∈ b!"\"\\") (s : Bytes) : escapeQuoted (b :: s) = b!"\\" ++ b :: escapeQuoted s := by
  rw [escapeQuoted_cons]
  have : ∀ b, b ∈ b!"\"\\" → esc1 b = b!"\\" ++ [b] := forall_byte (by decide)
  rw [this b h]
  simp

theorem escapeQuoted_plain {b : UInt8} (h : b ∉ b!"\"\\") (s : Bytes) : escapeQuoted (b :: s) = b :: escapeQuoted s := by
  rw [escapeQuoted_cons]
  have : ∀ b, b ∉ b!"\"\\" → esc1 b = [b] := forall_byte (by decide)
  rw [this b h]
  simp

theorem quotedChars_iff {c : UInt8 → Prop} (hc : ∀ b ∈ b!"\"\\", c b) {u s : Bytes} :
    Grammar.QuotedChars c u s ↔ u = escapeQuoted s ∧ ∀ b ∈ s, c b := by
  constructor
  · intro h
    induction h with
    | nil => simp
    | plain hb h1 t ih =>
      obtain ⟨rfl, h⟩ := ih
      exact ⟨(escapeQuoted_plain h1 _).symm, by simpa using ⟨hb, h⟩⟩
    | escaped hb t ih =>
      obtain ⟨rfl, h⟩ := ih
      exact ⟨(escapeQuoted_special hb _).symm, by simpa using ⟨hc _ hb, h⟩⟩
  · rintro ⟨rfl, h⟩
    induction s with
    | nil => exact .nil
    | cons b s ih =>
      simp only [List.mem_cons, forall_eq_or_imp] at h
      by_cases hb : b ∈ b!"\"\\"
      · rw [escapeQuoted_special hb]
        exact .escaped hb (ih h.2)
      · rw [escapeQuoted_plain hb]
        exact .plain h.1 hb (ih h.2)

/-- The same as `Fits` without a condition on what follows. -/
structure FitsAny (p : P α) (g : G α) : Prop where
  sound : ∀ {x r v}, p x = .ok r v → ∃ w, x = w ++ r ∧ g w v
  complete : ∀ {w v} r, g w v → p (w ++ r) = .ok r v

theorem FitsAny.fits {p : P α} {g : G α} (h : FitsAny p g) {S : List UInt8} : Fits p g S := ⟨h.sound, fun hg _ => h.complete _ hg⟩

theorem Fits.any {p : P α} {g : G α} {f : α → P β} {k : α → G β} {S : List UInt8} (hp : FitsAny p g) (hf : ∀ a, Fits (f a) (k a) S) :
    Fits (p >>= f) (g >>= k) S := ⟨by
  intro x r v e
  obtain ⟨i, a, e1, e2⟩ := Res.andThen_eq_ok.1 e
  obtain ⟨w1, rfl, h1⟩ := hp.sound e1
  obtain ⟨w2, rfl, h2⟩ := (hf a).sound e2
  exact ⟨w1 ++ w2, by simp, w1, w2, a, rfl, h1, h2⟩, by
  rintro w v r ⟨w1, w2, a, rfl, h1, h2⟩ hr
  rw [List.append_assoc, P.bind_apply, hp.complete _ h1, Res.andThen_ok]
  exact (hf a).complete h2 hr⟩

theorem text_special : ∀ b ∈ b!"\"\\", Spec.TextChar b := by
  intro b hb
  have : ∀ b ∈ b!"\"\\", isTextChar b = true := by decide
  exact (Spec.textChar_iff b).1 (this b hb)

theorem fits_quoted : FitsAny quoted Grammar.quoted := ⟨by
  intro x r v e
  obtain ⟨rfl, h⟩ := (C23_quoted x r v).1 e
  exact ⟨_, rfl, _, rfl, (quotedChars_iff text_special).2 ⟨rfl, h⟩⟩, by
  rintro w v r ⟨u, rfl, h⟩
  obtain ⟨rfl, h'⟩ := (quotedChars_iff text_special).1 h
  exact (C23_quoted _ _ _).2 ⟨rfl, h'⟩⟩

instance : Begs0 Grammar.quoted [b!"\""] := ⟨by
  rintro w v ⟨u, rfl, -⟩
  exact ⟨_, by simp, b!"\"", u ++ b!"\"", by simp, rfl⟩⟩

instance : Begs0 Grammar.quotedUtf8 [b!"\""] := ⟨by
  rintro w v ⟨u, rfl, -⟩
  exact ⟨_, by simp, b!"\"", u ++ b!"\"", by simp, rfl⟩⟩

instance : Errs quoted [b!"\""] := Errs.bind _ _
instance : Errs quotedUtf8 [b!"\""] := Errs.bind _ _

section
variable [Quirks]

theorem fits_crlf : FitsAny crlf Grammar.crlf := ⟨by
  intro x r v h
  obtain ⟨e, rfl, hq⟩ := exists_of_crlf h
  refine ⟨_, rfl, ?_⟩
  cases e with
  | crlf => exact .inl rfl
  | lf =>
    refine .inr ⟨?_, rfl⟩
    by_contra hc
    exact absurd (hq (by simpa using hc)) (by simp), by
  rintro w v r (rfl | ⟨h, rfl⟩)
  · exact rt_crlf r
  · simp [crlf, h, Imap.opt, char]⟩

instance : Begs0 Grammar.crlf [b!"\r", b!"\n"] := ⟨by
  rintro w v (rfl | ⟨h, rfl⟩)
  · exact ⟨_, by simp, b!"\r", b!"\n", rfl, rfl⟩
  · exact ⟨_, by simp, b!"\n", [], rfl, rfl⟩⟩

instance : Word (tag b!"{") b!"{" := word_tag (by decide)
instance : Word (tag b!"~{") b!"~{" := word_tag (by decide)
instance : Word (tag b!"}") b!"}" := word_tag (by decide)
instance : Word (char 43) b!"+" := ⟨by rw [char_eq, tag_symbols (by decide)]⟩

omit [Quirks] in
theorem literalData_ok {n : Nat} {m : Mode} {x r v : Bytes} (h : literalData n m x = .ok r v) : x = v ++ r ∧ v.length = n := by
  unfold literalData at h
  split at h
  · simp at h
  · unfold take at h
    split at h
    · simp at h
    · cases h
      exact ⟨by simp, by simp; omega⟩

omit [Quirks] in
theorem literalData_append {n : Nat} {m : Mode} {v r : Bytes} (hv : v.length = n) {S : List UInt8} (hr : Starts S r) :
    literalData n m (v ++ r) = .ok r v := by
  obtain ⟨b, r', rfl, -⟩ := hr
  unfold literalData
  rw [if_neg (by simp), take_append hv]

theorem fits_literal {S : List UInt8} : Fits literal Grammar.literal S := by
  simp only [literal, literalHdr, Grammar.literal, bind_assoc, pure_bind]
  refine Fits.word inferInstance ?_
  refine Fits.bind (S1 := b!"+}") (fits_number (by decide)) (fun n => ?_) (by decide +kernel)
  have key : ∀ m, Fits (literalData n m >>= fun d => if d.all isChar8 then (pure ⟨d, m⟩ : P Literal) else fun _ => .failure .literalContainsNull)
      (such (octets n) (0 ∉ ·) >>= fun d => pure (⟨d, m⟩ : Literal)) S := by
    intro m
    refine ⟨?_, ?_⟩
    · intro x r v e
      obtain ⟨i, d, e1, e2⟩ := Res.andThen_eq_ok.1 e
      split at e2
      · next hd =>
        cases e2
        obtain ⟨rfl, hl⟩ := literalData_ok e1
        refine ⟨d, rfl, d, [], d, by simp, ⟨⟨rfl, hl⟩, fun h0 => ?_⟩, rfl, rfl⟩
        simpa [isChar8] using List.all_eq_true.1 hd 0 h0
      · simp at e2
    · rintro w v r ⟨w1, w2, d, rfl, ⟨⟨rfl, hl⟩, h0⟩, rfl, rfl⟩ hr
      have hd : d.all isChar8 = true := by
        rw [List.all_eq_true]
        intro b hb
        have : b ≠ 0 := fun e => h0 (e ▸ hb)
        simpa [isChar8] using this
      rw [List.append_nil, P.bind_apply, literalData_append hl hr, Res.andThen_ok, if_pos hd]; rfl
  refine Fits.optD_is inferInstance ?_ ?_ (by decide +kernel)
  · exact Fits.word inferInstance (Fits.any fits_crlf fun _ => key .nonSync)
  · exact Fits.word inferInstance (Fits.any fits_crlf fun _ => key .sync)

theorem fits_literal8 {S : List UInt8} : Fits literal8 Grammar.literal8 S := by
  simp only [literal8, literalHdr, Grammar.literal8, bind_assoc, pure_bind]
  refine Fits.word inferInstance ?_
  refine Fits.bind (S1 := b!"+}") (fits_number (by decide)) (fun n => ?_) (by decide +kernel)
  have key : ∀ m, Fits (literalData n m >>= fun d => (pure ⟨d, m⟩ : P Literal8))
      (octets n >>= fun d => pure (⟨d, m⟩ : Literal8)) S := by
    intro m
    refine ⟨?_, ?_⟩
    · intro x r v e
      obtain ⟨i, d, e1, e2⟩ := Res.andThen_eq_ok.1 e
      cases e2
      obtain ⟨rfl, hl⟩ := literalData_ok e1
      exact ⟨d, rfl, d, [], d, by simp, ⟨rfl, hl⟩, rfl, rfl⟩
    · rintro w v r ⟨w1, w2, d, rfl, ⟨rfl, hl⟩, rfl, rfl⟩ hr
      rw [List.append_nil, P.bind_apply, literalData_append hl hr, Res.andThen_ok]; rfl
  refine Fits.optD_is inferInstance ?_ ?_ (by decide +kernel)
  · exact Fits.word inferInstance (Fits.any fits_crlf fun _ => key .nonSync)
  · exact Fits.word inferInstance (Fits.any fits_crlf fun _ => key .sync)

instance : Begs0 Grammar.literal [b!"{"] := Begs0.bind _ _
instance : Begs0 Grammar.literal8 [b!"~{"] := Begs0.bind _ _
instance : Errs literal [b!"{"] := by rw [literal_eq, literalRaw, literalHdr]; infer_instance
instance : Errs literal8 [b!"~{"] := by rw [literal8_eq, literalRaw, literalHdr]; infer_instance

/-- What strings begin with. -/
def stringHeads : List Bytes := [b!"\"", b!"{"]

instance : Begs0 Grammar.string stringHeads :=
  Begs0.mono (B := [b!"\""] ++ ([b!"\""] ++ ([b!"{"] ++ []))) (by unfold Grammar.string; infer_instance) (by decide)

instance : Errs string stringHeads :=
  Errs.mono (E := [b!"\""] ++ ([b!"\""] ++ [b!"{"])) (by unfold string; infer_instance) (by decide)

theorem fits_string {S : List UInt8} : Fits string Grammar.string S := by
  have h23 : Fits (alt [gate Quirks.extUtf8 (IString.quotedUtf8 <$> quotedUtf8), .literal <$> literal])
      (choice [onlyIf Quirks.extUtf8 (IString.quotedUtf8 <$>
          (fun w s => ∃ u, w = b!"\"" ++ u ++ b!"\"" ∧ Grammar.QuotedChars (fun _ => True) u s ∧ isUtf8 s = true : G Bytes)),
        .literal <$> Grammar.literal]) S := by
    refine Fits.alt_cons (Fits.gate (Fits.map (FitsAny.fits ⟨?_, ?_⟩))) (Fits.alt_one (Fits.map fits_literal)) (by decide +kernel)
    · intro x r v e
      obtain ⟨rfl, h⟩ := (C23_quotedUtf8 x r v).1 e
      exact ⟨_, rfl, _, rfl, (quotedChars_iff fun _ _ => trivial).2 ⟨rfl, fun _ _ => trivial⟩, h⟩
    · rintro w v r ⟨u, rfl, h, hu⟩
      obtain ⟨rfl, -⟩ := (quotedChars_iff fun _ _ => trivial).1 h
      exact (C23_quotedUtf8 _ _ _).2 ⟨rfl, hu⟩
  have hq := (fits_quoted.fits (S := S)).map (f := IString.quoted)
  have hne : ∀ {s u r}, Grammar.QuotedChars (fun _ => True) u s → (∃ b ∈ s, ¬ Spec.TextChar b) → quoted (b!"\"" ++ u ++ b!"\"" ++ r) = .error := by
    intro s u r h hb
    obtain ⟨rfl, -⟩ := (quotedChars_iff fun _ _ => trivial).1 h
    have : isQuoted s = false := by
      rw [Bool.eq_false_iff]
      intro h'
      obtain ⟨b, hb, hn⟩ := hb
      exact hn ((Spec.isQuoted_iff s).1 h' b hb)
    simpa [encQuoted] using quoted_error (r := r) this
  unfold string Grammar.string
  refine ⟨?_, ?_⟩
  · intro x r v e
    by_cases hc : ∃ r' s, quoted x = .ok r' s
    · obtain ⟨r', s, hs⟩ := hc
      rw [alt_cons, orElse_ok (r := r') (v := .quoted s) (by rw [P.map_apply, hs]; rfl)] at e
      cases e
      obtain ⟨w, rfl, hw⟩ := fits_quoted.sound hs
      exact ⟨w, rfl, _, List.mem_cons_self .., s, hw, rfl⟩
    · rw [alt_cons] at e
      have e' : alt [gate Quirks.extUtf8 (IString.quotedUtf8 <$> quotedUtf8), .literal <$> literal] x = .ok r v := by
        unfold orElse at e
        split at e
        · exact e
        · obtain ⟨i, s, e1, -⟩ := Res.andThen_eq_ok.1 e
          exact absurd ⟨i, s, e1⟩ hc
      obtain ⟨w, rfl, g, hg, hw⟩ := h23.sound e'
      simp only [List.mem_cons, List.not_mem_nil, or_false] at hg
      rcases hg with rfl | rfl
      · obtain ⟨hb, s, ⟨u, rfl, h1, h2⟩, rfl⟩ := hw
        refine ⟨_, rfl, _, List.mem_cons_of_mem _ (List.mem_cons_self ..), hb, s, ⟨u, rfl, h1, h2, ?_⟩, rfl⟩
        by_contra hn
        have hn : ∀ b ∈ s, Spec.TextChar b := fun b hb => by
          by_contra h
          exact hn ⟨b, hb, h⟩
        obtain ⟨rfl, -⟩ := (quotedChars_iff fun _ _ => trivial).1 h1
        exact hc ⟨r, s, (C23_quoted _ _ _).2 ⟨rfl, hn⟩⟩
      · exact ⟨w, rfl, _, by simp, hw⟩
  · rintro w v r ⟨g, hg, hw⟩ hr
    simp only [List.mem_cons, List.not_mem_nil, or_false] at hg
    rcases hg with rfl | rfl | rfl
    · rw [alt_cons, orElse_ok (hq.complete hw hr)]
    · obtain ⟨hb, s, ⟨u, rfl, h1, h2, h3⟩, rfl⟩ := hw
      rw [alt_cons, orElse_error (by rw [P.map_apply, hne h1 h3]; rfl)]
      exact h23.complete ⟨_, List.mem_cons_self .., hb, s, ⟨u, rfl, h1, h2⟩, rfl⟩ hr
    · have he : quoted (w ++ r) = .error := by
        refine Errs.of_begs (g := (IString.literal <$> Grammar.literal : G IString)) (S := S) inferInstance inferInstance ?_ hw hr
        decide +kernel
      rw [alt_cons, orElse_error (by rw [P.map_apply, he]; rfl)]
      exact h23.complete ⟨_, by simp, hw⟩ hr

/-- What `astring` begins with. -/
def astringHeads : List Bytes := allOf isAStringChar ++ stringHeads

instance : Begs0 Grammar.astring astringHeads :=
  Begs0.mono (B := allOf isAStringChar ++ (stringHeads ++ [])) (by unfold Grammar.astring; infer_instance) (by simp [astringHeads])

instance : Errs astring astringHeads := by unfold astring astringHeads; infer_instance

instance : Begs0 Grammar.mailbox astringHeads := Begs0.map _ _
instance : Errs mailbox astringHeads := Errs.map _ _

theorem fits_astring {S : List UInt8} (hS : outside isAStringChar S = true) : Fits astring Grammar.astring S :=
  Fits.alt_cons (Fits.map (fits_takeWhile1 Spec.aStringChar_iff hS)) (Fits.alt_one (Fits.map fits_string)) (by decide +kernel)

theorem fits_mailbox {S : List UInt8} (hS : outside isAStringChar S = true) : Fits mailbox Grammar.mailbox S := by
  have : Mailbox.ofAString = fun s : AString => if lowerAll s.content = b!"inbox" then Mailbox.inbox else .other s := by
    funext s
    unfold Mailbox.ofAString
    rw [eqIC]
    simp
    rfl
  unfold mailbox Grammar.mailbox
  rw [this]
  exact (fits_astring hS).map

instance : Errs nil [b!"NIL"] := Errs.tagNC

/-- What `nstring` begins with. -/
def nstringHeads : List Bytes := stringHeads ++ [b!"NIL"]

instance : Begs0 Grammar.nstring nstringHeads :=
  Begs0.mono (B := stringHeads ++ ([b!"NIL"] ++ [])) (by unfold Grammar.nstring; infer_instance) (by decide)

instance : Errs nstring nstringHeads := by unfold nstring nstringHeads; infer_instance

theorem fits_nstring {S : List UInt8} : Fits nstring Grammar.nstring S := by
  refine Fits.alt_cons (Fits.map fits_string) (Fits.alt_one (Fits.is ⟨rfl⟩)) 
    (hb := Begs.of _ inferInstance) (by decide +kernel)

/-- What list mailboxes begin with. -/
def listMailboxHeads : List Bytes := allOf isListChar ++ stringHeads

instance : Begs0 Grammar.listMailbox listMailboxHeads :=
  Begs0.mono (B := allOf isListChar ++ (stringHeads ++ [])) (by unfold Grammar.listMailbox; infer_instance) (by simp [listMailboxHeads])

theorem fits_listMailbox {S : List UInt8} (hS : outside isListChar S = true) : Fits listMailbox Grammar.listMailbox S :=
  Fits.alt_cons (Fits.map (fits_takeWhile1 Spec.listChar_iff hS)) (Fits.alt_one (Fits.map fits_string)) (by decide +kernel)

end

theorem base64_eq (d : Bytes) : Spec.base64 d = b64Encode d := (C24_rfc4648 d).symm

theorem fits_base64 {S : List UInt8} (hS : outside (fun b => isBase64Char b || b == 61) S = true) : Fits base64 Grammar.base64 S := ⟨by
  intro x r d e
  exact ⟨_, exists_of_base64 e, (base64_eq d).symm⟩, by
  rintro w d r h hr
  rw [show w = b64Encode d from h.trans (base64_eq d)]
  exact rt_base64 (stops_of_starts hS hr)⟩

/-- What `charset` begins with. -/
def charsetHeads : List Bytes := allOf isAtomChar ++ [b!"\""]

instance : Begs0 Grammar.charset charsetHeads :=
  Begs0.mono (B := allOf isAtomChar ++ ([b!"\""] ++ [])) (by unfold Grammar.charset; infer_instance) (by simp [charsetHeads])

theorem fits_charset {S : List UInt8} (hS : outside isAtomChar S = true) : Fits charset Grammar.charset S :=
  Fits.alt_cons (Fits.map (fits_atom hS)) (Fits.alt_one (Fits.map fits_quoted.fits)) (by decide +kernel)

/-! ### Sequence sets, flags and other parts -/

instance : Word (tag b!"*") b!"*" := word_tag (by decide)
instance : Word (tag b!",") b!"," := word_tag (by decide)
instance : Word (tag b!":") b!":" := word_tag (by decide)
instance : Word (tag b!"(") b!"(" := word_tag (by decide)
instance : Word (tag b!")") b!")" := word_tag (by decide)
instance : Word (tag b!" (") b!" (" := word_tag (by decide)
instance : Word (tag b!".") b!"." := word_tag (by decide)
instance : Word (tag b!"[") b!"[" := word_tag (by decide)
instance : Word (tag b!"]") b!"]" := word_tag (by decide)
instance : Word (tag b!"<") b!"<" := word_tag (by decide)
instance : Word (tag b!">") b!">" := word_tag (by decide)
instance : Word (tag b!"+") b!"+" := word_tag (by decide)
instance : Word (tag b!"-") b!"-" := word_tag (by decide)
instance : Word (tag b!"=") b!"=" := word_tag (by decide)
instance : Word (tag b!"0") b!"0" := word_tag (by decide)
instance : Word (tag b!"1") b!"1" := word_tag (by decide)
instance : Word (tag b!"\\\\") b!"\\\\" := word_tag (by decide)
instance : Word (char 40) b!"(" := ⟨by rw [char_eq, tag_symbols (by decide)]⟩
instance : Word (char 41) b!")" := ⟨by rw [char_eq, tag_symbols (by decide)]⟩
instance : Word (char 92) b!"\\" := ⟨by rw [char_eq, tag_symbols (by decide)]⟩
instance : Word (char 34) b!"\"" := ⟨by rw [char_eq, tag_symbols (by decide)]⟩

/-- What may follow an item: a space, a closing parenthesis or the end of the line. -/
abbrev S0 : List UInt8 := b!" )\r\n"

/-- What may follow a list: a closing parenthesis or the end of the line. -/
abbrev S2 : List UInt8 := b!")\r\n"

/-- What may follow a command. -/
abbrev T : List UInt8 := b!"\r\n"

/-- What sequence numbers begin with. -/
def seqHeads : List Bytes := allOf isDigit ++ [b!"*"]

instance : Begs0 Grammar.seqNumber seqHeads :=
  Begs0.mono (B := allOf isDigit ++ ([b!"*"] ++ [])) (by unfold Grammar.seqNumber; infer_instance) (by simp [seqHeads])

instance : Errs seqNumber seqHeads := by unfold seqNumber seqHeads; infer_instance

theorem fits_seqNumber {S : List UInt8} (hS : outside isDigit S = true) : Fits seqNumber Grammar.seqNumber S :=
  Fits.alt_cons (Fits.map (fits_nzNumber hS)) (Fits.alt_one (Fits.is inferInstance)) (hb := Begs.of _ inferInstance) (by decide +kernel)

instance : Errs seqRange seqHeads := Errs.bind _ _
instance : Begs0 Grammar.seqRange seqHeads := Begs0.bind _ _

instance : Begs0 Grammar.sequenceSet seqHeads :=
  Begs0.mono (B := seqHeads ++ (seqHeads ++ [])) (by unfold Grammar.sequenceSet; infer_instance) (by simp)

instance : Errs sequenceSet seqHeads :=
  Errs.mono (E := seqHeads ++ seqHeads) (by unfold sequenceSet; infer_instance) (by simp)

/-- What may follow an item of a sequence set. -/
abbrev Sseq : List UInt8 := b!", )]\r\n"

theorem fits_sequence : Fits (alt [(fun r => Sequence.range r.1 r.2) <$> seqRange, .single <$> seqNumber])
    (choice [.single <$> Grammar.seqNumber, Grammar.seqRange]) Sseq := by
  have hr : Fits ((fun r => Sequence.range r.1 r.2) <$> seqRange) Grammar.seqRange Sseq := by
    simp only [seqRange, Grammar.seqRange, map_eq_pure_bind, bind_assoc, pure_bind]
    exact Fits.bind (S1 := b!":") (fits_seqNumber (by decide)) (fun a => Fits.word inferInstance
      (Fits.bind (S1 := Sseq) (fits_seqNumber (by decide)) (fun b => Fits.pure) (by decide +kernel))) (by decide +kernel)
  have hs : Fits (Sequence.single <$> seqNumber) (Sequence.single <$> Grammar.seqNumber) Sseq := Fits.map (fits_seqNumber (by decide))
  refine ⟨?_, ?_⟩
  · intro x r v e
    rcases exists_of_alt2 e with h | h
    · obtain ⟨w, rfl, hw⟩ := hr.sound h
      exact ⟨w, rfl, _, by simp, hw⟩
    · obtain ⟨w, rfl, hw⟩ := hs.sound h
      exact ⟨w, rfl, _, List.mem_cons_self .., hw⟩
  · rintro w v r ⟨g, hg, hw⟩ h
    simp only [List.mem_cons, List.not_mem_nil, or_false] at hg
    rcases hg with rfl | rfl
    · have he : ((fun r => Sequence.range r.1 r.2) <$> seqRange) (w ++ r) = .error := by
        obtain ⟨a, ha, -⟩ := hw
        have := (fits_seqNumber (S := Sseq) (by decide)).complete ha h
        obtain ⟨b, r', rfl, hb⟩ := h
        have hb' : b ≠ 58 := by rintro rfl; revert hb; decide
        rw [P.map_apply, seqRange, P.bind_apply, this, Res.andThen_ok, P.bind_apply, Imap.tag, if_neg (by exact fun e => hb' e.symm)]
        rfl
      rw [alt_cons, orElse_error he, alt_cons, orElse_ok (hs.complete hw h)]
    · rw [alt_cons, orElse_ok (hr.complete hw h)]

/-- Lists at the end of a rule. -/
theorem Fits.list {S S1 : List UInt8} {s : P Unit} {p : P α} {c c' : Bytes} {g : G α} (hl : ListOk S S1 s p c g (Pure.pure : List α → G (List α)))
    (hp : Fits p g S1) (hc : c' = c := by rfl) : Fits (sepList1 s p) (Grammar.sepBy1 (Grammar.lit c') g) S := by
  have := Fits.sepBy1 hl hp (fun l => Fits.pure) hc
  simpa only [bind_pure] using this

theorem fits_sequenceSet_code : Fits sequenceSet Grammar.sequenceSet b!" )]\r\n" :=
  Fits.list (ListOk.mk' (S1 := Sseq) (by decide +kernel) (by decide +kernel) (by decide +kernel)) fits_sequence

theorem fits_sequenceSet : Fits sequenceSet Grammar.sequenceSet S0 := fits_sequenceSet_code.mono (by decide)

/-- What flags begin with. -/
def flagHeads : List Bytes := b!"\\" :: allOf isAtomChar

instance : Begs0 Grammar.flag flagHeads :=
  Begs0.mono (B := [b!"\\"] ++ (allOf isAtomChar ++ [])) (by unfold Grammar.flag; infer_instance) (by simp [flagHeads])

instance : Errs flag flagHeads := Errs.mono (E := [b!"\\"] ++ allOf isAtomChar)
  (by unfold flag; have := Errs.map Flag.system (char 92 >>= fun _ => atom); infer_instance) (by simp [flagHeads])

theorem map_bind_word {p : P Unit} {q : P α} {f : α → β} : (f <$> (p >>= fun _ => q)) = (p >>= fun _ => f <$> q) := by
  simp only [map_eq_pure_bind, bind_assoc]

theorem fits_flag {S : List UInt8} (hS : outside isAtomChar S = true) : Fits flag Grammar.flag S := by
  unfold flag Grammar.flag
  rw [map_bind_word]
  exact Fits.alt_cons (Fits.word inferInstance (fits_named C28_flag hS)) (Fits.alt_one (Fits.map (fits_atom hS)))
    (hb := Begs.of _ inferInstance) (by decide +kernel)

theorem fits_flagList {S : List UInt8} : Fits flagList Grammar.flagList S := by
  unfold flagList Grammar.flagList Grammar.parens
  refine Fits.word inferInstance ?_
  refine Fits.sepBy0 (S1 := b!" )") (ListOk.mk' (hk := fun l => Begs.of _ inferInstance) (by decide +kernel) (by decide +kernel) (by decide +kernel))
    (fits_flag (by decide)) (fun l => ?_) (hk := fun l => Begs.of _ inferInstance) (by decide +kernel)
  exact Fits.word inferInstance Fits.pure

instance : Errs flagList [b!"("] := Errs.bind _ _
instance : Begs0 Grammar.flagList [b!"("] := Begs0.parens _

theorem fits_date : FitsAny dateSome Grammar.date :=
  ⟨fun e => (C32_date _ _ _).1 e, fun _ h => (C32_date _ _ _).2 ⟨_, rfl, h⟩⟩

theorem fits_dateTime : FitsAny dateTime Grammar.dateTime :=
  ⟨fun e => (C32_dateTime _ _ _).1 e, fun _ h => (C32_dateTime _ _ _).2 ⟨_, rfl, h⟩⟩

instance : Errs dateTime [b!"\""] := Errs.bind _ _

/-- Alternatives that are keywords. -/
macro "keywords" : tactic => `(tactic| repeat first
  | exact Fits.alt_one (Fits.is inferInstance)
  | exact Fits.alt_one (Fits.gate (Fits.is inferInstance))
  | refine Fits.alt_cons (Fits.is inferInstance) ?_ (by decide +kernel))

theorem fits_statusAtt [Quirks] : Fits statusAtt Grammar.statusAtt S0 := by
  unfold statusAtt Grammar.statusAtt
  keywords

theorem fits_authType {S : List UInt8} (hS : outside isAtomChar S = true) : Fits authType Grammar.authType S :=
  fits_named C28_mechanism_partial hS

end Imap.Gr
