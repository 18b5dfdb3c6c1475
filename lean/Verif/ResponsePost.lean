import Verif.Local
import Verif.BodyRT
import Verif.CommandRT
import Mathlib.Tactic.SplitIfs

/-!
# Decoded responses and greetings are well-formed

Postconditions of the parsers of `Response.lean`. The validity of a code and its text depends on what follows them in the input: a code
is unknown because the parsers of known codes rejected the input, including the text. `PostE` therefore also assumes that the parser
stopped at the end of a line.
-/

set_option maxRecDepth 10000

namespace Imap

/-! ### Capabilities -/

theorem SortAlgorithm.ofAtom_valid {a : Bytes} (h : isAtom a = true) : (SortAlgorithm.ofAtom a).valid = true := by
  by_cases hd : lowerAll a = b!"display"
  · simp [SortAlgorithm.ofAtom, SortAlgorithm.valid, hd]
  · simp [SortAlgorithm.ofAtom, SortAlgorithm.valid, hd, h]

theorem lowerAll_lowerAll (a : Bytes) : lowerAll (lowerAll a) = lowerAll a := by
  simp [lowerAll, lower_lower]

/-- Parts of lowercase bytes are lowercase. -/
theorem lowerAll_of_append {l r s : Bytes} (h : lowerAll (l ++ r ++ s) = l ++ r ++ s) : lowerAll s = s := by
  simp only [lowerAll, List.map_append, List.append_assoc] at h
  have := List.append_inj_right h (by simp)
  exact List.append_inj_right this (by simp)

theorem Resource.ofAtom_other {a b : Bytes} (h : Resource.ofAtom a = .other b) : a = b := by
  unfold Resource.ofAtom at h
  simp only at h
  split_ifs at h
  simpa using h

theorem Capability.fixed_valid [Quirks] : ∀ x ∈ Capability.fixed, x.2.valid = x.2.present := by
  simp [Capability.fixed, Capability.valid, Capability.present]

theorem lookup_mem {α β : Type} [BEq α] [LawfulBEq α] {k : α} {v : β} :
    ∀ {l : List (α × β)}, l.lookup k = some v → (k, v) ∈ l
  | (a, b) :: l, h => by
    simp only [List.lookup_cons] at h
    split at h
    · next e => simp at e h; simp [e, h]
    · exact List.mem_cons_of_mem _ (lookup_mem h)

theorem Capability.ofPair_valid [Quirks] {l r : Bytes} {c : Capability} (h : Capability.ofPair l r = some c) : c.valid = true := by
  unfold Capability.ofPair at h
  simp only at h
  split_ifs at h with h1 h2 h3 h4 h5 h6 h7 h8 h9
  · simp only [Option.some.injEq] at h; subst h; exact AuthMechanism.ofAtom_valid h2
  · simp only [Option.some.injEq] at h; subst h; rfl
  · split at h
    · next x s e =>
      split_ifs at h with h6
      simp only [Option.some.injEq] at h
      subst h
      have he := splitOnce_eq e
      cases hr : Resource.ofAtom s with
      | other a =>
        have := Resource.ofAtom_other hr
        subst this
        have hv := Resource.ofAtom_valid h6
        rw [hr] at hv
        have hl := lowerAll_lowerAll r
        rw [he] at hl
        simp only [Capability.valid, hv, Bool.true_and, decide_eq_true_eq]
        exact lowerAll_of_append (l := x) (r := b!"res-") (by simpa using hl)
      | _ => rfl
    · simp at h
  · simp only [Option.some.injEq] at h; subst h; exact SortAlgorithm.ofAtom_valid (by assumption)
  · simp only [Option.some.injEq] at h; subst h; exact ThreadingAlgorithm.ofAtom_valid (by assumption)

theorem Capability.ofAtom_valid [Quirks] {a : Bytes} (h : isAtom a = true) : (Capability.ofAtom a).valid = true := by
  cases e1 : (Capability.fixed.lookup (lowerAll a)).filter Capability.present with
  | some c =>
    have : Capability.ofAtom a = c := by simp [Capability.ofAtom, e1]
    rw [this]
    rw [Option.filter_eq_some_iff] at e1
    rw [Capability.fixed_valid _ (lookup_mem e1.1)]
    exact e1.2
  | none =>
    cases e2 : splitOnce b!"=" a with
    | none =>
      have : Capability.ofAtom a = .other a := by simp [Capability.ofAtom, e1, e2]
      rw [this]
      simp [Capability.valid, h, this]
    | some x =>
      obtain ⟨l, r⟩ := x
      cases e3 : Capability.ofPair l r with
      | none =>
        have : Capability.ofAtom a = .other a := by simp [Capability.ofAtom, e1, e2, e3]
        rw [this]
        simp [Capability.valid, h, this]
      | some c =>
        have : Capability.ofAtom a = c := by simp [Capability.ofAtom, e1, e2, e3]
        rw [this]
        exact Capability.ofPair_valid e3

instance [Quirks] : Canon capability fun v => v.valid = true := ⟨by
  unfold capability
  post
  exact Capability.ofAtom_valid hv⟩

instance [Quirks] : Canon capabilityData fun l => l ≠ [] ∧ ∀ v ∈ l, v.valid = true := ⟨by
  unfold capabilityData
  refine Post.bind fun _ _ => Post.bind fun l hl => Post.ite (fun _ => Post.bind fun _ _ => Post.pure hl) fun _ => Post.pure hl⟩

/-! ### Codes -/

instance : Canon uidRange fun v => v.valid = true := ⟨by
  unfold uidRange
  refine Post.bind fun _ h1 => Post.bind fun _ _ => Post.bind fun _ h2 => Post.pure ?_
  simp only [UidElement.valid, Bool.and_eq_true]
  exact ⟨isNonZeroU32_iff.2 h1, isNonZeroU32_iff.2 h2⟩⟩

instance : Canon uidSet fun v => isUidSet v = true := ⟨by
  unfold uidSet
  have : Canon (alt [uidRange, .single <$> nzNumber]) fun v => v.valid = true := ⟨by
    post
    · exact hv
    · exact isNonZeroU32_iff.2 hv⟩
  refine Post.canon fun v hv => ?_
  simpa [isUidSet] using hv⟩

instance : Canon metadataCode fun v => v.valid = true := ⟨by
  unfold metadataCode
  post
  · simpa [MetadataCode.valid] using hv
  · simpa [MetadataCode.valid] using hv
  · rfl
  · rfl⟩

theorem all_of_opt {α : Type} {f : α → Bool} {o : Option (List α)} (h : ∀ l, o = some l → l ≠ [] ∧ ∀ v ∈ l, f v = true) :
    (o.getD []).all f = true := by
  cases o with
  | none => rfl
  | some l => simpa using (h l rfl).2

instance : Canon charsetList fun l => l ≠ [] ∧ ∀ v ∈ l, v.valid = true := ⟨by
  unfold charsetList
  exact Post.bind fun _ _ => Post.bind fun l hl => Post.bind fun _ _ => Post.pure hl⟩

instance : Canon flagPermList fun l => l.all FlagPerm.valid = true := ⟨by
  unfold flagPermList
  exact Post.bind fun _ _ => Post.bind fun l hl => Post.bind fun _ _ => Post.pure (all_of_opt hl)⟩

variable [Quirks]

instance : Canon respCodeApnd fun c => ∀ t, c.valid t = true := ⟨by
  unfold respCodeApnd
  refine Post.bind fun _ _ => Post.bind fun _ h1 => Post.bind fun _ _ => Post.bind fun _ h2 => Post.pure fun t => ?_
  simp only [Code.valid, Bool.and_eq_true]
  exact ⟨isNonZeroU32_iff.2 h1, isNonZeroU32_iff.2 h2⟩⟩

instance : Canon respCodeCopy fun c => ∀ t, c.valid t = true := ⟨by
  unfold respCodeCopy
  refine Post.bind fun _ _ => Post.bind fun _ h1 => Post.bind fun _ _ => Post.bind fun _ h2 => Post.bind fun _ _ =>
    Post.bind fun _ h3 => Post.pure fun t => ?_
  simp only [Code.valid, Bool.and_eq_true]
  exact ⟨⟨isNonZeroU32_iff.2 h1, h2⟩, h3⟩⟩

instance : Canon respTextCode fun c => ∀ t, c.valid t = true := ⟨by
  unfold respTextCode
  post
  · intro t; rfl
  · intro t
    exact all_of_opt hv
  · intro t
    simpa [Code.valid] using hv
  all_goals intro t
  all_goals first
    | rfl
    | exact hv
    | exact isNonZeroU32_iff.2 hv
    | exact Bool.and_eq_true_iff.2 ⟨hb, isNonZeroU64_iff.2 hv⟩
    | exact Bool.and_eq_true_iff.2 ⟨hb, hv⟩
    | exact hb
    | exact hv t⟩

instance : Canon codeKnown fun c => ∀ t, c.valid t = true := ⟨by
  unfold codeKnown
  exact Post.bind fun c hc => Post.bind fun _ _ => Post.pure hc⟩

/-! ### Code and text -/

/-- Every value that `p` accepts, and after which a line ends, satisfies `Q`. -/
def PostE {α : Type} (p : P α) (Q : α → Prop) : Prop := ∀ x r v, p x = .ok r v → EolTail r → Q v

omit [Quirks] in
theorem PostE.of_post {α : Type} {p : P α} {Q : α → Prop} (h : Post p Q) : PostE p Q := fun _ _ _ e _ => h _ _ _ e

omit [Quirks] in
theorem PostE.bind {α β : Type} {p : P α} {f : α → P β} {Q' : α → Prop} {Q : β → Prop} [h : Canon p Q']
    (hf : ∀ v, Q' v → PostE (f v) Q) : PostE (p >>= f) Q := by
  intro x r v e hr
  obtain ⟨i, w, h1, h2⟩ := Res.andThen_eq_ok.1 e
  exact hf w (h.post _ _ _ h1) _ _ _ h2 hr

omit [Quirks] in
theorem PostE.map {α β : Type} {p : P α} {f : α → β} {Q : β → Prop} (h : PostE p fun v => Q (f v)) : PostE (f <$> p) Q := by
  intro x r v e hr
  simp only [P.map_apply] at e
  obtain ⟨i, w, h1, h2⟩ := Res.andThen_eq_ok.1 e
  simp at h2
  obtain ⟨rfl, rfl⟩ := h2
  exact h _ _ _ h1 hr

omit [Quirks] in
theorem PostE.alt_nil {α : Type} {Q : α → Prop} : PostE (alt []) Q := PostE.of_post Post.alt_nil

omit [Quirks] in
theorem PostE.alt_cons {α : Type} {p : P α} {ps : List (P α)} {Q : α → Prop} (hp : PostE p Q) (hq : PostE (alt ps) Q) :
    PostE (alt (p :: ps)) Q := by
  intro x r v e hr
  simp only [Imap.alt_cons, orElse] at e
  split at e
  · exact hq _ _ _ e hr
  · exact hp _ _ _ e hr

theorem eolTail_of_crlf {x r : Bytes} {v : Unit} (h : crlf x = .ok r v) : EolTail x := by
  obtain ⟨e, rfl, _⟩ := exists_of_crlf h
  cases e
  · exact ⟨10, r, rfl, Or.inr rfl⟩
  · exact ⟨13, 10 :: r, rfl, Or.inl rfl⟩

/-- The end of the line may follow. -/
theorem Post.crlf {α β : Type} {p : P α} {g : α → β} {Q : β → Prop} (h : PostE p fun v => Q (g v)) :
    Post (do let v ← p; crlf; return g v) Q := by
  intro x r v e
  simp only [P.bind_apply] at e
  obtain ⟨i, w, h1, h2⟩ := Res.andThen_eq_ok.1 e
  obtain ⟨i', w', h3, h4⟩ := Res.andThen_eq_ok.1 h2
  simp at h4
  obtain ⟨rfl, rfl⟩ := h4
  exact h _ _ _ h1 (eolTail_of_crlf h3)

omit [Quirks] in
theorem codeOtherChar_noEol : ∀ b : UInt8, isCodeOtherChar b = true → (b != 13 && b != 10) = true := forall_byte (by decide)
omit [Quirks] in
theorem textChar_noEol : ∀ b : UInt8, isTextChar b = true → (b != 13 && b != 10) = true := forall_byte (by decide)

theorem eolTail_crlf : EolTail b!"\r\n" := ⟨13, [10], rfl, Or.inl rfl⟩

/-- What is left by `text_after_code`. -/
theorem exists_of_textAfterCode {x r t : Bytes} (h : textAfterCode x = .ok r t) :
    isText t = true ∧ ((x = b!" " ++ t ++ r) ∨ (x = r ∧ t = b!"..." ∧ EolTail r)) := by
  have htext : ∀ {x r t : Bytes}, (do sp; text : P Bytes) x = .ok r t → isText t = true ∧ x = b!" " ++ t ++ r := by
    intro x r t h
    simp only [P.bind_apply] at h
    obtain ⟨i, w, h1, h2⟩ := Res.andThen_eq_ok.1 h
    have h1 := exists_of_char h1
    obtain ⟨rfl, h3, h4, _⟩ := exists_of_takeWhile1 h2
    refine ⟨?_, by simp [h1]⟩
    simp only [isText, Bool.and_eq_true, Bool.not_eq_true', List.isEmpty_eq_false_iff]
    exact ⟨h3, h4⟩
  unfold textAfterCode at h
  split at h
  · simp only [alt_cons, orElse] at h
    split at h
    · split at h
      · simp at h
      · simp only [value, P.map_apply, P.bind_apply] at h
        obtain ⟨i, w, h1, h2⟩ := Res.andThen_eq_ok.1 h
        simp at h2
        obtain ⟨rfl, rfl⟩ := h2
        unfold peek at h1
        cases hc : crlf x with
        | ok r' v' =>
          rw [hc] at h1
          simp at h1
          obtain ⟨rfl, _⟩ := h1
          exact ⟨by decide, Or.inr ⟨rfl, rfl, eolTail_of_crlf hc⟩⟩
        | _ => rw [hc] at h1; simp at h1
    · exact ⟨(htext h).1, Or.inl (htext h).2⟩
  · exact ⟨(htext h).1, Or.inl (htext h).2⟩

theorem respTextCoded_post : PostE respTextCoded fun v => validRespText v.1 v.2 = true := by
  intro x r v e hr
  simp only [respTextCoded, P.bind_apply] at e
  obtain ⟨i1, v1, h1, e⟩ := Res.andThen_eq_ok.1 e
  obtain ⟨i2, c, h2, e⟩ := Res.andThen_eq_ok.1 e
  obtain ⟨i3, t, h3, e⟩ := Res.andThen_eq_ok.1 e
  simp at e
  obtain ⟨rfl, rfl⟩ := e
  obtain ⟨ht, h4⟩ := exists_of_textAfterCode h3
  have hta : t.all isTextChar = true := by simp [isText] at ht; simpa using ht.2
  simp only [validRespText, ht, Bool.true_and]
  simp only [alt_cons, orElse] at h2
  split at h2
  · next hk =>
    split at h2
    · simp at h2
    · simp only [codeOther, P.bind_apply] at h2
      obtain ⟨j1, bs, h5, h2⟩ := Res.andThen_eq_ok.1 h2
      obtain ⟨j2, w, h6, h2⟩ := Res.andThen_eq_ok.1 h2
      simp at h2
      obtain ⟨rfl, rfl⟩ := h2
      obtain ⟨rfl, hbs, _⟩ := exists_of_takeWhile h5
      have h6 := exists_of_tag h6
      subst h6
      simp only [Code.valid, hbs, Bool.true_and]
      suffices codeKnown (bs ++ b!"] " ++ t ++ b!"\r\n") = .error by rw [this]; rfl
      rcases h4 with rfl | ⟨rfl, rfl, _⟩
      · refine codeKnown_eol (x := bs ++ b!"] " ++ t) (y := i3) ?_ hr eolTail_crlf (by simpa using hk)
        simp only [List.all_append, Bool.and_eq_true]
        refine ⟨⟨?_, by decide⟩, ?_⟩
        · exact List.all_eq_true.2 fun b hb => codeOtherChar_noEol b (List.all_eq_true.1 hbs b hb)
        · exact List.all_eq_true.2 fun b hb => textChar_noEol b (List.all_eq_true.1 hta b hb)
      · have := codeKnown_missing hbs hr eolTail_crlf (by simpa using hk)
        simpa using this
  · exact (inferInstance : Canon codeKnown _).post _ _ _ h2 t

theorem respText_post : PostE respText fun v => validRespText v.1 v.2 = true := by
  intro x r v e hr
  simp only [respText, P.bind_apply] at e
  obtain ⟨i1, o, h1, e⟩ := Res.andThen_eq_ok.1 e
  unfold peek at h1
  cases ho : opt (tag b!"[") x with
  | ok r' o' =>
    rw [ho] at h1
    simp at h1
    obtain ⟨rfl, rfl⟩ := h1
    rcases exists_of_opt ho with ⟨w, rfl, _⟩ | ⟨rfl, rfl, h2⟩
    · exact respTextCoded_post _ _ _ e hr
    · simp only [Option.isSome_none, Bool.false_eq_true, if_false, respTextPlain, P.bind_apply] at e
      obtain ⟨i1, t, h3, e⟩ := Res.andThen_eq_ok.1 e
      simp at e
      obtain ⟨rfl, rfl⟩ := e
      obtain ⟨rfl, h4, h5, _⟩ := exists_of_takeWhile1 h3
      simp only [validRespText, isText, Bool.and_eq_true, Bool.not_eq_true', List.isEmpty_eq_false_iff]
      refine ⟨⟨h4, h5⟩, ?_⟩
      cases t with
      | nil => exact absurd rfl h4
      | cons c t =>
        simp only [tag, List.cons_append] at h2
        by_cases hc : c = 91
        · simp [hc] at h2
        · simpa using hc
  | _ => rw [ho] at h1; simp at h1

/-! ### Greetings and status responses -/

instance : Canon greeting fun g => g.valid = true := ⟨by
  unfold greeting
  refine Post.bind fun _ _ => Post.crlf ?_
  refine PostE.alt_cons ?_ (PostE.alt_cons (PostE.map ?_) PostE.alt_nil)
  · unfold respCondAuth
    refine PostE.bind fun k _ => ?_
    intro x r v e hr
    simp only [P.bind_apply] at e
    obtain ⟨i1, t, h3, e⟩ := Res.andThen_eq_ok.1 e
    simp at e
    obtain ⟨rfl, rfl⟩ := e
    exact respText_post _ _ _ h3 hr
  · unfold respCondBye
    exact PostE.bind fun _ _ => respText_post⟩

theorem respCondState_post : PostE respCondState fun v => validRespText v.2.1 v.2.2 = true := by
  unfold respCondState
  refine PostE.bind fun k _ => ?_
  intro x r v e hr
  simp only [P.bind_apply] at e
  obtain ⟨i1, t, h3, e⟩ := Res.andThen_eq_ok.1 e
  simp at e
  obtain ⟨rfl, rfl⟩ := e
  exact respText_post _ _ _ h3 hr

theorem respCondBye_post : PostE respCondBye fun v => validRespText v.1 v.2 = true := by
  unfold respCondBye
  exact PostE.bind fun _ _ => respText_post

instance : Canon responseDone fun s => s.valid = true := ⟨by
  unfold responseDone responseTagged responseFatal
  refine Post.alt_cons ?_ (Post.alt_cons ?_ Post.alt_nil)
  · refine Post.bind fun t ht => Post.bind fun _ _ => Post.crlf ?_
    intro x r v e hr
    simp only [Status.valid, ht, Bool.true_and]
    exact respCondState_post _ _ _ e hr
  · exact Post.bind fun _ _ => Post.crlf respCondBye_post⟩

/-! ### Command continuation requests -/

omit [Quirks] in
theorem takeUntil_crlf {t r : Bytes} (ht : t.all isTextChar = true) : takeUntil b!"\r\n" (t ++ 13 :: 10 :: r) = .ok (13 :: 10 :: r) t := by
  have : splitOnce b!"\r\n" (t ++ 13 :: 10 :: r) = some (t, r) := by
    induction t with
    | nil => simp [splitOnce]
    | cons b t ih =>
      simp only [List.all_cons, Bool.and_eq_true] at ht
      have hb := textChar_noEol b ht.1
      simp at hb
      simp [splitOnce, ih ht.2, Ne.symm hb.1]
  simp [takeUntil, this]

omit [Quirks] in
theorem takeUntil_lf {t r : Bytes} (ht : t.all (· != 10) = true) : takeUntil b!"\n" (t ++ 10 :: r) = .ok (10 :: r) t := by
  have : splitOnce b!"\n" (t ++ 10 :: r) = some (t, r) := by
    induction t with
    | nil => simp [splitOnce]
    | cons b t ih =>
      simp only [List.all_cons, Bool.and_eq_true] at ht
      have hb := ht.1
      simp at hb
      simp [splitOnce, ih ht.2, Ne.symm hb]
  simp [takeUntil, this]

omit [Quirks] in
theorem stripCr_text {t : Bytes} (ht : t.all isTextChar = true) : stripCr t = t := by
  unfold stripCr
  rw [if_neg]
  intro h
  have := List.mem_of_getLast? h
  have := textChar_noEol 13 (List.all_eq_true.1 ht _ this)
  simp at this

/-- The base64 alternative sees the whole line. -/
theorem continueBase64_line {t r : Bytes} {e : Frag.Ending} (ht : t.all isTextChar = true)
    (he : Quirks.crlfRelaxed = false → e = .crlf) :
    continueBase64 (t ++ Frag.endingBytes e ++ r) =
      match b64Decode t with
      | some d => .ok (if Quirks.crlfRelaxed = true then 10 :: r else 13 :: 10 :: r) d
      | none => .error := by
  have ht10 : t.all (· != 10) = true := List.all_eq_true.2 fun b hb => by
    have := textChar_noEol b (List.all_eq_true.1 ht b hb)
    simp at this
    simp [this.2]
  unfold continueBase64
  cases hq : Quirks.crlfRelaxed
  · have := he hq
    subst this
    simp only [Bool.false_eq_true, if_false, mapRes, Frag.endingBytes]
    rw [show t ++ b!"\r\n" ++ r = t ++ 13 :: 10 :: r by simp, takeUntil_crlf ht]
    dsimp only
    cases b64Decode t <;> rfl
  · simp only [if_true, mapRes]
    cases e
    · rw [show t ++ Frag.endingBytes .lf ++ r = t ++ 10 :: r by simp [Frag.endingBytes], takeUntil_lf ht10]
      dsimp only
      rw [stripCr_text ht]
      cases b64Decode t <;> rfl
    · rw [show t ++ Frag.endingBytes .crlf ++ r = (t ++ [13]) ++ 10 :: r by simp [Frag.endingBytes],
        takeUntil_lf (by simp [ht10])]
      dsimp only
      rw [show stripCr (t ++ [13]) = t by simp [stripCr]]
      cases b64Decode t <;> rfl

/-- The `unwrap` of `continue_req` does not panic. -/
theorem continueInner_toReq {x r : Bytes} {v : ContinueEither} (h : continueInner x = .ok r v) : v.toReq.isSome = true := by
  simp only [continueInner, P.bind_apply] at h
  obtain ⟨i1, _, h1, h⟩ := Res.andThen_eq_ok.1 h
  obtain ⟨i2, w, h2, h⟩ := Res.andThen_eq_ok.1 h
  obtain ⟨i3, u, h3, h⟩ := Res.andThen_eq_ok.1 h
  simp at h
  obtain ⟨rfl, rfl⟩ := h
  cases w with
  | base64 d => rfl
  | basic y =>
    obtain ⟨c, t⟩ := y
    simp only [ContinueEither.toReq, ContinueReq.ofBasic]
    cases c with
    | some c => rfl
    | none =>
      simp only [alt_cons, orElse, P.map_apply] at h2
      split at h2
      · next hb =>
        have hb : continueBase64 i1 = .error := by
          rcases Res.andThen_eq_error.1 hb with h | ⟨_, _, _, h⟩
          · exact h
          · simp at h
        split at h2
        · simp at h2
        · obtain ⟨j1, y, h4, h5⟩ := Res.andThen_eq_ok.1 h2
          simp at h5
          obtain ⟨rfl, rfl⟩ := h5
          have hv := respText_post _ _ _ h4 (eolTail_of_crlf h3)
          simp only [validRespText, Bool.and_eq_true, isText] at hv
          have hi : i1 = t ++ j1 := by
            simp only [respText, P.bind_apply] at h4
            obtain ⟨k1, o, h6, h4⟩ := Res.andThen_eq_ok.1 h4
            unfold peek at h6
            cases ho : opt (tag b!"[") i1 with
            | ok r' o' =>
              rw [ho] at h6
              simp at h6
              obtain ⟨rfl, rfl⟩ := h6
              cases o' with
              | none =>
                simp only [Option.isSome_none, Bool.false_eq_true, if_false, respTextPlain, P.bind_apply] at h4
                obtain ⟨_, t', h7, h4⟩ := Res.andThen_eq_ok.1 h4
                simp at h4
                obtain ⟨rfl, rfl⟩ := h4
                exact (exists_of_takeWhile1 h7).1
              | some _ =>
                simp only [Option.isSome_some, if_true, respTextCoded, P.bind_apply] at h4
                obtain ⟨_, _, _, h4⟩ := Res.andThen_eq_ok.1 h4
                obtain ⟨_, _, _, h4⟩ := Res.andThen_eq_ok.1 h4
                obtain ⟨_, _, _, h4⟩ := Res.andThen_eq_ok.1 h4
                simp at h4
            | _ => rw [ho] at h6; simp at h6
          obtain ⟨e, rfl, he⟩ := exists_of_crlf h3
          have hline := continueBase64_line (r := i3) hv.1.2 he
          rw [List.append_assoc, ← hi, hb] at hline
          have hd : b64Decode t = none := by
            cases hd : b64Decode t with
            | none => rfl
            | some d => rw [hd] at hline; simp at hline
          have hh : (t.head? == some 91) = false := by simpa using hv.2
          simp [hd, hh]
      · obtain ⟨j1, y, h4, h5⟩ := Res.andThen_eq_ok.1 h2
        simp at h5

instance : Canon continueReq fun c => c.valid = true := ⟨by
  unfold continueReq
  have : Canon continueInner fun v => match v with
      | .basic x => validRespText x.1 x.2 = true
      | .base64 _ => True := ⟨by
    unfold continueInner
    refine Post.bind fun _ _ => Post.crlf (g := id) ?_
    exact PostE.alt_cons (PostE.map fun _ _ _ _ _ => trivial) (PostE.alt_cons (PostE.map respText_post) PostE.alt_nil)⟩
  refine Post.mapRes fun v hv w hw => ?_
  cases v with
  | base64 d =>
    simp [ContinueEither.toReq] at hw
    subst hw
    rfl
  | basic x =>
    simp only [ContinueEither.toReq] at hw
    have : w = .basic x.1 x.2 := by
      unfold ContinueReq.ofBasic at hw
      split_ifs at hw
      simpa using hw.symm
    subst this
    simp only [ContinueReq.valid, Bool.and_eq_true]
    exact ⟨hv, by rw [hw]; rfl⟩⟩

instance : Canon emptyContinueReq fun c => c.valid = true := ⟨by
  unfold emptyContinueReq
  exact Post.bind fun _ _ => Post.bind fun _ _ => Post.pure rfl⟩

/-! ### Data responses -/

omit [Quirks] in
instance : Canon statusAttVal fun v => v.valid = true := ⟨by
  unfold statusAttVal
  post
  all_goals first
    | exact isNonZeroU32_iff.2 hv
    | exact decide_eq_true hv
    | exact Bool.and_eq_true_iff.2 ⟨hb, decide_eq_true hv⟩⟩

omit [Quirks] in
instance : Canon flagFetchList fun l => l.all FlagFetch.valid = true := ⟨by
  unfold flagFetchList
  exact Post.bind fun _ _ => Post.bind fun l hl => Post.bind fun _ _ => Post.pure (all_of_opt hl)⟩

omit [Quirks] in
instance : Canon msgAttDynamic fun v => v.valid = true := ⟨by
  unfold msgAttDynamic
  refine Post.alt_cons (Post.map ?_) (Post.alt_cons (Post.gate fun hb => Post.map ?_) Post.alt_nil)
  · exact Post.canon fun _ h => h
  · exact Post.bind fun _ _ => Post.bind fun _ _ => Post.bind fun n hn => Post.bind fun _ _ => Post.pure
      (Bool.and_eq_true_iff.2 ⟨hb, isNonZeroU64_iff.2 hn⟩)⟩

instance : Canon msgBodyExt fun v => v.valid = true := ⟨by
  unfold msgBodyExt
  refine Post.bind fun _ _ => Post.bind fun s hs => ?_
  have : Canon (do tag b!"<"; let n ← number; tag b!">"; return n : P Nat) fun n => n < 4294967296 :=
    ⟨Post.bind fun _ _ => Post.bind fun n hn => Post.bind fun _ _ => Post.pure hn⟩
  refine Post.bind fun o ho => Post.bind fun _ _ => Post.bind fun d hd => Post.pure ?_
  simp only [MessageDataItem.valid, Bool.and_eq_true]
  refine ⟨⟨hs, ?_⟩, hd⟩
  cases o with
  | none => rfl
  | some n => exact decide_eq_true (ho n rfl)⟩

instance : Canon msgAttStatic fun v => v.valid = true := ⟨by
  unfold msgAttStatic
  post
  all_goals first
    | exact hv
    | exact isNonZeroU32_iff.2 hv
    | exact decide_eq_true hv
    | (simp only [MessageDataItem.valid, Bool.and_eq_true, decide_eq_true_eq]; exact hv)
    | (simp only [MessageDataItem.valid, Bool.and_eq_true, decide_eq_true_eq]; exact ⟨by assumption, hv⟩)⟩

instance : Canon msgAtt fun l => l ≠ [] ∧ ∀ v ∈ l, v.valid = true := ⟨by
  unfold msgAtt
  have : Canon (alt [msgAttDynamic, msgAttStatic]) fun v => v.valid = true := ⟨by post <;> exact hv⟩
  exact Post.bind fun _ _ => Post.bind fun l hl => Post.bind fun _ _ => Post.pure hl⟩

omit [Quirks] in
theorem Thread.valid_go : ∀ l : List Thread, Thread.valid.go l = l.all Thread.valid
  | [] => rfl
  | t :: l => by simp [Thread.valid.go, Thread.valid_go l]

omit [Quirks] in
theorem Thread.depth_go {n : Nat} : ∀ l : List Thread, Thread.depth.go l ≤ n ↔ ∀ t ∈ l, t.depth ≤ n
  | [] => by simp [Thread.depth.go]
  | t :: l => by
    have ih := Thread.depth_go (n := n) l
    simp only [Thread.depth.go, List.mem_cons, forall_eq_or_imp, ← ih]
    omega

omit [Quirks] in
theorem threadList_post : ∀ n, Post (threadList n) fun t => t.valid = true ∧ t.depth ≤ n
  | 0 => Post.failure
  | n + 1 => by
    have ih : Canon (threadList n) _ := ⟨threadList_post n⟩
    unfold threadList
    refine Post.bind fun _ _ => ?_
    have : Canon (alt [do
        let p ← sepList1 sp nzNumber
        let l ← opt (do sp; many2 (threadList n))
        return Thread.members p (l.getD []),
      .nested <$> many2 (threadList n)]) fun t => t.valid = true ∧ t.depth ≤ n + 1 := ⟨by
      refine Post.alt_cons (Post.bind fun p hp => Post.bind fun l hl => Post.pure ?_) (Post.alt_cons (Post.map ?_) Post.alt_nil)
      · have hl' : (l.getD []).length ≠ 1 ∧ ∀ t ∈ l.getD [], t.valid = true ∧ t.depth ≤ n := by
          cases l with
          | none => simp
          | some l =>
            have := hl l rfl
            exact ⟨by simp only [Option.getD_some]; omega, this.2⟩
        refine ⟨?_, ?_⟩
        · simp only [Thread.valid, Bool.and_eq_true, Thread.valid_go, bne_iff_ne, Bool.not_eq_true', List.isEmpty_eq_false_iff]
          refine ⟨⟨⟨hp.1, ?_⟩, hl'.1⟩, ?_⟩
          · exact List.all_eq_true.2 fun v hv => isNonZeroU32_iff.2 (hp.2 v hv)
          · exact List.all_eq_true.2 fun v hv => (hl'.2 v hv).1
        · have := (Thread.depth_go (l.getD [])).2 fun t ht => (hl'.2 t ht).2
          simp only [Thread.depth]
          omega
      · refine Post.canon fun l hl => ⟨?_, ?_⟩
        · simp only [Thread.valid, Bool.and_eq_true, Thread.valid_go, decide_eq_true_eq]
          exact ⟨hl.1, List.all_eq_true.2 fun v hv => (hl.2 v hv).1⟩
        · have := (Thread.depth_go l).2 fun t ht => (hl.2 t ht).2
          simp only [Thread.depth]
          omega⟩
    exact Post.bind fun t ht => Post.bind fun _ _ => Post.pure ht

omit [Quirks] in
instance (n : Nat) : Canon (threadList n) fun t => t.valid = true ∧ t.depth ≤ n := ⟨threadList_post n⟩

omit [Quirks] in
instance : Canon threadData fun l => (l.all fun t => t.valid && t.depth ≤ 8) = true := ⟨by
  unfold threadData
  refine Post.bind fun _ _ => Post.bind fun l hl => Post.pure ?_
  refine all_of_opt fun l' hl' => ⟨(hl l' hl').1, fun v hv => ?_⟩
  have := (hl l' hl').2 v hv
  simp [this.1, this.2]⟩

omit [Quirks] in
instance : Canon delimiter fun d => isDelimiter d = true := ⟨by
  unfold delimiter
  refine Post.alt_cons (Post.map ?_) (Post.alt_cons (Post.value rfl) Post.alt_nil)
  exact Post.bind fun _ _ => Post.bind fun _ h => Post.bind fun _ _ => Post.pure h⟩

instance : Canon namespaceExt fun e => e.valid = true := ⟨by
  unfold namespaceExt
  refine Post.bind fun _ _ => Post.bind fun _ h1 => Post.bind fun _ _ => Post.bind fun _ _ => Post.bind fun l h2 =>
    Post.bind fun _ _ => Post.pure ?_
  simpa [NamespaceExt.valid, h1] using h2⟩

instance : Canon namespaceDescr fun e => e.valid = true := ⟨by
  unfold namespaceDescr
  refine Post.bind fun _ _ => Post.bind fun _ h1 => Post.bind fun _ _ => Post.bind fun _ h2 => Post.bind fun l h3 =>
    Post.bind fun _ _ => Post.pure ?_
  simpa [Namespace.valid, h1, h2] using h3⟩

instance : Canon namespaces fun l => l.all Namespace.valid = true := ⟨by
  unfold namespaces
  refine Post.alt_cons (Post.value rfl) (Post.alt_cons ?_ Post.alt_nil)
  exact Post.bind fun _ _ => Post.bind fun _ h => Post.bind fun _ _ => Post.pure (List.all_eq_true.2 h.2)⟩

instance : Canon quotaResource fun e => e.valid = true := ⟨by
  unfold quotaResource
  refine Post.bind fun _ h1 => Post.bind fun _ _ => Post.bind fun _ h2 => Post.bind fun _ _ => Post.bind fun _ h3 => Post.pure ?_
  simp [QuotaGet.valid, h1, h2, h3]⟩

instance : Canon metadataItems fun e => e.valid = true := ⟨by
  unfold metadataItems
  refine Post.alt_cons (Post.map ?_) (Post.alt_cons (Post.map ?_) Post.alt_nil)
  · exact Post.canon fun l hl => by simpa [MetadataResponse.valid] using hl
  · exact Post.canon fun l hl => by simpa [MetadataResponse.valid] using hl⟩

instance : Canon mailboxList fun x => x.1.all FlagNameAttribute.valid = true ∧ isDelimiter x.2.1 = true ∧ x.2.2.valid = true := ⟨by
  unfold mailboxList
  exact Post.bind fun _ _ => Post.bind fun l hl => Post.bind fun _ _ => Post.bind fun _ _ => Post.bind fun _ hd =>
    Post.bind fun _ _ => Post.bind fun _ hm => Post.pure ⟨all_of_opt hl, hd, hm⟩⟩

omit [Quirks] in
instance : Canon searchSortModSeq fun n => isNonZeroU64 n = true := ⟨by
  unfold searchSortModSeq
  exact Post.bind fun _ _ => Post.bind fun _ _ => Post.bind fun n hn => Post.bind fun _ _ => Post.pure (isNonZeroU64_iff.2 hn)⟩

omit [Quirks] in
instance : Canon searchNumbers fun x => x.1.all isNonZeroU32 = true ∧ isModSeqOpt x.2 = true := ⟨by
  unfold searchNumbers
  have : Canon (gate Quirks.extCondstoreQresync (do char 32; searchSortModSeq)) fun n =>
      (Quirks.extCondstoreQresync && isNonZeroU64 n) = true :=
    ⟨Post.gate fun hb => Post.bind fun _ _ => Post.canon fun n hn => Bool.and_eq_true_iff.2 ⟨hb, hn⟩⟩
  refine Post.bind fun l hl => Post.bind fun m hm => Post.pure ⟨?_, ?_⟩
  · exact List.all_eq_true.2 fun v hv => isNonZeroU32_iff.2 (hl v hv)
  · cases m with
    | none => rfl
    | some n => exact hm n rfl⟩

instance : Canon searchData fun d => d.valid = true := ⟨by
  unfold searchData
  refine Post.bind fun _ _ => Post.bind fun x hx => Post.bind fun _ _ => Post.pure ?_
  simp [Data.valid, hx]⟩

omit [Quirks] in
instance : Canon sortData fun d => d.valid = true := ⟨by
  unfold sortData
  refine Post.bind fun _ _ => Post.bind fun x hx => Post.pure ?_
  simp [Data.valid, hx]⟩

omit [Quirks] in
instance : Canon statusItems fun l => l.all StatusDataItem.valid = true := ⟨by
  unfold statusItems
  exact Post.bind fun _ _ => Post.bind fun l hl => Post.bind fun _ _ => Post.pure (all_of_opt hl)⟩

instance : Canon statusData fun d => d.valid = true := ⟨by
  unfold statusData
  refine Post.bind fun _ _ => Post.bind fun m hm => Post.bind fun l hl => Post.bind fun _ _ => Post.pure ?_
  simp [Data.valid, hm, hl]⟩

instance : Canon metadataResp fun d => Quirks.extMetadata = true → d.valid = true := ⟨by
  unfold metadataResp
  refine Post.bind fun _ _ => Post.bind fun _ _ => Post.bind fun m hm => Post.bind fun _ _ => Post.bind fun l hl => Post.pure ?_
  intro h
  simp [Data.valid, hm, hl, h]⟩

instance : Canon namespaceResponse fun d => Quirks.extNamespace = true → d.valid = true := ⟨by
  unfold namespaceResponse
  refine Post.bind fun _ _ => Post.bind fun p hp => Post.bind fun _ _ => Post.bind fun o ho => Post.bind fun _ _ =>
    Post.bind fun s hs => Post.pure ?_
  intro h
  simp only [Data.valid, h, hp, ho, hs, Bool.and_self]⟩

instance : Canon quotarootResponse fun d => d.valid = true := ⟨by
  unfold quotarootResponse
  refine Post.bind fun _ _ => Post.bind fun m hm => Post.bind fun l hl => Post.pure ?_
  simp only [Data.valid, hm, Bool.true_and]
  exact List.all_eq_true.2 hl⟩

instance : Canon quotaResponse fun d => d.valid = true := ⟨by
  unfold quotaResponse
  refine Post.bind fun _ _ => Post.bind fun r hr => Post.bind fun _ _ => Post.bind fun l hl => Post.bind fun _ _ => Post.pure ?_
  simpa [Data.valid, hr] using hl⟩

omit [Quirks] in
instance : Canon (do let n ← number; tagNC b!" EXISTS"; return n : P Nat) fun n => n < 4294967296 :=
  ⟨Post.bind fun _ h => Post.bind fun _ _ => Post.pure h⟩

omit [Quirks] in
instance : Canon (do let n ← number; tagNC b!" RECENT"; return n : P Nat) fun n => n < 4294967296 :=
  ⟨Post.bind fun _ h => Post.bind fun _ _ => Post.pure h⟩

instance : Canon mailboxData fun d => d.valid = true := ⟨by
  unfold mailboxData
  refine Post.alt_cons (Post.map (Post.canon fun l hl => List.all_eq_true.2 hl)) <|
    Post.alt_cons (Post.map (Post.canon fun l hl => by simp [Data.valid, hl])) <|
    Post.alt_cons (Post.map (Post.canon fun l hl => by simp [Data.valid, hl])) <|
    Post.alt_cons (Post.canon fun _ h => h) <| Post.alt_cons (Post.canon fun _ h => h) <|
    Post.alt_cons (Post.map (Post.canon fun l hl => hl)) <|
    Post.alt_cons (Post.canon fun _ h => h) <| Post.alt_cons (Post.gate fun hb => Post.canon fun _ h => h hb) <|
    Post.alt_cons (Post.gate fun hb => Post.canon fun _ h => h hb) <|
    Post.alt_cons (Post.map (Post.canon fun l hl => decide_eq_true hl)) <|
    Post.alt_cons (Post.map (Post.canon fun l hl => decide_eq_true hl)) <|
    Post.alt_cons (Post.canon fun _ h => h) <| Post.alt_cons (Post.canon fun _ h => h) Post.alt_nil⟩

omit [Quirks] in
instance : Canon vanishedData fun d => Quirks.extCondstoreQresync = true → d.valid = true := ⟨by
  unfold vanishedData
  exact Post.bind fun _ _ => Post.bind fun _ _ => Post.bind fun _ _ => Post.bind fun _ h => Post.pure fun hb =>
    Bool.and_eq_true_iff.2 ⟨hb, h⟩⟩

instance : Canon messageData fun d => d.valid = true := ⟨by
  unfold messageData messageDataTail
  refine Post.alt_cons (Post.bind fun n hn => Post.bind fun _ _ => ?_)
    (Post.alt_cons (Post.gate fun hb => Post.canon fun _ h => h hb) Post.alt_nil)
  refine Post.alt_cons (Post.value (isNonZeroU32_iff.2 hn)) (Post.alt_cons (Post.map (Post.canon fun l hl => ?_)) Post.alt_nil)
  simpa [Data.valid, isNonZeroU32_iff.2 hn] using hl⟩

omit [Quirks] in
instance : Canon enableData fun d => d.valid = true := ⟨by
  unfold enableData
  exact Post.bind fun _ _ => Post.bind fun _ h => Post.pure (List.all_eq_true.2 h)⟩

instance : Canon idResponse fun p => isIdParamsOpt p = true := ⟨by
  unfold idResponse
  exact Post.canon fun _ h => h⟩

/-! ### Responses -/

instance : Canon responseData fun r => r.valid = true := ⟨by
  unfold responseData responseDataInner
  refine Post.bind fun _ _ => Post.crlf (g := id) ?_
  refine PostE.alt_cons (PostE.map respCondState_post) <| PostE.alt_cons (PostE.map respCondBye_post) <|
    PostE.alt_cons (PostE.of_post (Post.map (Post.canon fun _ h => h))) <|
    PostE.alt_cons (PostE.of_post (Post.map (Post.canon fun _ h => h))) <|
    PostE.alt_cons (PostE.of_post (Post.map (Post.canon fun _ h => by simpa [Response.valid, Data.valid] using h))) <|
    PostE.alt_cons (PostE.of_post (Post.map (Post.canon fun _ h => h))) <|
    PostE.alt_cons (PostE.of_post (Post.gate fun hb => Post.map (Post.canon fun _ h => Bool.and_eq_true_iff.2 ⟨hb, h⟩))) PostE.alt_nil⟩

/-- Decoded responses are well-formed. -/
instance : Canon response fun r => r.valid = true := ⟨by
  unfold response
  split
  · refine Post.alt_cons (Post.map (Post.canon fun _ h => h)) <| Post.alt_cons (Post.map (Post.canon fun _ h => h)) <|
      Post.alt_cons (Post.canon fun _ h => h) <| Post.alt_cons (Post.map (Post.canon fun _ h => h)) Post.alt_nil
  · refine Post.alt_cons (Post.map (Post.canon fun _ h => h)) <|
      Post.alt_cons (Post.canon fun _ h => h) <| Post.alt_cons (Post.map (Post.canon fun _ h => h)) Post.alt_nil⟩

end Imap
