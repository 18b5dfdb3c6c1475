import Verif.CaseResponse
import Verif.Props.Case
import Verif.ResponseRT
import Verif.ResponsePost
/-
C44: the letter case of keywords in the messages of servers does not matter. Also the remaining message of clients without base64: DONE.
-/
set_option maxRecDepth 10000

namespace Imap

open Spec

variable [q : Quirks]

/-! ### Base64 in requests to continue -/

omit q in
theorem b64Decode_lf {s : Bytes} (h : 10 ∈ s) : b64Decode s = none := by
  cases e : b64Decode s with
  | none => rfl
  | some d =>
    have := b64_encode_decode s d e
    have := List.all_eq_true.1 (b64Encode_text d) 10 (by rw [this]; exact h)
    exact absurd this (by decide)

omit q in
theorem splitOnce_lf {l r : Bytes} (h : 10 ∉ l) : splitOnce b!"\n" (l ++ 10 :: r) = some (l, r) := by
  induction l with
  | nil => rfl
  | cons a l ih =>
    simp only [List.mem_cons, not_or] at h
    simp [splitOnce, ih h.2, h.1]

omit q in
theorem splitOnce_crlf {l r : Bytes} (h : 10 ∉ l) : splitOnce b!"\r\n" (l ++ 13 :: 10 :: r) = some (l, r) := by
  induction l with
  | nil => rfl
  | cons a l ih =>
    simp only [List.mem_cons, not_or] at h
    cases l with
    | nil => simp [splitOnce]
    | cons b l =>
      have h' := h.2
      simp only [List.mem_cons, not_or] at h'
      have := ih h.2
      rw [List.cons_append, splitOnce, if_neg (by simp [h'.1]), this]
      rfl

omit q in
theorem splitOnce_noLF {p x : Bytes} (h : 10 ∉ x) : splitOnce (p ++ b!"\n") x = none := by
  cases e : splitOnce (p ++ b!"\n") x with
  | none => rfl
  | some v =>
    have := splitOnce_eq (l := v.1) (r := v.2) e
    exact absurd (by rw [this]; simp) h

omit q in
theorem first_lf {a b r s : Bytes} (h : a ++ 10 :: r = b ++ 10 :: s) (ha : 10 ∉ a) (hb : 10 ∉ b) : a = b ∧ r = s := by
  induction a generalizing b with
  | nil =>
    cases b with
    | nil => exact ⟨rfl, by simpa using h⟩
    | cons c b => simp at h; simp [← h.1] at hb
  | cons c a ih =>
    cases b with
    | nil => simp at h; simp [h.1] at ha
    | cons d b =>
      simp only [List.cons_append, List.cons.injEq] at h
      simp only [List.mem_cons, not_or] at ha hb
      obtain ⟨rfl, rfl⟩ := ih h.2 ha.2 hb.2
      exact ⟨by rw [h.1], rfl⟩

omit q in
theorem line_cases (x : Bytes) : 10 ∉ x ∨ ∃ l r, x = l ++ 10 :: r ∧ 10 ∉ l := by
  induction x with
  | nil => exact .inl (by simp)
  | cons a x ih =>
    by_cases ha : a = 10
    · exact .inr ⟨[], x, by rw [ha]; rfl, by simp⟩
    · rcases ih with h | ⟨l, r, rfl, h⟩
      · exact .inl (by simp [h, Ne.symm ha])
      · exact .inr ⟨a :: l, r, rfl, by simp [h, Ne.symm ha]⟩

omit q in
theorem Spec.SameLetters.mem {x y : Bytes} (h : SameLetters x y) {c : UInt8} (hc : noLetter c = true) (hx : c ∉ x) : c ∉ y := by
  induction x generalizing y with
  | nil => rw [SameLetters.nil_iff.1 h]; exact hx
  | cons a x ih =>
    obtain ⟨b, y, rfl, hb, h⟩ := SameLetters.cons_iff.1 h
    simp only [List.mem_cons, not_or] at hx ⊢
    exact ⟨fun e => hx.1 ((small_ne hc hb).2 e.symm).symm, ih h hx.2⟩

/-- The first lines are equal, or they cannot be base64. -/
def SameLine (x y : Bytes) : Prop :=
  10 ∉ x ∨ (∃ x' y', x = 91 :: x' ∧ y = 91 :: y') ∨ ∃ l r r', x = l ++ 10 :: r ∧ y = l ++ 10 :: r' ∧ 10 ∉ l

theorem continueBase64_same {x y : Bytes} (h : SameLetters x y) (hl : SameLine x y) :
    CRes ((.base64 <$> continueBase64 : P ContinueEither) x) ((.base64 <$> continueBase64 : P ContinueEither) y) := by
  rw [P.map_apply, P.map_apply]
  rcases hl with hl | ⟨x', y', rfl, rfl⟩ | ⟨l, r, r', rfl, rfl, hl⟩
  · have hy := h.mem (c := 10) rfl hl
    have h1 : continueBase64 x = .incomplete := by
      unfold continueBase64 mapRes takeUntil
      split
      · simp only [show splitOnce b!"\n" x = none from splitOnce_noLF (p := []) hl]
      · simp only [show splitOnce b!"\r\n" x = none from splitOnce_noLF (p := b!"\r") hl]
    have h2 : continueBase64 y = .incomplete := by
      unfold continueBase64 mapRes takeUntil
      split
      · simp only [show splitOnce b!"\n" y = none from splitOnce_noLF (p := []) hy]
      · simp only [show splitOnce b!"\r\n" y = none from splitOnce_noLF (p := b!"\r") hy]
    rw [h1, h2]
    trivial
  · have key : ∀ z : Bytes, ∀ p : Bytes, p ≠ [] → p.head? ≠ some 91 → ∀ f : Bytes → Bytes, (∀ s, ∃ s', f (91 :: s) = 91 :: s') →
        mapRes (takeUntil p) (fun s => b64Decode (f s)) (91 :: z) =
          if (splitOnce p (91 :: z)).isSome then .error else .incomplete := by
      intro z p hp hp' f hf
      unfold mapRes takeUntil
      cases e : splitOnce p (91 :: z) with
      | none => rfl
      | some v =>
        obtain ⟨l, r⟩ := v
        have := splitOnce_eq e
        cases l with
        | nil =>
          cases p with
          | nil => exact absurd rfl hp
          | cons c p =>
            simp at this
            simp [← this.1] at hp'
        | cons c l =>
          simp only [List.cons_append, List.cons.injEq] at this
          obtain ⟨rfl, -⟩ := this
          obtain ⟨s', hs'⟩ := hf l
          simp only [hs', b64Decode_bracket, Option.isSome_some, if_true]
    have strip : ∀ s : Bytes, ∃ s', stripCr (91 :: s) = 91 :: s' := by
      intro s
      unfold stripCr
      split
      · cases s with
        | nil => next h => cases h
        | cons c s => exact ⟨_, rfl⟩
      · exact ⟨s, rfl⟩
    have hs : ∀ p : Bytes, p.all noLetter = true → (splitOnce p (91 :: x')).isSome = (splitOnce p (91 :: y')).isSome := by
      intro p hp
      rcases splitOnce_same hp h with ⟨h1, h2⟩ | ⟨_, _, _, _, h1, h2, -⟩ <;> rw [h1, h2] <;> rfl
    unfold continueBase64
    split
    · rw [key x' b!"\n" (by simp) (by simp) stripCr strip, key y' b!"\n" (by simp) (by simp) stripCr strip, hs _ rfl]
      split <;> trivial
    · have k := fun z => key z b!"\r\n" (by simp) (by simp) id fun s => ⟨s, rfl⟩
      simp only [id] at k
      rw [k, k, hs _ rfl]
      split <;> trivial
  · have hr : SameLetters r r' := by
      have := h.drop (l.length + 1)
      simpa using this
    unfold continueBase64
    split
    · unfold mapRes takeUntil
      rw [splitOnce_lf hl, splitOnce_lf hl]
      dsimp only
      cases b64Decode (stripCr l) with
      | none => trivial
      | some d => exact ⟨fold_cons rfl hr, rfl⟩
    · unfold mapRes takeUntil
      by_cases hc : ∃ m, l = m ++ [13]
      · obtain ⟨m, rfl⟩ := hc
        simp only [List.mem_append, not_or] at hl
        rw [show m ++ [13] ++ 10 :: r = m ++ 13 :: 10 :: r by simp, show m ++ [13] ++ 10 :: r' = m ++ 13 :: 10 :: r' by simp,
          splitOnce_crlf hl.1, splitOnce_crlf hl.1]
        dsimp only
        cases b64Decode m with
        | none => trivial
        | some d => exact ⟨fold_cons rfl (fold_cons rfl hr), rfl⟩
      · have key : ∀ r s t, splitOnce b!"\r\n" (l ++ 10 :: r) = some (s, t) → b64Decode s = none := by
          intro r s t e
          refine b64Decode_lf ?_
          by_cases h10 : 10 ∈ s
          · exact h10
          · have := splitOnce_eq e
            simp only [List.append_assoc, List.cons_append, List.nil_append] at this
            rw [show s ++ 13 :: 10 :: t = (s ++ [13]) ++ 10 :: t by simp] at this
            exact absurd ⟨s, (first_lf this hl (by simp [h10])).1⟩ hc
        rcases splitOnce_same (pat := b!"\r\n") rfl h with ⟨h1, h2⟩ | ⟨s, t, s', t', h1, h2, -⟩
        · rw [h1, h2]
          trivial
        · rw [h1, h2]
          dsimp only
          rw [key _ _ _ h1, key _ _ _ h2]
          trivial

theorem continueInner_same {x y : Bytes} (h : SameResponse x y) : CRes (continueInner x) (continueInner y) := by
  unfold continueInner
  rw [P.bind_apply, P.bind_apply]
  refine CRes.step ((CIs.tag (t := b!"+ ") rfl).ci x y h.1) fun x1 _ y1 _ e1 e2 h1 _ => ?_
  obtain rfl := exists_of_tag e1
  obtain rfl := exists_of_tag e2
  rw [P.bind_apply, P.bind_apply]
  refine CRes.andThen ?_ fun _ _ e => CI.bind CIs.ci fun _ _ _ => CI.pure e
  refine CRes.orElse (continueBase64_same h1 ?_) (CRes.orElse ?_ trivial)
  · rcases line_cases x1 with hx | ⟨l, r, rfl, hl⟩
    · exact .inl hx
    · cases l with
      | nil =>
        obtain ⟨b, r', rfl, hb, hr⟩ := SameLetters.cons_iff.1 h1
        obtain rfl := noLetter_eq (b := 10) rfl b hb.symm
        exact .inr (.inr ⟨[], r, r', rfl, rfl, hl⟩)
      | cons c l =>
        by_cases hc : c = 91
        · subst hc
          obtain ⟨b, r', rfl, hb, hr⟩ := SameLetters.cons_iff.1 h1
          obtain rfl := noLetter_eq (b := 91) rfl b hb.symm
          exact .inr (.inl ⟨_, _, rfl, rfl⟩)
        · obtain ⟨r', hr'⟩ := h.2 c l r hc hl (by simp)
          refine .inr (.inr ⟨c :: l, r, r', rfl, ?_, hl⟩)
          simpa using hr'
  · exact CI.map CIs.ci (fun _ _ e => congrArg ContinueEither.basic e) _ _ h1

omit q in
theorem toReq_fold {a b : ContinueEither} {r s : ContinueReq} (h : fold a = fold b) (ha : a.toReq = some r) (hb : b.toReq = some s) :
    fold r = fold s := by
  have key : ∀ (c : Option Code) (t : Bytes) (r : ContinueReq), ContinueReq.ofBasic c t = some r → r = .basic c t := by
    intro c t r h
    unfold ContinueReq.ofBasic at h
    split at h
    · cases h
    · split at h
      · cases h
      · exact (Option.some.inj h).symm
  cases a <;> cases b <;> simp only [ContinueEither.toReq] at ha hb
  · cases h; cases ha; cases hb; rfl
  · cases h
  · cases h
  · obtain rfl := key _ _ _ ha
    obtain rfl := key _ _ _ hb
    have h' := ContinueEither.basic.inj h
    simp only [fold_prod, Prod.mk.injEq] at h'
    simp [h'.1, h'.2]

theorem continueReq_same {x y : Bytes} (h : SameResponse x y) : CRes (continueReq x) (continueReq y) := by
  have := continueInner_same h
  unfold continueReq mapRes
  cases e1 : continueInner x <;> cases e2 : continueInner y <;> rw [e1, e2] at this <;> simp only [CRes] at this ⊢ <;>
    first | trivial | exact this | skip
  obtain ⟨r, hr⟩ := Option.isSome_iff_exists.1 (continueInner_toReq e1)
  obtain ⟨s, hs⟩ := Option.isSome_iff_exists.1 (continueInner_toReq e2)
  rw [hr, hs]
  exact ⟨this.1, toReq_fold this.2 hr hs⟩

omit q in
theorem CRes.map {α β : Type} [Fold α] [Fold β] {p p' : P α} {f : α → β} {x y : Bytes} (h : CRes (p x) (p' y))
    (hf : ∀ a b, fold a = fold b → fold (f a) = fold (f b)) : CRes ((f <$> p) x) ((f <$> p') y) := by
  rw [P.map_apply, P.map_apply]
  exact CRes.andThen h fun _ _ e => CI.pure (hf _ _ e)

theorem response_same {x y : Bytes} (h : SameResponse x y) : CRes (response x) (response y) := by
  have h1 : CRes (alt [.continue_ <$> continueReq, responseData, .status <$> responseDone] x)
      (alt [.continue_ <$> continueReq, responseData, .status <$> responseDone] y) := by
    refine CRes.orElse (CRes.map (continueReq_same h) fun _ _ e => by simp [e]) (CRes.orElse (CIs.ci _ _ h.1) (CRes.orElse ?_ trivial))
    exact CI.map CIs.ci (fun _ _ e => by simp [e]) _ _ h.1
  unfold response
  split
  · exact CRes.orElse (CI.map CIs.ci (fun _ _ e => by simp [e]) _ _ h.1) h1
  · exact h1

omit q in
theorem CRes.plain {α : Type} [Fold α] {r s : Res α} (h : CRes r s) : SameOutcome (outcomePlain r) (outcomePlain s) := by
  cases r <;> cases s <;> simp only [CRes] at h <;> first | exact h.elim | exact h | trivial

omit q in
theorem CRes.response {α : Type} [Fold α] {r s : Res α} (h : CRes r s) : SameOutcome (outcomeResponse r) (outcomeResponse s) := by
  cases r <;> cases s <;> simp only [CRes] at h <;> first | exact h.elim | exact h | trivial | skip
  subst h
  next k => cases k <;> first | trivial | exact ⟨rfl, rfl, rfl⟩

/-! ### Words in responses -/

/-- The keywords that untagged responses begin with. -/
def responseKeywords : List Bytes :=
  [b!"OK ", b!"NO ", b!"BAD ", b!"BYE ", b!"FLAGS ", b!"LIST ", b!"LSUB ", b!"SEARCH", b!"SORT", b!"THREAD", b!"STATUS ", b!"METADATA",
    b!"NAMESPACE ", b!"QUOTAROOT ", b!"QUOTA ", b!"VANISHED", b!"CAPABILITY ", b!"ENABLED", b!"ID "]

/-- Starts with a letter. -/
def startsLetter : Bytes → Bool
  | c :: _ => !noLetter c
  | [] => false

omit q in
theorem noDigit {w N : Bytes} (h : startsLetter N = true) (hw : SameLetters w N) (r : Bytes) : takeWhile1 isDigit (w ++ r) = .error := by
  cases N with
  | nil => cases h
  | cons n N =>
    obtain ⟨b, w, rfl, hb, hw⟩ := SameLetters.cons_iff.1 (Eq.symm hw)
    have key : ∀ b : UInt8, isDigit b = true → noLetter b = true := forall_byte (by decide)
    have : isDigit b = false := by
      cases hd : isDigit b with
      | false => rfl
      | true =>
        have h1 := key b hd
        obtain rfl := noLetter_eq h1 n hb
        simp [startsLetter, h1] at h
    simp [takeWhile1, this]

omit q in
theorem Ex.number {N : Bytes} (h : startsLetter N = true) : Ex N number := fun w w' r hw hw' => by
  simp only [Imap.number, Imap.mapRes, noDigit h hw, noDigit h hw']

omit q in
theorem Ex.nzNumber {N : Bytes} (h : startsLetter N = true) : Ex N nzNumber := Ex.mapRes (Ex.number h)

/-- Splits the proof that a parser does not depend on the letter case of a word along its structure. -/
local macro "ex" : tactic => `(tactic| repeat' (with_reducible first
  | exact Ex.alt_nil | refine Ex.alt_cons ?_ ?_ | refine Ex.gate ?_ | refine Ex.value ?_ | refine Ex.map ?_
  | (refine Ex.tagNC ?_; first | assumption | skip) | exact Ex.number (by assumption) | exact Ex.nzNumber (by assumption) | refine Ex.bind ?_))

theorem inner_ex {N : Bytes} (h : responseKeywords.all (notProper · N) = true) (hl : startsLetter N = true) :
    Ex N responseDataInner ∧ Ex N respCondBye ∧ Ex N respCondState := by
  simp only [responseKeywords, List.all_cons, List.all_nil, Bool.and_true, Bool.and_eq_true] at h
  obtain ⟨h1, h2, h3, h4, h5, h6, h7, h8, h9, h10, h11, h12, h13, h14, h15, h16, h17, h18, h19⟩ := h
  have hs : Ex N respCondState := by
    unfold respCondState condStateKind
    ex
  have hb : Ex N respCondBye := by
    unfold respCondBye
    ex
  refine ⟨?_, hb, hs⟩
  unfold responseDataInner mailboxData searchData sortData threadData statusData metadataResp namespaceResponse quotarootResponse quotaResponse
    messageData vanishedData capabilityData enableData idResponse
  ex
  · exact hs
  · exact hb

omit q in
theorem responseNames_ok : ∀ N ∈ responseNames, responseKeywords.all (notProper · N) = true ∧ startsLetter N = true := by decide

/-- What is parsed after `* `. -/
def afterStar : P Response :=
  alt [do let r ← responseDataInner; crlf; return r,
    .status <$> (do let x ← respCondBye; crlf; return .bye x.1 x.2)]

theorem response_star (z : Bytes) : response (42 :: 32 :: z) = afterStar z := by
  have h1 : emptyContinueReq (42 :: 32 :: z) = .error := rfl
  have h2 : continueReq (42 :: 32 :: z) = .error := rfl
  have h3 : responseTagged (42 :: 32 :: z) = .error := rfl
  have h4 : responseData (42 :: 32 :: z) = (do let r ← responseDataInner; crlf; return r : P Response) z := rfl
  have h5 : responseFatal (42 :: 32 :: z) = (do let x ← respCondBye; crlf; return .bye x.1 x.2 : P Status) z := rfl
  unfold response
  split <;> simp only [List.cons_append, List.nil_append, alt, orElse, P.map_apply, responseDone, h1, h2, h3, h4, h5, afterStar,
    Res.andThen_error] <;>
  · generalize (do let r ← responseDataInner; crlf; return r : P Response) z = a
    generalize (do let x ← respCondBye; crlf; return .bye x.1 x.2 : P Status) z = b
    cases a <;> cases b <;> rfl

theorem tagged_cases {α : Type} (f : Bytes → P α) {t : Bytes} (ht : 32 ∉ t) : (∀ z, (do let t ← tagImap; sp; f t : P α) (t ++ 32 :: z) = .error) ∨
    ∀ z, (do let t ← tagImap; sp; f t : P α) (t ++ 32 :: z) = f t z := by
  have split : ∀ t : Bytes, 32 ∉ t → t.all isTagChar = true ∨ ∃ a c b, t = a ++ c :: b ∧ a.all isTagChar = true ∧ isTagChar c = false ∧ c ≠ 32 := by
    intro t
    induction t with
    | nil => intro _; exact .inl rfl
    | cons c t ih =>
      intro h
      simp only [List.mem_cons, not_or] at h
      cases hc : isTagChar c with
      | false => exact .inr ⟨[], c, t, rfl, rfl, hc, fun e => h.1 e.symm⟩
      | true =>
        rcases ih h.2 with h | ⟨a, d, b, rfl, h1, h2⟩
        · exact .inl (by simp [hc, h])
        · exact .inr ⟨c :: a, d, b, rfl, by simp [hc, h1], h2⟩
  rcases split t ht with h | ⟨a, c, b, rfl, h1, h2, h3⟩
  · cases t with
    | nil => exact .inl fun z => by simp [tagImap, takeWhile1, show isTagChar 32 = false from rfl]
    | cons d t =>
      refine .inr fun z => ?_
      unfold tagImap
      rw [P.bind_apply, takeWhile1_append (by simp) h (by simp [Stops, show isTagChar 32 = false from rfl])]
      rfl
  · refine .inl fun z => ?_
    unfold tagImap
    rw [List.append_assoc, P.bind_apply]
    cases a with
    | nil => simp [takeWhile1, h2]
    | cons d a =>
      rw [takeWhile1_append (by simp) h1 (by simp [Stops, h2])]
      simp [sp, char, h3]

omit q in
theorem tag_first {c k : UInt8} {K x : Bytes} (h : k ≠ c) : tag (k :: K) (c :: x) = .error := by
  simp [tag, h]

/-- Before a space that is not the first of the message after a star or a plus, the message is a tagged status. -/
theorem response_tag {t : Bytes} (h1 : 43 ∉ t) (h2 : t ≠ b!"*") (h3 : 32 ∉ t) (z : Bytes) :
    response (t ++ 32 :: z) = (.status <$> responseTagged : P Response) (t ++ 32 :: z) := by
  have hp : ∃ c x, t ++ 32 :: z = c :: x ∧ c ≠ 43 := by
    cases t with
    | nil => exact ⟨32, z, rfl, by decide⟩
    | cons c t => exact ⟨c, _, rfl, fun e => h1 (by simp [e])⟩
  have hs : tag b!"* " (t ++ 32 :: z) = .error := by
    cases t with
    | nil => exact tag_first (by decide)
    | cons c t =>
      by_cases hc : c = 42
      · subst hc
        cases t with
        | nil => exact absurd rfl h2
        | cons d t =>
          simp only [List.mem_cons, not_or] at h3
          simp [tag, h3.2.1]
      · exact tag_first (Ne.symm hc)
  obtain ⟨c, x, hx, hc⟩ := hp
  have e1 : emptyContinueReq (t ++ 32 :: z) = .error := by
    rw [hx]; unfold emptyContinueReq; rw [P.bind_apply, tag_first (Ne.symm hc)]; rfl
  have e2 : continueReq (t ++ 32 :: z) = .error := by
    rw [hx]; unfold continueReq continueInner mapRes; rw [P.bind_apply, tag_first (Ne.symm hc)]; rfl
  have e3 : responseData (t ++ 32 :: z) = .error := by
    unfold responseData; rw [P.bind_apply, hs]; rfl
  have e4 : responseFatal (t ++ 32 :: z) = .error := by
    unfold responseFatal; rw [P.bind_apply, hs]; rfl
  unfold response
  split <;> simp only [List.cons_append, List.nil_append, alt, orElse, P.map_apply, responseDone, e1, e2, e3, e4, Res.andThen_error] <;>
    cases responseTagged (t ++ 32 :: z) <;> rfl

/-! ### Words after a number -/

section Numbered
variable {α β : Type}

/-- The result of the parser does not depend on the letter case of the word after a number. -/
def ExN (ds N : Bytes) (p : P α) : Prop :=
  ∀ w w' r, SameLetters w N → SameLetters w' N → p (ds ++ 32 :: (w ++ r)) = p (ds ++ 32 :: (w' ++ r))

omit q in
theorem ExN.bind {ds N : Bytes} {p : P α} {f : α → P β} (h : ExN ds N p) : ExN ds N (p >>= f) := fun w w' r hw hw' => by
  simp only [P.bind_apply, h w w' r hw hw']

omit q in
theorem ExN.map {ds N : Bytes} {p : P α} {f : α → β} (h : ExN ds N p) : ExN ds N (f <$> p) := fun w w' r hw hw' => by
  simp only [P.map_apply, h w w' r hw hw']

omit q in
theorem ExN.gate {ds N : Bytes} {b : Bool} {p : P α} (h : ExN ds N p) : ExN ds N (gate b p) := fun w w' r hw hw' => by
  simp only [Imap.gate, h w w' r hw hw']

omit q in
theorem ExN.value {ds N : Bytes} {p : P α} {v : β} (h : ExN ds N p) : ExN ds N (value v p) := h.bind

omit q in
theorem ExN.alt_nil {ds N : Bytes} : ExN ds N (alt [] : P α) := fun _ _ _ _ _ => rfl

omit q in
theorem ExN.alt_cons {ds N : Bytes} {p : P α} {ps : List (P α)} (h : ExN ds N p) (h' : ExN ds N (alt ps)) : ExN ds N (alt (p :: ps)) :=
  fun w w' r hw hw' => by
    simp only [Imap.alt, Imap.orElse] at h' ⊢
    rw [h w w' r hw hw', h' w w' r hw hw']

omit q in
theorem ExN.tagNC {ds N K : Bytes} (hd : ds.all isDigit = true) (hne : ds ≠ []) (hK : startsLetter K = true) : ExN ds N (tagNC K) :=
  fun w w' r _ _ => by
    have key : ∀ z, Imap.tagNC K (ds ++ z) = .error := by
      intro z
      cases ds with
      | nil => exact absurd rfl hne
      | cons d ds =>
        cases K with
        | nil => cases hK
        | cons k K =>
          simp only [List.all_cons, Bool.and_eq_true] at hd
          have h1 : ∀ b : UInt8, isDigit b = true → noLetter b = true := forall_byte (by decide)
          have h2 : ¬ lower k = lower d := by
            rw [lower_eq_small, lower_eq_small]
            intro e
            obtain rfl := noLetter_eq (h1 d hd.1) k e
            simp [startsLetter, h1 k hd.1] at hK
          simp [Imap.tagNC, h2]
    rw [key, key]

omit q in
theorem ExN.number {ds N : Bytes} (hd : ds.all isDigit = true) (hne : ds ≠ []) {f : Nat → P β} (h : ∀ n, Ex (32 :: N) (f n)) :
    ExN ds N (Imap.number >>= f) := fun w w' r hw hw' => by
  have key : ∀ z, takeWhile1 isDigit (ds ++ 32 :: z) = .ok (32 :: z) ds := fun z =>
    takeWhile1_append hne hd (by simp [Stops, show isDigit 32 = false from rfl])
  simp only [P.bind_apply, Imap.number, Imap.mapRes, key]
  split
  · next e =>
    split at e <;> cases e
    exact h _ (32 :: w) (32 :: w') r (fold_cons rfl hw) (fold_cons rfl hw')
  all_goals rfl

omit q in
theorem ExN.nzNumber {ds N : Bytes} (hd : ds.all isDigit = true) (hne : ds ≠ []) {f : Nat → P β} (h : ∀ n, Ex (32 :: N) (f n)) :
    ExN ds N (Imap.nzNumber >>= f) := fun w w' r hw hw' => by
  have key : ∀ z, takeWhile1 isDigit (ds ++ 32 :: z) = .ok (32 :: z) ds := fun z =>
    takeWhile1_append hne hd (by simp [Stops, show isDigit 32 = false from rfl])
  simp only [P.bind_apply, Imap.nzNumber, Imap.number, Imap.mapRes, key]
  by_cases h1 : decVal ds < 4294967296
  · by_cases h2 : decVal ds = 0
    · simp [h1, h2]
    · simp only [h1, h2, if_true, if_false, Res.andThen_ok]
      exact h _ (32 :: w) (32 :: w') r (fold_cons rfl hw) (fold_cons rfl hw')
  · simp [h1]

end Numbered

local macro "exn" : tactic => `(tactic| repeat' (with_reducible first
  | exact ExN.alt_nil | refine ExN.alt_cons ?_ ?_ | refine ExN.gate ?_ | refine ExN.value ?_ | refine ExN.map ?_
  | exact ExN.tagNC (by assumption) (by assumption) rfl | refine ExN.number (by assumption) (by assumption) fun _ => ?_
  | refine ExN.nzNumber (by assumption) (by assumption) fun _ => ?_ | refine ExN.bind ?_))

theorem inner_exN {ds N : Bytes} (hd : ds.all isDigit = true) (hne : ds ≠ []) (h1 : notProper b!" EXISTS" (32 :: N) = true)
    (h2 : notProper b!" RECENT" (32 :: N) = true) (h3 : notProper b!"EXPUNGE" N = true) (h4 : notProper b!"FETCH " N = true) :
    ExN ds N responseDataInner ∧ ExN ds N respCondBye := by
  refine ⟨?_, ?_⟩
  · unfold responseDataInner respCondState condStateKind respCondBye mailboxData searchData sortData threadData statusData metadataResp
      namespaceResponse quotarootResponse quotaResponse messageData vanishedData capabilityData enableData idResponse
    exn
    · exact Ex.bind (Ex.tagNC h1)
    · exact Ex.bind (Ex.tagNC h2)
    · refine Ex.sp_hit ?_
      unfold messageDataTail
      ex
  · unfold respCondBye
    exn

/-! ### C44 -/

/-- C44: the keyword of an untagged response can be written in any letter case, with exactly the same result. -/
theorem C44_name (N : Bytes) (hN : N ∈ responseNames) (w w' : Bytes) (hw : SameLetters w N) (hw' : SameLetters w' N) (rest : Bytes) :
    Codec.response.decode (b!"* " ++ w ++ rest) = Codec.response.decode (b!"* " ++ w' ++ rest) := by
  obtain ⟨h1, h2⟩ := responseNames_ok N hN
  obtain ⟨h3, h4, -⟩ := inner_ex h1 h2
  show outcomeResponse (response _) = outcomeResponse (response _)
  simp only [List.append_assoc, List.cons_append, List.nil_append, response_star]
  congr 1
  exact (Ex.alt_cons (Ex.bind h3) (Ex.alt_cons (Ex.map (Ex.bind h4)) Ex.alt_nil)) w w' rest hw hw'

/-- C44: the keyword of an untagged response with a number can be written in any letter case, with exactly the same result. -/
theorem C44_numbered (N : Bytes) (hN : N ∈ [b!"EXISTS", b!"RECENT", b!"EXPUNGE", b!"FETCH"]) (w w' : Bytes) (hw : SameLetters w N)
    (hw' : SameLetters w' N) (ds rest : Bytes) (hd : ∀ d ∈ ds, d ∈ b!"0123456789") :
    Codec.response.decode (b!"* " ++ ds ++ b!" " ++ w ++ rest) = Codec.response.decode (b!"* " ++ ds ++ b!" " ++ w' ++ rest) := by
  show outcomeResponse (response _) = outcomeResponse (response _)
  simp only [List.append_assoc, List.cons_append, List.nil_append, response_star]
  congr 1
  cases ds with
  | nil =>
    have key : ∀ z, afterStar (32 :: z) = .error := fun z => rfl
    simp only [List.nil_append, key]
  | cons d ds =>
    have hd' : (d :: ds).all isDigit = true := by
      have : ∀ b : UInt8, b ∈ b!"0123456789" → isDigit b = true := forall_byte (by decide)
      exact List.all_eq_true.2 fun b hb => this b (hd b hb)
    have hk : ∀ N ∈ [b!"EXISTS", b!"RECENT", b!"EXPUNGE", b!"FETCH"], notProper b!" EXISTS" (32 :: N) = true ∧
      notProper b!" RECENT" (32 :: N) = true ∧ notProper b!"EXPUNGE" N = true ∧ notProper b!"FETCH " N = true := by decide
    obtain ⟨k1, k2, k3, k4⟩ := hk N hN
    obtain ⟨h3, h4⟩ := inner_exN hd' (by simp) k1 k2 k3 k4
    exact (ExN.alt_cons (ExN.bind h3) (ExN.alt_cons (ExN.map (ExN.bind h4)) ExN.alt_nil)) w w' rest hw hw'

/-- C44: the keyword of a tagged response can be written in any letter case, with exactly the same result. -/
theorem C44_tagged (N : Bytes) (hN : N ∈ [b!"OK", b!"NO", b!"BAD"]) (w w' : Bytes) (hw : SameLetters w N) (hw' : SameLetters w' N)
    (t rest : Bytes) (ht : 32 ∉ t) (hp : 43 ∉ t) :
    Codec.response.decode (t ++ b!" " ++ w ++ rest) = Codec.response.decode (t ++ b!" " ++ w' ++ rest) := by
  have hN' : N ∈ responseNames := by
    have : ∀ N ∈ [b!"OK", b!"NO", b!"BAD"], N ∈ responseNames := by decide
    exact this N hN
  by_cases hs : t = b!"*"
  · subst hs
    exact C44_name N hN' w w' hw hw' rest
  · obtain ⟨h1, h2⟩ := responseNames_ok N hN'
    obtain ⟨-, -, h3⟩ := inner_ex h1 h2
    show outcomeResponse (response _) = outcomeResponse (response _)
    simp only [List.append_assoc, List.cons_append, List.nil_append, response_tag hp hs ht, P.map_apply]
    rcases tagged_cases (fun t => (do let x ← respCondState; crlf; return .tagged t x.1 x.2.1 x.2.2 : P Status)) ht with h | h
    · have h : ∀ z, responseTagged (t ++ 32 :: z) = .error := h
      rw [h, h]
    · have h : ∀ z, responseTagged (t ++ 32 :: z) = (do let x ← respCondState; crlf; return .tagged t x.1 x.2.1 x.2.2 : P Status) z := h
      rw [h, h, Ex.bind h3 w w' rest hw hw']

/-- C44: two greetings that differ in the letter case only give the same result, except for the letter case of the strings in it. -/
theorem C44_greeting (x y : Bytes) (h : SameLetters x y) : SameOutcome (Codec.greeting.decode x) (Codec.greeting.decode y) :=
  CRes.plain (CIs.ci (p := greeting) x y h)

/-- The hypothesis is met by two greetings. -/
example := @C44_greeting Quirks.default b!"* OK [ALERT] Hi\r\n" b!"* ok [Alert] hI\r\n" (by decide)

/-- C44: two responses that differ in the letter case only, outside of base64, give the same result, except for the letter case of the
strings in it. -/
theorem C44_response (x y : Bytes) (h : SameResponse x y) : SameOutcome (Codec.response.decode x) (Codec.response.decode y) :=
  CRes.response (response_same h)

/-- C44 (clients): the end of IDLE can be written in any letter case. -/
theorem C44_idleDone (x y : Bytes) (h : SameLetters x y) : SameOutcome (Codec.idleDone.decode x) (Codec.idleDone.decode y) :=
  CRes.plain (CIs.ci (p := idleDone) x y h)

end Imap

/-! ### Concrete cases -/

namespace Imap.CaseResponseExamples

open Imap Imap.Spec

local instance : Quirks := Quirks.default

/-- C44: mixed case. -/
example : Codec.response.decode (b!"* " ++ b!"nameSpace" ++ b!" NIL NIL NIL\r\n") =
    Codec.response.decode (b!"* " ++ b!"NAMESPACE" ++ b!" NIL NIL NIL\r\n") :=
  C44_name b!"NAMESPACE" (by decide) _ _ (by decide) (by decide) _
example : Codec.response.decode (b!"* " ++ b!"12" ++ b!" " ++ b!"fEtch" ++ b!" (UID 1)\r\n") =
    Codec.response.decode (b!"* " ++ b!"12" ++ b!" " ++ b!"FETCH" ++ b!" (UID 1)\r\n") :=
  C44_numbered b!"FETCH" (by decide) _ _ (by decide) (by decide) _ _ (by decide)
example : Codec.response.decode (b!"A1" ++ b!" " ++ b!"Ok" ++ b!" done\r\n") = Codec.response.decode (b!"A1" ++ b!" " ++ b!"OK" ++ b!" done\r\n") :=
  C44_tagged b!"OK" (by decide) _ _ (by decide) (by decide) _ _ (by decide) (by decide)

/-- Messages other than requests to continue have no restriction. -/
theorem sameResponse_other {x y : Bytes} (h : SameLetters x y) (hx : x.head? ≠ some 43) : SameResponse x y :=
  ⟨h, fun c line rest _ _ e => absurd (by rw [e]; rfl) hx⟩

/-- C44: all keywords, and the subtype keeps its case. -/
example : SameResponse b!"* 1 FETCH (FLAGS (\\Seen Foo) UID 7)\r\n" b!"* 1 fetch (Flags (\\sEEN fOO) uID 7)\r\n" :=
  sameResponse_other (by decide) (by decide)
example : Codec.response.decode b!"* 1 FETCH (FLAGS (\\Seen Foo) UID 7)\r\n" =
      .ok [] (.data (.fetch 1 [.flags [.flag .seen, .flag (.keyword b!"Foo")], .uid 7])) ∧
    Codec.response.decode b!"* 1 fetch (Flags (\\sEEN fOO) uID 7)\r\n" =
      .ok [] (.data (.fetch 1 [.flags [.flag .seen, .flag (.keyword b!"fOO")], .uid 7])) :=
  ⟨by with_unfolding_all rfl, by with_unfolding_all rfl⟩

/-- C44: the letter case of base64 in a request to continue matters. -/
example : Codec.response.decode b!"+ Zm9v\r\n" = .ok [] (.continue_ (.base64 b!"foo")) ∧
    ∃ d, d ≠ b!"foo" ∧ Codec.response.decode b!"+ zM9V\r\n" = .ok [] (.continue_ (.base64 d)) :=
  ⟨by with_unfolding_all rfl, [204, 207, 85], by decide, by with_unfolding_all rfl⟩

/-- C44: a request to continue whose text begins with a response code has no restriction. -/
example : SameResponse b!"+ [ALERT] Hello\r\n" b!"+ [alert] hELLO\r\n" := by
  refine ⟨by decide, fun c line rest hc _ e => ?_⟩
  simp only [List.cons_append, List.nil_append, List.cons.injEq] at e
  exact absurd e.2.2.1.symm hc

/-- C44: greetings. -/
example : Codec.greeting.decode b!"* preauth [Alert] Hi\r\n" = .ok [] ⟨.preAuth, some .alert, b!"Hi"⟩ := by with_unfolding_all rfl

/-- C44: the end of IDLE. -/
example : Codec.idleDone.decode b!"dOnE\r\n" = .ok [] () := by with_unfolding_all rfl

end Imap.CaseResponseExamples
