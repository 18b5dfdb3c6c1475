import Verif.Codec
import Verif.ResponsePost
/-
`NoFail`: parsers that never fail unrecoverably; `Eats`: parsers that consume at least one byte when they succeed.
-/
set_option maxRecDepth 10000

namespace Imap

variable {α β : Type}

/-! ### Parsers that never fail unrecoverably -/

/-- The parser never returns `nom::Err::Failure`. -/
class NoFail (p : P α) : Prop where
  out : ∀ x k, p x ≠ .failure k

namespace NoFail

instance pure (a : α) : NoFail (pure a : P α) := ⟨by simp⟩
instance fail : NoFail (P.fail : P α) := ⟨by simp⟩
instance bind {p : P α} {f : α → P β} [hp : NoFail p] [hf : ∀ v, NoFail (f v)] : NoFail (p >>= f) := ⟨by
  intro x k h
  rcases Res.andThen_eq_failure.1 h with h1 | ⟨i, w, h1, h2⟩
  · exact hp.out _ _ h1
  · exact (hf w).out _ _ h2⟩
instance map {p : P α} {f : α → β} [hp : NoFail p] : NoFail (f <$> p) :=
  NoFail.bind (f := fun v => (Pure.pure (f v) : P β))
instance value {p : P α} {v : β} [hp : NoFail p] : NoFail (value v p) := by unfold Imap.value; infer_instance
instance ite {c : Prop} [Decidable c] {p q : P α} [NoFail p] [NoFail q] : NoFail (if c then p else q) := by
  split <;> infer_instance
instance gate {b : Bool} {p : P α} [h : NoFail p] : NoFail (gate b p) := by
  cases b
  · exact ⟨by simp⟩
  · rw [gate_true]; exact h
instance alt_nil : NoFail (alt ([] : List (P α))) := ⟨by simp⟩
instance alt_cons {p : P α} {ps : List (P α)} [hp : NoFail p] [hs : NoFail (alt ps)] : NoFail (alt (p :: ps)) := ⟨by
  intro x k h
  simp only [Imap.alt_cons, orElse] at h
  cases e : p x <;> rw [e] at h <;> simp at h
  · exact hs.out _ _ h
  · exact hp.out _ _ e⟩
instance opt {p : P α} [hp : NoFail p] : NoFail (opt p) := ⟨by
  intro x k h
  simp only [Imap.opt] at h
  cases e : p x <;> rw [e] at h <;> simp at h
  exact hp.out _ _ e⟩
instance mapRes {p : P α} {f : α → Option β} [hp : NoFail p] : NoFail (mapRes p f) := ⟨by
  intro x k h
  simp only [Imap.mapRes] at h
  cases e : p x <;> rw [e] at h <;> simp at h
  · split at h <;> simp at h
  · exact hp.out _ _ e⟩
instance peek {p : P α} [hp : NoFail p] : NoFail (peek p) := ⟨by
  intro x k h
  simp only [Imap.peek] at h
  rcases Res.andThen_eq_failure.1 h with h1 | ⟨i, w, h1, h2⟩
  · exact hp.out _ _ h1
  · simp at h2⟩
instance recognize {p : P α} [hp : NoFail p] : NoFail (recognize p) := ⟨by
  intro x k h
  simp only [Imap.recognize] at h
  rcases Res.andThen_eq_failure.1 h with h1 | ⟨i, w, h1, h2⟩
  · exact hp.out _ _ h1
  · simp at h2⟩
instance many0 {p : P α} [hp : NoFail p] : NoFail (many0 p) := ⟨by
  intro x
  fun_induction Imap.many0 p x with
  | case1 i r v e hl ih =>
    intro k h
    rcases Res.andThen_eq_failure.1 h with h1 | ⟨i', w, h1, h2⟩
    · exact ih k h1
    · simp at h2
  | case2 => simp
  | case3 => simp
  | case4 => simp
  | case5 i k e => exact absurd e (hp.out _ _)⟩
instance many1 {p : P α} [NoFail p] : NoFail (many1 p) := by unfold Imap.many1; infer_instance
instance sepList1 {s : P Unit} {p : P α} [NoFail s] [NoFail p] : NoFail (sepList1 s p) := by unfold Imap.sepList1; infer_instance
instance char (c : UInt8) : NoFail (char c) := ⟨by
  intro x k
  cases x <;> simp only [Imap.char]
  · simp
  · split <;> simp⟩
instance satisfy (f : UInt8 → Bool) : NoFail (satisfy f) := ⟨by
  intro x k
  cases x <;> simp only [Imap.satisfy]
  · simp
  · split <;> simp⟩
instance tag (t : Bytes) : NoFail (tag t) := ⟨by
  induction t with
  | nil => simp [Imap.tag]
  | cons c t ih =>
    intro x k
    cases x <;> simp only [Imap.tag]
    · simp
    · split
      · exact ih _ _
      · simp⟩
instance tagNC (t : Bytes) : NoFail (tagNC t) := ⟨by
  induction t with
  | nil => simp [Imap.tagNC]
  | cons c t ih =>
    intro x k
    cases x <;> simp only [Imap.tagNC]
    · simp
    · split
      · exact ih _ _
      · simp⟩
instance takeWhile (f : UInt8 → Bool) : NoFail (takeWhile f) := by rw [takeWhile_eq]; infer_instance
instance takeWhile1 (f : UInt8 → Bool) : NoFail (takeWhile1 f) := by rw [takeWhile1_eq]; infer_instance
instance escaped (f : UInt8 → Bool) : NoFail (escaped f) := ⟨by
  intro x
  fun_induction Imap.escaped f x with
  | case4 b c cs h ih =>
    intro k e
    rcases Res.andThen_eq_failure.1 e with h1 | ⟨i, w, h1, h2⟩
    · exact ih _ h1
    · simp at h2
  | case5 b c cs h hb hc ih =>
    intro k e
    rcases Res.andThen_eq_failure.1 e with h1 | ⟨i, w, h1, h2⟩
    · exact ih _ h1
    · simp at h2
  | _ => simp⟩

instance takeUntil (pat : Bytes) : NoFail (takeUntil pat) := ⟨by
  intro x k h
  simp only [Imap.takeUntil] at h
  split at h <;> simp at h⟩
instance sp : NoFail sp := by unfold Imap.sp; infer_instance
instance dquote : NoFail dquote := by unfold Imap.dquote; infer_instance
instance crlf [Quirks] : NoFail crlf := by unfold Imap.crlf; infer_instance

end NoFail

instance : NoFail base64 := by unfold base64; infer_instance
instance : NoFail atom := by unfold atom; infer_instance
instance : NoFail quoted := by unfold quoted; infer_instance
instance : NoFail charset := by unfold charset; infer_instance
instance : NoFail text := by unfold text; infer_instance
instance : NoFail number := by unfold number; infer_instance
instance : NoFail number64 := by unfold number64; infer_instance
instance : NoFail nzNumber := by unfold nzNumber; infer_instance
instance [Quirks] : NoFail capability := by unfold capability; infer_instance
instance [Quirks] : NoFail capabilityData := by unfold capabilityData; infer_instance
instance : NoFail uidRange := by unfold uidRange; infer_instance
instance : NoFail uidSet := by unfold uidSet; infer_instance
instance : NoFail metadataCode := by unfold metadataCode; infer_instance
instance : NoFail charsetList := by unfold charsetList; infer_instance
instance : NoFail flag := by unfold flag; infer_instance
instance : NoFail flagPerm := by unfold flagPerm; infer_instance
instance : NoFail flagPermList := by unfold flagPermList; infer_instance
instance : NoFail respCodeApnd := by unfold respCodeApnd; infer_instance
instance : NoFail respCodeCopy := by unfold respCodeCopy; infer_instance
instance : NoFail modSequenceValue := by unfold modSequenceValue; infer_instance
instance : NoFail seqNumber := by unfold seqNumber; infer_instance
instance : NoFail seqRange := by unfold seqRange; infer_instance
instance : NoFail sequenceSet := by unfold sequenceSet; infer_instance

variable [Quirks]

set_option synthInstance.maxSize 2000 in
set_option synthInstance.maxHeartbeats 400000 in
instance : NoFail respTextCode := by unfold respTextCode; infer_instance
instance : NoFail codeKnown := by unfold codeKnown; infer_instance
instance : NoFail codeOther := by unfold codeOther; infer_instance
instance : NoFail textAfterCode := by unfold textAfterCode; infer_instance
instance : NoFail respTextCoded := by unfold respTextCoded; infer_instance
instance : NoFail respTextPlain := by unfold respTextPlain; infer_instance
instance : NoFail respText := by unfold respText; infer_instance
instance : NoFail condAuthKind := by unfold condAuthKind; infer_instance
instance : NoFail respCondAuth := by unfold respCondAuth; infer_instance
instance : NoFail respCondBye := by unfold respCondBye; infer_instance
instance : NoFail greeting := by unfold greeting; infer_instance
instance : NoFail authenticateData := by unfold authenticateData; infer_instance
instance : NoFail idleDone := by unfold idleDone; infer_instance

/-! ### Parsers that consume something -/

/-- If the parser succeeds, it has consumed at least one byte. -/
class Eats (p : P α) : Prop where
  out : ∀ x r v, p x = .ok r v → r.length < x.length

omit [Quirks] in
theorem Eats.tag {c : UInt8} {t : Bytes} : Eats (tag (c :: t)) := ⟨by
  intro x r v h
  obtain rfl := exists_of_tag h
  simp; omega⟩

omit [Quirks] in
theorem Eats.tagNC {c : UInt8} {t : Bytes} : Eats (tagNC (c :: t)) := ⟨by
  intro x r v h
  cases x with
  | nil => simp [Imap.tagNC] at h
  | cons b bs =>
    simp only [Imap.tagNC] at h
    have : Quirks := Quirks.default
    split at h
    · have := (Nice.tagNC t).len h
      simp; omega
    · simp at h⟩

omit [Quirks] in
theorem Eats.takeWhile1 {f : UInt8 → Bool} : Eats (takeWhile1 f) := ⟨by
  intro x r v h
  cases x with
  | nil => simp [Imap.takeWhile1] at h
  | cons b bs =>
    simp only [Imap.takeWhile1] at h
    have : Quirks := Quirks.default
    split at h
    · simp only [Imap.takeWhile] at h
      next hb =>
      simp only [hb, if_true] at h
      obtain ⟨i, w, h1, h2⟩ := Res.andThen_eq_ok.1 h
      have := (Nice.takeWhile f).len h1
      simp at h2
      obtain ⟨rfl, _⟩ := h2
      simp; omega
    · simp at h⟩

theorem Eats.crlf : Eats crlf := ⟨by
  intro x r v h
  unfold Imap.crlf at h
  split at h
  · obtain ⟨i, w, h1, h2⟩ := Res.andThen_eq_ok.1 h
    have := (Nice.opt (Nice.char 13)).len h1
    cases i with
    | nil => simp [char] at h2
    | cons b bs =>
      simp only [char] at h2
      split at h2 <;> simp at h2
      subst h2
      simp at this; omega
  · exact Eats.tag.out _ _ _ h⟩

theorem Eats.left {p : P α} {f : α → P β} (hp : Eats p) [hf : ∀ v, Nice (f v)] : Eats (p >>= f) := ⟨by
  intro x r v h
  obtain ⟨i, w, h1, h2⟩ := Res.andThen_eq_ok.1 h
  have := hp.out _ _ _ h1
  have := (hf w).len h2
  omega⟩

theorem Eats.right {p : P α} {f : α → P β} [hp : Nice p] (hf : ∀ v, Eats (f v)) : Eats (p >>= f) := ⟨by
  intro x r v h
  obtain ⟨i, w, h1, h2⟩ := Res.andThen_eq_ok.1 h
  have := hp.len h1
  have := (hf w).out _ _ _ h2
  omega⟩

omit [Quirks] in
theorem Eats.map {p : P α} {f : α → β} (hp : Eats p) : Eats (f <$> p) := ⟨by
  intro x r v h
  obtain ⟨i, w, h1, h2⟩ := Res.andThen_eq_ok.1 h
  simp at h2
  exact h2.1 ▸ hp.out _ _ _ h1⟩

omit [Quirks] in
theorem Eats.value {p : P α} {v : β} (hp : Eats p) : Eats (value v p) := Eats.map hp

omit [Quirks] in
theorem Eats.mapRes {p : P α} {f : α → Option β} (hp : Eats p) : Eats (mapRes p f) := ⟨by
  intro x r v h
  simp only [Imap.mapRes] at h
  cases e : p x <;> rw [e] at h <;> simp at h
  split at h <;> simp at h
  exact h.1 ▸ hp.out _ _ _ e⟩

omit [Quirks] in
theorem Eats.alt_nil : Eats (alt ([] : List (P α))) := ⟨by simp⟩

omit [Quirks] in
theorem Eats.alt_cons {p : P α} {ps : List (P α)} (hp : Eats p) (hs : Eats (alt ps)) : Eats (alt (p :: ps)) := ⟨by
  intro x r v h
  simp only [Imap.alt_cons, orElse] at h
  cases e : p x <;> rw [e] at h <;> simp at h
  · exact h.1 ▸ hp.out _ _ _ e
  · exact hs.out _ _ _ h⟩

theorem eats_greeting : Eats greeting := Eats.left Eats.tag

theorem eats_authenticateData : Eats authenticateData :=
  Eats.alt_cons (Eats.map (Eats.right fun _ => Eats.left Eats.crlf)) (Eats.alt_cons (Eats.value (Eats.left Eats.tag)) Eats.alt_nil)

theorem eats_idleDone : Eats idleDone := Eats.value (Eats.left Eats.tagNC)

theorem eats_response : Eats response := by
  have h1 : Eats continueReq := Eats.mapRes (Eats.left Eats.tag)
  have h2 : Eats responseData := Eats.left Eats.tag
  have h3 : Eats responseDone := Eats.alt_cons (Eats.left Eats.takeWhile1) (Eats.alt_cons (Eats.left Eats.tag) Eats.alt_nil)
  have h4 : Eats emptyContinueReq := Eats.left Eats.tag
  have h5 := Eats.alt_cons (h1.map (f := Response.continue_)) (Eats.alt_cons h2 (Eats.alt_cons (h3.map (f := Response.status)) Eats.alt_nil))
  unfold response
  split
  · exact Eats.alt_cons h4.map h5
  · exact h5

end Imap
