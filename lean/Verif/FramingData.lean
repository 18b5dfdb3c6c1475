import Verif.FramingCommand
import Verif.BodyLemmas
import Verif.Response
/-
Framing of all the parsers of data responses.
-/
set_option maxRecDepth 10000

namespace Imap.Frame

open Frag Spec

variable {α β : Type} {a b : Quote} {p : P α}

theorem Fr.many2 (hp : Fr a a p) : Fr a a (Imap.many2 p) := by
  have hm := Fr.many0 hp
  constructor
  · intro s x r v hs h
    simp only [Imap.many2] at h
    split at h
    · next e =>
      split at h <;> simp at h
      obtain ⟨rfl, rfl⟩ := h
      exact hm.ok hs e
    · exact hm.ok hs h
  · intro s x hs h
    simp only [Imap.many2] at h
    split at h
    · split at h <;> simp at h
    · exact hm.inc hs h
  · intro s x t n m hs h
    simp only [Imap.many2] at h
    split at h
    · split at h <;> simp at h
    · exact hm.lit hs h

/-- Two parsers that agree on the input are framed together. -/
theorem Tri.of_agree {A : St → Bytes → Prop} {B : α → St → Bytes → Prop} (h : ∀ x, ∃ p' : P α, Tri A B p' ∧ p x = p' x) : Tri A B p := by
  constructor
  · intro s x r v hs e
    obtain ⟨p', h', e'⟩ := h x
    exact h'.ok hs (e' ▸ e)
  · intro s x hs e
    obtain ⟨p', h', e'⟩ := h x
    exact h'.inc hs (e' ▸ e)
  · intro s x t n m hs e
    obtain ⟨p', h', e'⟩ := h x
    exact h'.lit hs (e' ▸ e)

theorem tagNC_cons (k : UInt8) (t : Bytes) : tagNC (k :: t) = (tagNC [k] >>= fun _ => tagNC t : P Unit) := by
  funext x
  cases x with
  | nil => rfl
  | cons d x =>
    simp only [tagNC, P.bind_apply]
    split <;> simp

theorem tagNC_append (t u : Bytes) : tagNC (t ++ u) = (tagNC t >>= fun _ => tagNC u : P Unit) := by
  induction t with
  | nil => rfl
  | cons k t ih =>
    rw [List.cons_append, tagNC_cons, ih, tagNC_cons k t]
    funext x
    simp only [P.bind_apply]
    cases tagNC [k] x <;> simp [Res.andThen]

theorem fr_tagNC_close {t : Bytes} (ht : t.all (Calm .out) = true) : Fr .within .out (tagNC (34 :: t)) := by
  rw [tagNC_quote]
  exact Fr.bind Fr.closeQuote fun _ => Fr.tagNC ht

theorem fr_tagNC_quoted {t u : Bytes} (ht : t.all (Calm .within) = true) (hu : u.all (Calm .out) = true) :
    Fr .out .out (tagNC (34 :: (t ++ 34 :: u))) := by
  rw [tagNC_quote, tagNC_append]
  exact Fr.bind Fr.openQuote fun _ => Fr.bind (Fr.tagNC ht) fun _ => fr_tagNC_close hu

theorem fr_quotedChar : Fr .within .within quotedChar := by
  have k : ∀ d : UInt8, isAnyTextCharExceptQuotedSpecials d = true → Calm .within d = true := forall_byte (by decide)
  unfold quotedChar
  refine Fr.alt_cons (Fr.satisfy k) (Fr.alt_cons ?_ Fr.alt_nil)
  constructor
  · intro s x r v hs h
    rcases x with _ | ⟨d, _ | ⟨e, x⟩⟩
    · simp [tag, Res.andThen] at h
    · simp only [P.bind_apply, tag] at h; split at h <;> simp [satisfy] at h
    · simp only [P.bind_apply, tag] at h
      split at h <;> simp [satisfy] at h
      next hd =>
        split at h <;> simp at h
        next hq =>
          obtain ⟨rfl, rfl⟩ := h
          subst hd
          exact ⟨[92, e], rfl, within_esc _ hs hq⟩
  · intro s x hs h
    rcases x with _ | ⟨d, _ | ⟨e, x⟩⟩
    · exact Ready.waiting hs
    · simp only [P.bind_apply, tag] at h; split at h <;> simp [satisfy] at h
      next hd =>
        subst hd
        exact within_esc_wait hs
    · simp only [P.bind_apply, tag] at h
      split at h <;> simp [satisfy] at h
      split at h <;> simp at h
  · intro s x t n m hs h
    rcases x with _ | ⟨d, _ | ⟨e, x⟩⟩
    · simp [tag, Res.andThen] at h
    · simp only [P.bind_apply, tag] at h; split at h <;> simp [satisfy] at h
    · simp only [P.bind_apply, tag] at h
      split at h <;> simp [satisfy] at h
      split at h <;> simp at h

instance : Framed delimiter := ⟨by
  unfold delimiter
  refine Fr.alt_cons (Fr.mapf ?_) (Fr.alt_cons (Fr.value Framed.use) Fr.alt_nil)
  exact Fr.bind Fr.openQuote fun _ => Fr.bind fr_quotedChar fun _ => Fr.bind Fr.closeQuote fun _ => Fr.pure⟩

section
variable [Q : Quirks]

/-! ### Bodies -/

instance : Framed addressParen := ⟨by unfold addressParen; framed⟩
instance : Framed address := ⟨by unfold address; framed⟩
instance : Framed envAddresses := ⟨by unfold envAddresses; framed⟩
instance : Framed envelope := ⟨by unfold envelope; framed⟩

theorem fr_bodyExtension (n : Nat) : Fr .out .out (bodyExtension n) := by
  induction n with
  | zero => exact Fr.failure (by simp)
  | succ n ih => unfold bodyExtension; framed

instance (n : Nat) : Framed (bodyExtension n) := ⟨fr_bodyExtension n⟩
instance : Framed fldParam := ⟨by unfold fldParam; framed⟩
instance : Framed bodyFldParam := ⟨by unfold bodyFldParam; framed⟩
instance : Framed bodyFldEnc := ⟨by unfold bodyFldEnc; framed⟩
instance : Framed bodyFldOctets := ⟨by unfold bodyFldOctets; framed⟩
instance : Framed bodyFldDsp := ⟨by unfold bodyFldDsp; framed⟩
instance : Framed bodyFldLang := ⟨by unfold bodyFldLang; framed⟩
instance : Framed extLocation := ⟨by unfold extLocation; framed⟩
instance : Framed extLanguage := ⟨by unfold extLanguage; framed⟩
instance : Framed extDisposition := ⟨by unfold extDisposition; framed⟩
instance : Framed bodyExt1part := ⟨by unfold bodyExt1part; framed⟩
instance : Framed bodyExtMpart := ⟨by unfold bodyExtMpart; framed⟩
instance : Framed bodyFields := ⟨by unfold bodyFields; framed⟩
instance {B : Type} : Framed (bodyTypeBasic (B := B)) := ⟨by unfold bodyTypeBasic; framed⟩

instance {B : Type} : Framed (bodyTypeText (B := B)) := ⟨by
  have h : Fr .out .out (tagNC b!"\"TEXT\" ") := fr_tagNC_quoted (t := b!"TEXT") (u := b!" ") (by decide) (by decide)
  unfold bodyTypeText
  framed⟩

theorem fr_bodyTypeMsg {B : Type} {body : P B} (hb : Fr .out .out body) : Fr .out .out (bodyTypeMsg body) := by
  have h : Fr .out .out (tagNC b!"\"MESSAGE\" \"RFC822\"") := by
    rw [show b!"\"MESSAGE\" \"RFC822\"" = b!"\"MESSAGE\" " ++ b!"\"RFC822\"" from rfl, tagNC_append]
    exact Fr.bind (fr_tagNC_quoted (t := b!"MESSAGE") (u := b!" ") (by decide) (by decide)) fun _ =>
      fr_tagNC_quoted (t := b!"RFC822") (u := b!"") (by decide) (by decide)
  unfold bodyTypeMsg
  framed

theorem fr_bodyStep (n : Nat) {m p : P BodyStructure} (hm : Fr .out .out m) (hp : Fr .out .out p) : Fr .out .out (bodyStep n m p) := by
  have h1 := fr_bodyTypeMsg hm
  have hf : Fr .out .out (fun _ => .failure .recursionLimit : P BodyStructure) := Fr.failure (by simp)
  have h2 : Fr .out .out (bodyType1part (n - 1) m) := by unfold bodyType1part; framed
  have h3 : Fr .out .out (bodyTypeMpart (n - 1) p) := by unfold bodyTypeMpart; framed
  unfold bodyStep
  framed

theorem fr_body (n : Nat) : Fr .out .out (body n) := by
  have key : ∀ N n, Fr .out .out (fun x => if x.length < N then body n x else .error) := by
    intro N
    induction N with
    | zero => intro n; exact Tri.of_agree fun x => ⟨P.fail, Fr.failR, by simp [P.fail]⟩
    | succ N ih =>
      intro n
      refine Tri.of_agree fun x => ?_
      by_cases hx : x.length < N + 1
      · refine ⟨_, fr_bodyStep n (ih 7) (ih (n - 1)), ?_⟩
        simp only [hx, if_true]
        rw [body_eq]
        refine bodyStep_congr ?_ ?_ <;> intro z hz <;> rw [if_pos (by omega)]
      · exact ⟨P.fail, Fr.failR, by simp only [hx, if_false]; rfl⟩
  exact Tri.of_agree fun x => ⟨_, key (x.length + 1) n, by simp⟩

instance (n : Nat) : Framed (body n) := ⟨fr_body n⟩

/-! ### Items of FETCH -/

omit Q in
instance : Framed flagFetch := ⟨by
  have hf : Fr .out .out (FlagFetch.flag <$> flag : P FlagFetch) := by framed
  have hr : Fr .out .out (recognize (do char 92; atom)) := by framed
  constructor
  · intro s x r v hs h
    simp only [flagFetch] at h
    split at h
    · next e =>
      split at h
      · simp at h
        obtain ⟨rfl, rfl⟩ := h
        exact hr.ok hs e
      · exact hf.ok hs h
    · exact hf.ok hs h
  · intro s x hs h
    simp only [flagFetch] at h
    split at h
    · split at h
      · simp at h
      · exact hf.inc hs h
    · exact hf.inc hs h
  · intro s x t n m hs h
    simp only [flagFetch] at h
    split at h
    · split at h
      · simp at h
      · exact hf.lit hs h
    · exact hf.lit hs h⟩

omit Q in
instance : Framed flagFetchList := ⟨by unfold flagFetchList; framed⟩
omit Q in
instance : Framed msgAttDynamic := ⟨by unfold msgAttDynamic; framed⟩
instance : Framed msgBodyExt := ⟨by unfold msgBodyExt; framed⟩
instance : Framed msgAttStatic := ⟨by unfold msgAttStatic; framed⟩
instance : Framed msgAtt := ⟨by unfold msgAtt; framed⟩

/-! ### Data responses -/

omit Q in
theorem fr_threadList (n : Nat) : Fr .out .out (threadList n) := by
  induction n with
  | zero => exact Fr.failure (by simp)
  | succ n ih =>
    have h2 := Fr.many2 ih
    unfold threadList
    framed

omit Q in
instance (n : Nat) : Framed (threadList n) := ⟨fr_threadList n⟩
omit Q in
instance : Framed threadData := ⟨by unfold threadData; framed⟩
instance : Framed namespaceExt := ⟨by unfold namespaceExt; framed⟩
instance : Framed namespaceDescr := ⟨by unfold namespaceDescr; framed⟩
instance : Framed namespaces := ⟨by unfold namespaces; framed⟩
instance : Framed quotaSp := ⟨by unfold quotaSp; framed⟩
instance : Framed quotaResource := ⟨by unfold quotaResource; framed⟩
instance : Framed metadataItems := ⟨by unfold metadataItems; framed⟩
omit Q in
instance : Framed mbxListFlags := ⟨by unfold mbxListFlags; framed⟩
instance : Framed mailboxList := ⟨by unfold mailboxList; framed⟩
omit Q in
instance : Framed searchSortModSeq := ⟨by unfold searchSortModSeq; framed⟩
omit Q in
instance : Framed searchNumbers := ⟨by unfold searchNumbers; framed⟩
omit Q in
instance (b : Bool) : Framed (optSpIf b) := ⟨by unfold optSpIf; framed⟩
instance : Framed searchData := ⟨by unfold searchData; framed⟩
omit Q in
instance : Framed sortData := ⟨by unfold sortData; framed⟩
omit Q in
instance : Framed statusAttVal := ⟨by unfold statusAttVal; framed⟩
omit Q in
instance : Framed statusItems := ⟨by unfold statusItems; framed⟩
instance : Framed statusData := ⟨by unfold statusData; framed⟩
instance : Framed metadataResp := ⟨by unfold metadataResp; framed⟩
instance : Framed namespaceResponse := ⟨by unfold namespaceResponse; framed⟩
instance : Framed quotarootResponse := ⟨by unfold quotarootResponse; framed⟩
instance : Framed quotaResponse := ⟨by unfold quotaResponse; framed⟩
instance : Framed mailboxData := ⟨by unfold mailboxData; framed⟩
instance (n : NzU32) : Framed (messageDataTail n) := ⟨by unfold messageDataTail; framed⟩
omit Q in
instance : Framed vanishedData := ⟨by unfold vanishedData; framed⟩
instance : Framed messageData := ⟨by unfold messageData; framed⟩
omit Q in
instance : Framed capability := ⟨by unfold capability; framed⟩
instance : Framed capabilityData := ⟨by unfold capabilityData; framed⟩
omit Q in
instance : Framed enableData := ⟨by unfold enableData; framed⟩
instance : Framed idResponse := ⟨by unfold idResponse; framed⟩

end

end Imap.Frame
