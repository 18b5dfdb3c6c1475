import Verif.QuirksSpec
import Verif.Props.Features
/-
Property C61: quirks are additive. A build with more quirks accepts whatever a build with fewer quirks accepts, with the same rest and the
same message. The only exception is a response code with the text of a capability code and a space, which is an unknown code without the quirk
`trailing_space_capability`.
-/
set_option maxRecDepth 10000

namespace Imap

open Spec (MoreQuirks CodeQuirk GreetingQuirk ResponseQuirk Pointwise EnableKnown CapabilityKnown CodeKnown)
open Imap.Grammar (G choice)

section
variable (q q' : Quirks) [h : MoreQuirks q q']

/-! ### Names -/

theorem enableNames_eq : @Spec.enableNames q = @Spec.enableNames q' := by
  simp only [Spec.enableNames, h.sameCondstoreQresync, h.sameMetadata, h.sameUtf8]

theorem capabilityNames_eq : @Spec.capabilityNames q = @Spec.capabilityNames q' := by
  simp only [Spec.capabilityNames, h.sameCondstoreQresync, h.sameMetadata, h.sameUtf8, h.sameStarttls, h.sameMailboxReferrals,
    h.sameLoginReferrals, h.sameId]

theorem capability_eq : @Grammar.Server.capability q = @Grammar.Server.capability q' := by
  funext w v
  unfold Grammar.Server.capability
  rw [capabilityNames_eq q q']

theorem enableKnown_eq {l l' : List CapabilityEnable} (hl : ∀ c ∈ l, @Spec.CapabilityEnable.Inv q c) (hk : Pointwise (EnableKnown q') l l') : l' = l := by
  induction hk with
  | nil => rfl
  | cons h1 _ ih =>
    rw [ih fun c hc => hl c (by simp [hc])]
    cases h1 with
    | same => rfl
    | @known s c h2 =>
      exfalso
      have h3 := hl _ (List.mem_cons_self ..)
      rw [← enableNames_eq q q'] at h2
      simp only [Spec.CapabilityEnable.Inv, Spec.NotOneOf] at h3
      obtain ⟨h4, h5⟩ := (@mem_enableNames q _).1 h2
      simp only [enableTable, List.mem_cons, List.not_mem_nil, or_false, Prod.mk.injEq] at h4
      rcases h4 with ⟨e, rfl⟩ | ⟨e, rfl⟩ | ⟨e, rfl⟩ | ⟨e, rfl⟩ | ⟨e, rfl⟩
      · exact h3.2.1 h5 (by rw [e]; decide)
      · exact h3.2.2.1 h5 (by rw [e]; decide)
      · exact h3.2.2.1 h5 (by rw [e]; decide)
      · exact h3.2.2.2 h5 (by rw [e]; decide)
      · exact h3.2.2.2 h5 (by rw [e]; decide)

theorem capabilityKnown_eq {L : Spec.Level} {l l' : List Capability} (hl : ∀ c ∈ l, @Spec.Capability.Inv L q c) (hk : Pointwise (CapabilityKnown q') l l') :
    l' = l := by
  induction hk with
  | nil => rfl
  | cons h1 _ ih =>
    rw [ih fun c hc => hl c (by simp [hc])]
    cases h1 with
    | same => rfl
    | @known s c h2 =>
      have h3 := hl _ (List.mem_cons_self ..)
      rw [← capabilityNames_eq q q'] at h2
      have h4 := ((@Gr.capability_iff q _ _).1 (.inl h2)).2
      have h5 : @Capability.ofAtom q s = .other s := h3.2
      rw [h4, h5]

/-! ### Codes -/

/-- Each text of `g'` is a text of `g`, or has the property `R`. -/
def Else {α : Type} (R : Bytes → α → Prop) (g' g : G α) : Prop := ∀ w v, g' w v → (∃ v', g w v') ∨ R w v

omit h in
theorem Else.refl {α : Type} {R : Bytes → α → Prop} (g : G α) : Else R g g := fun _ v hw => .inl ⟨v, hw⟩

theorem Else.cons {α : Type} {R : Bytes → α → Prop} {g g' : G α} {gs gs' : List (G α)} (hg : Else R g' g) (hs : Else R (choice gs') (choice gs)) :
    Else R (choice (g' :: gs')) (choice (g :: gs)) := by
  rintro w v ⟨k, hk, hw⟩
  rcases List.mem_cons.1 hk with rfl | hk
  · rcases hg _ _ hw with ⟨c, hc⟩ | hc
    · exact .inl ⟨c, g, by simp, hc⟩
    · exact .inr hc
  · rcases hs _ _ ⟨k, hk, hw⟩ with ⟨c, k', hk', hc⟩ | hc
    · exact .inl ⟨c, k', by simp [hk'], hc⟩
    · exact .inr hc

/-- A code that is known with more quirks only is a capability code with a space at the end. -/
theorem code_else : Else (fun w c => CodeQuirk q q' (.other w) c) (@Grammar.Server.respTextCode q') (@Grammar.Server.respTextCode q) := by
  unfold Grammar.Server.respTextCode
  refine Else.cons (Else.refl _) (Else.cons (Else.refl _) (Else.cons ?_ ?_))
  · rintro w v ⟨l, ⟨w1, _, _, rfl, h1, w2, w3, _, rfl, h2, h3⟩, rfl⟩
    rw [← capability_eq q q'] at h2
    obtain ⟨w4, w5, _, rfl, h4, rfl, rfl⟩ := h3
    have key : ∀ w4, Grammar.Server.spIf q.trailingSpaceCapability w4 () → @Grammar.Server.capabilityData q (w1 ++ (w2 ++ (w4 ++ []))) l :=
      fun w4 h4 => ⟨w1, _, (), rfl, h1, w2, _, l, rfl, h2, w4, [], (), rfl, h4, rfl, rfl⟩
    cases e' : q'.trailingSpaceCapability with
    | false =>
      rw [e'] at h4
      obtain ⟨rfl, -⟩ := h4
      exact .inl ⟨_, l, key [] (by unfold Grammar.Server.spIf; split; exacts [.inl ⟨rfl, rfl⟩, ⟨rfl, rfl⟩]), rfl⟩
    | true =>
      rw [e'] at h4
      rcases h4 with ⟨rfl, -⟩ | h4
      · exact .inl ⟨_, l, key [] (by unfold Grammar.Server.spIf; split; exacts [.inl ⟨rfl, rfl⟩, ⟨rfl, rfl⟩]), rfl⟩
      · cases e : q.trailingSpaceCapability with
        | true => exact .inl ⟨_, l, key w4 (by rw [e]; exact .inr h4), rfl⟩
        | false =>
          obtain rfl := Gr.symbol_eq (k := b!" ") (by decide) h4
          have := CodeQuirk.capability e e' (key [] (by rw [e]; exact ⟨rfl, rfl⟩))
          refine .inr ?_
          simpa using this
  iterate 11 refine Else.cons (Else.refl _) ?_
  refine Else.cons (by rw [h.sameMetadata]; exact Else.refl _) ?_
  iterate 4 refine Else.cons (Else.refl _) ?_
  exact Else.cons (by rw [h.sameCondstoreQresync]; exact Else.refl _) (Else.refl _)

theorem codeQuirk_of {t : Bytes} {c c' : Code} (hc : @Spec.Code.Inv .rt q t c) (hk : CodeKnown q' c c') : CodeQuirk q q' c c' := by
  cases hk with
  | same => exact .same _
  | capability hl => rw [capabilityKnown_eq q q' hc.2 hl]; exact .same _
  | @known s c hs =>
    rcases code_else q q' _ _ hs with ⟨c0, h0⟩ | h0
    · exfalso
      have h1 := (hc.1 rfl).2
      have h2 := (@Gr.fits_respTextCode q).complete (r := b!"]" ++ (b!" " ++ t ++ b!"\r\n")) h0 ⟨93, _, rfl, by decide⟩
      have h3 := (@Gr.codeKnown_ok q _ _ _).2 h2
      simp only [List.append_assoc, List.cons_append, List.nil_append] at h1 h3
      rw [h1] at h3
      cases h3
    · exact h0

/-! ### Messages -/

/-- C61, for commands. -/
theorem C61_command (x rest : Bytes) (c : Command) (e : @Codec.decode q .command x = .ok rest c) : @Codec.decode q' .command x = .ok rest c := by
  obtain ⟨c', h1, h2⟩ := C57_command q q' _ _ _ e
  cases h2 with
  | same => exact h1
  | enable hl =>
    have h3 : @WellFormed q .command _ := @C10_decoded_well_formed q _ _ _ _ e
    have := enableKnown_eq q q' h3.2.2 hl
    rwa [this] at h1

/-- C61, for the data of AUTHENTICATE. -/
theorem C61_authenticateData (x rest : Bytes) (d : AuthenticateData) (e : @Codec.decode q .authenticateData x = .ok rest d) :
    @Codec.decode q' .authenticateData x = .ok rest d := C57_authenticateData q q' _ _ _ e

/-- C61, for the end of IDLE. -/
theorem C61_idleDone (x rest : Bytes) (d : Unit) (e : @Codec.decode q .idleDone x = .ok rest d) :
    @Codec.decode q' .idleDone x = .ok rest d := C57_idleDone q q' _ _ _ e

/-- C61, for greetings. -/
theorem C61_greeting (x rest : Bytes) (g : Greeting) (e : @Codec.decode q .greeting x = .ok rest g) :
    ∃ g', @Codec.decode q' .greeting x = .ok rest g' ∧ GreetingQuirk q q' g g' := by
  obtain ⟨g', h1, h2⟩ := C57_greeting q q' _ _ _ e
  refine ⟨g', h1, ?_⟩
  cases h2 with
  | same => exact .same _
  | code hc =>
    rcases (@decoded_valid q .greeting _ _ _ e).2 with hs | ⟨_, hk, _⟩
    · exact .code (codeQuirk_of q q' (hs.2.1 _ rfl) hc)
    · cases hk

/-- C61, for responses. -/
theorem C61_response (x rest : Bytes) (r : Response) (e : @Codec.decode q .response x = .ok rest r) :
    ∃ r', @Codec.decode q' .response x = .ok rest r' ∧ ResponseQuirk q q' r r' := by
  obtain ⟨r', h1, h2⟩ := C57_response q q' _ _ _ e
  refine ⟨r', h1, ?_⟩
  have hs := (@decoded_valid q .response _ _ _ e).2
  cases h2 with
  | same => exact .same _
  | capability hl =>
    rcases hs with hs | ⟨_, _, hr, _, hf⟩
    · rw [capabilityKnown_eq q q' hs.2 hl]; exact .same _
    · cases hr; simp [Response.noModSeq, Data.noModSeq] at hf
  | enabled hl =>
    rcases hs with hs | ⟨_, _, hr, _, hf⟩
    · rw [enableKnown_eq q q' hs hl]; exact .same _
    · cases hr; simp [Response.noModSeq, Data.noModSeq] at hf
  | tagged hc =>
    rcases hs with hs | ⟨_, _, hr, _, hf⟩
    · exact .tagged (codeQuirk_of q q' (hs.2.2.1 _ rfl) hc)
    · cases hr; simp [Response.noModSeq] at hf
  | untagged hc =>
    rcases hs with hs | ⟨_, _, hr, _, hf⟩
    · exact .untagged (codeQuirk_of q q' (hs.2.1 _ rfl) hc)
    · cases hr; simp [Response.noModSeq] at hf
  | bye hc =>
    rcases hs with hs | ⟨_, _, hr, _, hf⟩
    · exact .bye (codeQuirk_of q q' (hs.2.1 _ rfl) hc)
    · cases hr; simp [Response.noModSeq] at hf
  | basic hc =>
    rcases hs with hs | ⟨_, _, hr, _, hf⟩
    · exact .basic (codeQuirk_of q q' (hs.1.2.1 _ rfl) hc)
    · cases hr; simp [Response.noModSeq] at hf

/-- C61: without the exception, the messages are the same. -/
theorem C61_same (hq : q'.trailingSpaceCapability = true → q.trailingSpaceCapability = true) (k : Codec) (x rest : Bytes) (m : k.Message)
    (e : @Codec.decode q k x = .ok rest m) : @Codec.decode q' k x = .ok rest m := by
  have hc : ∀ {c c'}, CodeQuirk q q' c c' → c' = c := by
    intro c c' hc
    cases hc with
    | same => rfl
    | capability h1 h2 _ => rw [hq h2] at h1; cases h1
  cases k with
  | greeting =>
    obtain ⟨g', h1, h2⟩ := C61_greeting q q' _ _ _ e
    cases h2 with
    | same => exact h1
    | code h3 => rwa [hc h3] at h1
  | command => exact C61_command q q' _ _ _ e
  | authenticateData => exact C61_authenticateData q q' _ _ _ e
  | response =>
    obtain ⟨g', h1, h2⟩ := C61_response q q' _ _ _ e
    cases h2 with
    | same => exact h1
    | tagged h3 => rwa [hc h3] at h1
    | untagged h3 => rwa [hc h3] at h1
    | bye h3 => rwa [hc h3] at h1
    | basic h3 => rwa [hc h3] at h1
  | idleDone => exact C61_idleDone q q' _ _ _ e

/-- C61: what a build with more quirks rejects for good, the build with fewer quirks never accepts, whatever follows. -/
theorem C61_rejected (k : Codec) (x y rest : Bytes) (m : k.Message) (e : @Codec.decode q' k x = .failed) :
    @Codec.decode q k (x ++ y) ≠ .ok rest m := C57_rejected q q' k x y rest m e

end

/-! ### Non-vacuity -/

/-- All features and no quirks. -/
@[reducible] def Quirks.strict : Quirks where
  crlfRelaxed := false
  idEmptyToNil := false
  missingText := false
  rectifyNumbers := false
  excessiveSpaceQuotaResource := false
  spacesBetweenAddresses := false
  trailingSpaceStatus := false
  trailingSpaceCapability := false
  trailingSpaceId := false
  trailingSpaceSearch := false
  emptyContinueReq := false
  bodyFldEncNilToEmpty := false
  alwaysNormalizeSequenceSets := false
  starttls := true
  extCondstoreQresync := true
  extId := true
  extLoginReferrals := true
  extMailboxReferrals := true
  extMetadata := true
  extNamespace := true
  extUtf8 := true

/-- All features and all quirks. -/
@[reducible] def Quirks.all : Quirks := { Quirks.default with crlfRelaxed := true, idEmptyToNil := true }

instance : Spec.Extends Quirks.strict Quirks.default := by constructor <;> decide
instance : MoreQuirks Quirks.strict Quirks.default := ⟨rfl, rfl, rfl, rfl, rfl, rfl, rfl, rfl⟩
instance : Spec.Extends Quirks.default Quirks.all := by constructor <;> decide
instance : MoreQuirks Quirks.default Quirks.all := ⟨rfl, rfl, rfl, rfl, rfl, rfl, rfl, rfl⟩

/-- C61 without the exception is false: the quirk changes the message. -/
theorem C61_exception :
    @Codec.decode Quirks.strict .response b!"* OK [CAPABILITY IMAP4rev1 ] x\r\n" = .ok [] (.status (.untagged .ok (some (.other b!"CAPABILITY IMAP4rev1 ")) b!"x")) ∧
    @Codec.decode Quirks.default .response b!"* OK [CAPABILITY IMAP4rev1 ] x\r\n" = .ok [] (.status (.untagged .ok (some (.capability [.imap4Rev1])) b!"x")) := by
  refine ⟨?_, ?_⟩ <;> with_unfolding_all rfl

/-- Accepted by both, with the same message. -/
example : @Codec.decode Quirks.strict .response b!"* SEARCH 2 3\r\n* " = .ok b!"* " (.data (.search [2, 3] none)) ∧
    @Codec.decode Quirks.default .response b!"* SEARCH 2 3\r\n* " = .ok b!"* " (.data (.search [2, 3] none)) := by
  have : @Codec.decode Quirks.strict .response b!"* SEARCH 2 3\r\n* " = .ok b!"* " (.data (.search [2, 3] none)) := by with_unfolding_all rfl
  obtain ⟨r', h1, h2⟩ := C61_response Quirks.strict Quirks.default _ _ _ this
  cases h2
  exact ⟨this, h1⟩

/-- Accepted with the quirks only. -/
example : @Codec.decode Quirks.strict .response b!"* SEARCH 2 3 \r\n" = .failed ∧
    @Codec.decode Quirks.default .response b!"* SEARCH 2 3 \r\n" = .ok [] (.data (.search [2, 3] none)) ∧
    @Codec.decode Quirks.strict .greeting b!"* OK [ALERT]\r\n" = .failed ∧
    @Codec.decode Quirks.default .greeting b!"* OK [ALERT]\r\n" = .ok [] ⟨.ok, some .alert, b!"..."⟩ := by
  refine ⟨?_, ?_, ?_, ?_⟩ <;> with_unfolding_all rfl

/-- Rejected by both. -/
example (y rest : Bytes) (m : Response) : @Codec.decode Quirks.strict .response (b!"* FOO" ++ y) ≠ .ok rest m :=
  C61_rejected Quirks.strict Quirks.default .response b!"* FOO" y rest m (by with_unfolding_all rfl)

end Imap
