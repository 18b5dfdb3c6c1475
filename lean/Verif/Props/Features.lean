import Verif.FeaturesServer
import Verif.Props.Grammar
import Verif.Props.GrammarServer
/-
Property C57: features are additive. A build with more features accepts whatever a build with fewer features accepts, with the same rest
and the same meaning, up to names and codes that were unknown and are known now; and it writes the same bytes for each message.

The builds are the instances of `Quirks`; `Spec.Extends q q'` (Verif/FeaturesSpec.lean) says that `q'` has at least the features and the quirks
of `q`. See C61 (Verif/Props/Quirks.lean) for builds that differ in their quirks only.
-/
set_option maxRecDepth 10000

namespace Imap

open Spec (Extends CommandKnown GreetingKnown ResponseKnown EnableKnown CapabilityKnown CodeKnown Pointwise)

section
variable (q q' : Quirks) [Extends q q']

/-! ### Decoding -/

/-- C57, for commands. -/
theorem C57_command (x rest : Bytes) (c : Command) (h : @Codec.decode q .command x = .ok rest c) :
    ∃ c', @Codec.decode q' .command x = .ok rest c' ∧ CommandKnown q' c c' := by
  obtain ⟨w, rfl, hw⟩ := (@C48_command q _ _ _).1 h
  obtain ⟨c', hc, hw'⟩ := Gr.sim_command (q' := q') _ _ hw
  exact ⟨c', (@C48_command q' _ _ _).2 ⟨w, rfl, hw'⟩, hc⟩

/-- C57, for the data of AUTHENTICATE. -/
theorem C57_authenticateData (x rest : Bytes) (d : AuthenticateData) (h : @Codec.decode q .authenticateData x = .ok rest d) :
    @Codec.decode q' .authenticateData x = .ok rest d := by
  obtain ⟨w, rfl, hw⟩ := (@C48_authenticateData q _ _ _).1 h
  exact (@C48_authenticateData q' _ _ _).2 ⟨w, rfl, Gr.sub_authenticateData _ _ hw⟩

/-- C57, for the end of IDLE. -/
theorem C57_idleDone (x rest : Bytes) (d : Unit) (h : @Codec.decode q .idleDone x = .ok rest d) :
    @Codec.decode q' .idleDone x = .ok rest d := by
  obtain ⟨w, rfl, hw⟩ := (@C48_idleDone q _ _ _).1 h
  exact (@C48_idleDone q' _ _ _).2 ⟨w, rfl, Gr.sub_idleDone _ _ hw⟩

/-- C57, for greetings. -/
theorem C57_greeting (x rest : Bytes) (g : Greeting) (h : @Codec.decode q .greeting x = .ok rest g) :
    ∃ g', @Codec.decode q' .greeting x = .ok rest g' ∧ GreetingKnown q' g g' := by
  obtain ⟨w, rfl, hw⟩ := (@C49_greeting q _ _ _).1 h
  obtain ⟨c', hc, hw'⟩ := Gr.sim_greeting (q' := q') _ _ hw
  exact ⟨c', (@C49_greeting q' _ _ _).2 ⟨w, rfl, hw'⟩, hc⟩

/-- C57, for responses. -/
theorem C57_response (x rest : Bytes) (r : Response) (h : @Codec.decode q .response x = .ok rest r) :
    ∃ r', @Codec.decode q' .response x = .ok rest r' ∧ ResponseKnown q' r r' := by
  obtain ⟨w, rfl, hw⟩ := (@C49_response q _ _ _).1 h
  obtain ⟨c', hc, hw'⟩ := Gr.sim_response (q' := q') _ _ hw
  exact ⟨c', (@C49_response q' _ _ _).2 ⟨w, rfl, hw'⟩, hc⟩

/-- C57: what a build with more features rejects for good, the build with fewer features never accepts, whatever follows. -/
theorem C57_rejected (k : Codec) (x y rest : Bytes) (m : k.Message) (h : @Codec.decode q' k x = .failed) :
    @Codec.decode q k (x ++ y) ≠ .ok rest m := by
  intro e
  have h1 := @C06_failed_stable q' k x y h
  cases k with
  | greeting => obtain ⟨_, h2, -⟩ := C57_greeting q q' _ _ _ e; rw [h1] at h2; cases h2
  | command => obtain ⟨_, h2, -⟩ := C57_command q q' _ _ _ e; rw [h1] at h2; cases h2
  | authenticateData => have h2 := C57_authenticateData q q' _ _ _ e; rw [h1] at h2; cases h2
  | response => obtain ⟨_, h2, -⟩ := C57_response q q' _ _ _ e; rw [h1] at h2; cases h2
  | idleDone => have h2 := C57_idleDone q q' _ _ _ e; rw [h1] at h2; cases h2

/-! ### Encoding -/

omit [Extends q q'] in
theorem encSet_features (e : q.alwaysNormalizeSequenceSets = q'.alwaysNormalizeSequenceSets) (s : SequenceSet) : @encSet q s = @encSet q' s := by
  have h1 : @normSet q s = @normSet q' s := by simp only [normSet, e]
  have h2 : @Sequence.enc q = @Sequence.enc q' := by
    funext s
    simp only [Sequence.enc, e]
  simp only [encSet, h1, h2]

omit [Extends q q'] in
mutual
theorem SearchKey.enc_features (e : q.alwaysNormalizeSequenceSets = q'.alwaysNormalizeSequenceSets) : (k : SearchKey) → @SearchKey.enc q k = @SearchKey.enc q' k
  | .all | .answered | .bcc _ | .before _ | .body _ | .cc _ | .deleted | .flagged | .from_ _ | .keyword _ | .new | .old | .on _ | .recent | .seen
  | .since _ | .subject _ | .text _ | .to _ | .unanswered | .undeleted | .unflagged | .unkeyword _ | .unseen | .draft | .header _ _ | .larger _
  | .sentBefore _ | .sentOn _ | .sentSince _ | .smaller _ | .undraft | .modSequence _ _ => by simp only [SearchKey.enc]
  | .uid s | .sequenceSet s => by simp only [SearchKey.enc, encSet_features q q' e]
  | .not k => by simp only [SearchKey.enc, SearchKey.enc_features e k]
  | .or a b => by simp only [SearchKey.enc, SearchKey.enc_features e a, SearchKey.enc_features e b]
  | .and ks => by simp only [SearchKey.enc, SearchKey.go_features e ks]
theorem SearchKey.go_features (e : q.alwaysNormalizeSequenceSets = q'.alwaysNormalizeSequenceSets) :
    (ks : List SearchKey) → @SearchKey.enc.go q ks = @SearchKey.enc.go q' ks
  | [] => by simp only [SearchKey.enc.go]
  | k :: ks => by simp only [SearchKey.enc.go, SearchKey.enc_features e k, SearchKey.go_features e ks]
end

omit [Extends q q'] in
/-- C57: what is written for a message does not depend on the features, nor on the quirks of the decoder. -/
theorem C57_encode (ei : q.idEmptyToNil = q'.idEmptyToNil) (en : q.alwaysNormalizeSequenceSets = q'.alwaysNormalizeSequenceSets)
    (k : Codec) (m : k.Message) : @Codec.encode q k m = @Codec.encode q' k m := by
  have h1 : @encKeys q = @encKeys q' := by
    funext l
    have : @SearchKey.enc q = @SearchKey.enc q' := by
      funext k
      exact SearchKey.enc_features q q' en k
    simp only [encKeys, this]
  have h2 : ∀ s, @encSet q s = @encSet q' s := encSet_features q q' en
  have h3 : ∀ p, @encIdParams q p = @encIdParams q' p := by
    intro p
    unfold encIdParams
    rw [ei]
  have h4 : ∀ p, @SelectParameter.enc q p = @SelectParameter.enc q' p := by
    intro p
    cases p <;> simp only [SelectParameter.enc, h2]
  have h5 : ∀ b, @CommandBody.enc q b = @CommandBody.enc q' b := by
    intro b
    cases b
    all_goals simp only [CommandBody.enc, h1, h2, h3, funext h4]
  cases k
  case command => simp only [Codec.encode, Codec.enc, Command.enc, h5]
  all_goals
    clear h1 h2 h3 h4 h5
    cases q
    cases q'
    simp only at *
    subst_vars
    rfl

end

/-! ### What is not there -/

/-- C57: without the feature, no command is decoded to what the feature adds. -/
theorem C57_absent [q : Quirks] (x rest t : Bytes) :
    (q.extId = false → ∀ p, Codec.command.decode x ≠ .ok rest ⟨t, .id p⟩) ∧
    (q.extNamespace = false → Codec.command.decode x ≠ .ok rest ⟨t, .namespace_⟩) ∧
    (q.starttls = false → Codec.command.decode x ≠ .ok rest ⟨t, .startTls⟩) ∧
    (q.extMetadata = false → (∀ m es, Codec.command.decode x ≠ .ok rest ⟨t, .setMetadata m es⟩) ∧
      ∀ os m es, Codec.command.decode x ≠ .ok rest ⟨t, .getMetadata os m es⟩) ∧
    (q.extCondstoreQresync = false → ∀ m ps, ps ≠ [] →
      Codec.command.decode x ≠ .ok rest ⟨t, .select m ps⟩ ∧ Codec.command.decode x ≠ .ok rest ⟨t, .examine m ps⟩) := by
  have key : ∀ {c}, Codec.command.decode x = .ok rest c → WellFormed .command c := fun h => (decoded_valid .command _ _ _ h).1
  refine ⟨?_, ?_, ?_, ?_, ?_⟩
  · intro hq p h
    have := (key h).2
    simp [Spec.CommandBody.Inv, hq] at this
  · intro hq h
    have := (key h).2
    simp [Spec.CommandBody.Inv, hq] at this
  · intro hq h
    have := (key h).2
    simp [Spec.CommandBody.Inv, hq] at this
  · intro hq
    refine ⟨fun m es h => ?_, fun os m es h => ?_⟩
    all_goals
      have := (key h).2
      simp [Spec.CommandBody.Inv, hq] at this
  · intro hq m ps hp
    refine ⟨fun h => ?_, fun h => ?_⟩
    all_goals
      have h1 := (key h).2.2
      obtain ⟨p, ps, rfl⟩ := List.exists_cons_of_ne_nil hp
      have h2 := h1 p (List.mem_cons_self ..)
      cases p <;> simp [Spec.SelectParameter.Inv, hq] at h2

/-! ### Non-vacuity -/

instance : Extends Quirks.bare Quirks.default := by constructor <;> decide

/-- The default features, and all of them: ENABLE, capabilities and codes are known. -/
example : @Codec.decode Quirks.bare .command b!"A ENABLE condstore x\r\n" = .ok [] ⟨b!"A", .enable [.other b!"condstore", .other b!"x"]⟩ ∧
    @Codec.decode Quirks.default .command b!"A ENABLE condstore x\r\n" = .ok [] ⟨b!"A", .enable [.condStore, .other b!"x"]⟩ := by
  refine ⟨?_, ?_⟩ <;> with_unfolding_all rfl

example : @Codec.decode Quirks.bare .response b!"* OK [HIGHESTMODSEQ 007] x\r\n" = .ok [] (.status (.untagged .ok (some (.other b!"HIGHESTMODSEQ 007")) b!"x")) ∧
    @Codec.decode Quirks.default .response b!"* OK [HIGHESTMODSEQ 007] x\r\n" = .ok [] (.status (.untagged .ok (some (.highestModSeq 7)) b!"x")) := by
  refine ⟨?_, ?_⟩ <;> with_unfolding_all rfl

example : @Codec.decode Quirks.bare .greeting b!"* OK [CAPABILITY IMAP4rev1 id] x\r\n" = .ok [] ⟨.ok, some (.capability [.imap4Rev1, .other b!"id"]), b!"x"⟩ ∧
    @Codec.decode Quirks.default .greeting b!"* OK [CAPABILITY IMAP4rev1 id] x\r\n" = .ok [] ⟨.ok, some (.capability [.imap4Rev1, .id_]), b!"x"⟩ := by
  refine ⟨?_, ?_⟩ <;> with_unfolding_all rfl

/-- Rejected by the build with the default features, and accepted by the build with all features. -/
example : @Codec.decode Quirks.bare .command b!"A ID NIL\r\n" = .failed ∧
    @Codec.decode Quirks.default .command b!"A ID NIL\r\n" = .ok [] ⟨b!"A", .id none⟩ := by
  refine ⟨?_, ?_⟩ <;> with_unfolding_all rfl

/-- Rejected by both. -/
example : @Codec.decode Quirks.default .command b!"A X\r\n" = .failed := by with_unfolding_all rfl

end Imap
