import Verif.Command
import Verif.SearchLemmas
/-
Facts about commands: niceness, postconditions, round trips.
-/
set_option maxRecDepth 10000

namespace Imap

variable [Quirks]

set_option synthInstance.maxSize 2000 in
set_option synthInstance.maxHeartbeats 400000 in
instance : Nice qresync := by unfold qresync; infer_instance
instance : Nice selectParam := by unfold selectParam; infer_instance
instance : Nice selectParams := by unfold selectParams; infer_instance
instance : Nice fetchModifier := by unfold fetchModifier; infer_instance
instance : Nice fetchModifiers := by unfold fetchModifiers; infer_instance
instance : Nice storeModifier := by unfold storeModifier; infer_instance
instance : Nice storeModifiers := by unfold storeModifiers; infer_instance
instance : Nice storeAttFlags := by unfold storeAttFlags; infer_instance
instance : Nice capabilityEnable := by unfold capabilityEnable; infer_instance
instance : Nice resourceName := by unfold resourceName; infer_instance
instance : Nice setquotaResource := by unfold setquotaResource; infer_instance
instance : Nice sortKey := by unfold sortKey; infer_instance
instance : Nice sortCriterion := by unfold sortCriterion; infer_instance
instance : Nice sortCriteria := by unfold sortCriteria; infer_instance
instance : Nice threadAlg := by unfold threadAlg; infer_instance
instance : Nice idParam := by unfold idParam; infer_instance
instance : Nice idParamsList := by unfold idParamsList; infer_instance
instance : Nice idCommand := by unfold idCommand; infer_instance
instance : Nice entry := by unfold entry; infer_instance
instance : Nice imapValue := by unfold imapValue; infer_instance
instance : Nice entryValue := by unfold entryValue; infer_instance
instance : Nice entryValues := by unfold entryValues; infer_instance
instance : Nice entries := by unfold entries; infer_instance
instance : Nice getmetadataOption := by unfold getmetadataOption; infer_instance
instance : Nice getmetadataOptions := by unfold getmetadataOptions; infer_instance
instance : Nice append := by unfold append; infer_instance
instance : Nice create := by unfold create; infer_instance
instance : Nice delete := by unfold delete; infer_instance
instance : Nice examine := by unfold examine; infer_instance
instance : Nice list := by unfold list; infer_instance
instance : Nice lsub := by unfold lsub; infer_instance
instance : Nice rename := by unfold rename; infer_instance
instance : Nice select := by unfold select; infer_instance
instance : Nice status := by unfold status; infer_instance
instance : Nice subscribe := by unfold subscribe; infer_instance
instance : Nice unsubscribe := by unfold unsubscribe; infer_instance
instance : Nice enable := by unfold enable; infer_instance
instance : Nice compress := by unfold compress; infer_instance
instance : Nice getquota := by unfold getquota; infer_instance
instance : Nice getquotaroot := by unfold getquotaroot; infer_instance
instance : Nice setquota := by unfold setquota; infer_instance
instance : Nice setmetadata := by unfold setmetadata; infer_instance
instance : Nice getmetadata := by unfold getmetadata; infer_instance
instance : Nice commandAny := by unfold commandAny; infer_instance
instance : Nice commandAuth := by unfold commandAuth; infer_instance
instance : Nice login := by unfold login; infer_instance
instance : Nice authenticate := by unfold authenticate; infer_instance
instance : Nice commandNonauth := by unfold commandNonauth; infer_instance
instance : Nice uidExpunge := by unfold uidExpunge; infer_instance
instance : Nice copy := by unfold copy; infer_instance
instance : Nice move := by unfold move; infer_instance
instance : Nice fetch := by unfold fetch; infer_instance
instance : Nice store := by unfold store; infer_instance
instance : Nice search := by unfold search; infer_instance
instance : Nice sort := by unfold sort; infer_instance
instance : Nice thread := by unfold thread; infer_instance
instance : Nice uidBody := by unfold uidBody; infer_instance
instance : Nice uid := by unfold uid; infer_instance
instance : Nice commandSelect := by unfold commandSelect; infer_instance
instance : Nice commandBody := by unfold commandBody; infer_instance

/-! ### Postconditions -/

omit [Quirks] in
theorem isNonZeroU64_iff {n : Nat} : isNonZeroU64 n = true ↔ 0 < n ∧ n < 18446744073709551616 := by
  simp [isNonZeroU64]

omit [Quirks] in
theorem isSetOpt_iff {o : Option SequenceSet} : isSetOpt o = true ↔ ∀ s, o = some s → s.wf = true := by
  cases o <;> simp [isSetOpt]

omit [Quirks] in
theorem isSetPairOpt_iff {o : Option (SequenceSet × SequenceSet)} :
    isSetPairOpt o = true ↔ ∀ s, o = some s → s.1.wf = true ∧ s.2.wf = true := by
  rcases o with _ | ⟨a, b⟩ <;> simp [isSetPairOpt]

instance : Canon qresync fun v => Quirks.extCondstoreQresync = true → v.valid = true := ⟨by
  unfold qresync
  refine Post.bind fun _ _ => Post.bind fun u hu => Post.bind fun _ _ => Post.bind fun m hm => Post.bind fun k hk => ?_
  have : Canon (do sp; char 40; let a ← sequenceSet; sp; let b ← sequenceSet; char 41; return (a, b) : P (SequenceSet × SequenceSet))
      fun v => v.1.wf = true ∧ v.2.wf = true := ⟨by
    refine Post.bind fun _ _ => Post.bind fun _ _ => Post.bind fun a ha => Post.bind fun _ _ => Post.bind fun b hb =>
      Post.bind fun _ _ => Post.pure ⟨ha, hb⟩⟩
  refine Post.bind fun s hs => Post.bind fun _ _ => Post.pure ?_
  intro h
  simp only [SelectParameter.valid, Bool.and_eq_true]
  exact ⟨⟨⟨⟨h, isNonZeroU32_iff.2 hu⟩, isNonZeroU64_iff.2 hm⟩, isSetOpt_iff.2 hk⟩, isSetPairOpt_iff.2 hs⟩⟩

instance : Canon selectParam fun v => v.valid = true := ⟨by
  unfold selectParam
  post
  · exact hb
  · exact hv hb⟩

instance : Canon selectParams fun l => ∀ v ∈ l, v.valid = true := ⟨by
  unfold selectParams
  refine Post.gate fun _ => Post.bind fun _ _ => Post.bind fun l hl => Post.bind fun _ _ => Post.pure hl.2⟩

instance : Canon fetchModifier fun v => v.valid = true := ⟨by
  unfold fetchModifier
  post
  · exact Bool.and_eq_true_iff.2 ⟨hb, isNonZeroU64_iff.2 hv⟩
  · exact hb⟩

instance : Canon fetchModifiers fun l => ∀ v ∈ l, v.valid = true := ⟨by
  unfold fetchModifiers
  refine Post.gate fun _ => Post.bind fun _ _ => Post.bind fun l hl => Post.bind fun _ _ => Post.pure hl.2⟩

instance : Canon storeModifier fun v => isStoreModifier v = true := ⟨by
  unfold storeModifier
  post
  simpa [isStoreModifier, hb] using hv⟩

instance : Canon storeModifiers fun l => ∀ v ∈ l, isStoreModifier v = true := ⟨by
  unfold storeModifiers
  refine Post.gate fun _ => Post.bind fun _ _ => Post.bind fun l hl => Post.bind fun _ _ => Post.pure hl.2⟩

instance : Canon (alt [flagList, sepList1 sp flag]) fun l => ∀ f ∈ l, f.valid = true := ⟨by
  post
  · exact hv
  · exact hv.2⟩

instance : Canon storeAttFlags fun v => ∀ f ∈ v.2.2, f.valid = true := ⟨by
  unfold storeAttFlags
  post
  exact hv⟩

theorem CapabilityEnable.ofAtom_valid {a : Bytes} (h : isAtom a = true) : (CapabilityEnable.ofAtom a).valid = true := by
  have : CapabilityEnable.ofAtom a = .other a ∨ (CapabilityEnable.ofAtom a).valid = true := by
    unfold CapabilityEnable.ofAtom
    simp only
    split_ifs <;> simp_all [CapabilityEnable.valid, CapabilityEnable.present]
  rcases this with e | e
  · rw [e]; simp [CapabilityEnable.valid, h, e]
  · exact e

instance : Canon capabilityEnable fun v => v.valid = true := ⟨by
  unfold capabilityEnable
  post
  exact CapabilityEnable.ofAtom_valid hv⟩

omit [Quirks] in
theorem Resource.ofAtom_valid {a : Bytes} (h : isAtom a = true) : (Resource.ofAtom a).valid = true := by
  have : Resource.ofAtom a = .other a ∨ (Resource.ofAtom a).valid = true := by
    unfold Resource.ofAtom
    simp only
    split_ifs <;> simp [Resource.valid]
  rcases this with e | e
  · rw [e]; simp [Resource.valid, h, e]
  · exact e

instance : Canon resourceName fun v => v.valid = true := ⟨by
  unfold resourceName
  post
  exact Resource.ofAtom_valid hv⟩

instance : Canon setquotaResource fun v => v.valid = true := ⟨by
  unfold setquotaResource
  refine Post.bind fun _ h1 => Post.bind fun _ _ => Post.bind fun _ h2 => Post.pure ?_
  simp [QuotaSet.valid, h1, h2]⟩

omit [Quirks] in
theorem ThreadingAlgorithm.ofAtom_valid {a : Bytes} (h : isAtom a = true) : (ThreadingAlgorithm.ofAtom a).valid = true := by
  have : ThreadingAlgorithm.ofAtom a = .other a ∨ (ThreadingAlgorithm.ofAtom a).valid = true := by
    unfold ThreadingAlgorithm.ofAtom
    simp only
    split_ifs <;> simp [ThreadingAlgorithm.valid]
  rcases this with e | e
  · rw [e]; simp [ThreadingAlgorithm.valid, h, e]
  · exact e

instance : Canon threadAlg fun v => v.valid = true := ⟨by
  unfold threadAlg
  post
  exact ThreadingAlgorithm.ofAtom_valid hv⟩

instance : Canon idParam fun v => isIdParam v = true := ⟨by
  unfold idParam
  refine Post.bind fun _ h1 => Post.bind fun _ _ => Post.bind fun _ h2 => Post.pure ?_
  simp [isIdParam, h1, h2]⟩

instance : Canon idParamsList fun v => isIdParamsOpt v = true := ⟨by
  unfold idParamsList
  refine Post.alt_cons (Post.map (Post.bind fun _ _ => Post.bind fun l hl => Post.ite (fun _ => ?_) (fun _ => ?_)))
    (Post.alt_cons (Post.value rfl) Post.alt_nil)
  · exact Post.bind fun _ _ => Post.bind fun _ _ => Post.pure (by simpa [isIdParamsOpt] using hl)
  · exact Post.bind fun _ _ => Post.pure (by simpa [isIdParamsOpt] using hl)⟩

instance : Canon idCommand fun v => isIdParamsOpt v = true := ⟨by
  unfold idCommand
  post
  exact hv⟩

instance : Canon entry fun v => v.valid = true := ⟨by
  unfold entry
  post
  exact hv⟩

instance : Canon imapValue fun v => v.valid = true := ⟨by
  unfold imapValue
  post
  · exact hv
  · exact hv⟩

instance : Canon entryValue fun v => v.valid = true := ⟨by
  unfold entryValue
  refine Post.bind fun _ h1 => Post.bind fun _ _ => Post.bind fun _ h2 => Post.pure ?_
  simp [EntryValue.valid, h1, h2]⟩

instance : Canon entryValues fun l => l ≠ [] ∧ ∀ v ∈ l, v.valid = true := ⟨by
  unfold entryValues
  refine Post.bind fun _ _ => Post.bind fun l hl => Post.bind fun _ _ => Post.pure hl⟩

instance : Canon entries fun l => l ≠ [] ∧ ∀ v ∈ l, v.valid = true := ⟨by
  unfold entries
  refine Post.alt_cons (Post.map (Post.canon fun v hv => ?_)) (Post.alt_cons ?_ Post.alt_nil)
  · simpa using hv
  · refine Post.bind fun _ _ => Post.bind fun l hl => Post.bind fun _ _ => Post.pure hl⟩

instance : Canon getmetadataOption fun v => v.valid = true := ⟨by
  unfold getmetadataOption
  refine Post.alt_cons (Post.map (Post.canon fun v hv => ?_)) (Post.alt_cons ?_ Post.alt_nil)
  · simpa [GetMetadataOption.valid] using hv
  · refine Post.bind fun _ _ => ?_
    post <;> rfl⟩

instance : Canon getmetadataOptions fun l => ∀ v ∈ l, v.valid = true := ⟨by
  unfold getmetadataOptions
  refine Post.bind fun _ _ => Post.bind fun l hl => Post.bind fun _ _ => Post.pure hl.2⟩

omit [Quirks] in
theorem all_getD {α : Type} {f : α → Bool} {o : Option (List α)} (h : ∀ l, o = some l → ∀ v ∈ l, f v = true) :
    (o.getD []).all f = true := by
  cases o with
  | none => rfl
  | some l => simpa using h l rfl

omit [Quirks] in
theorem isDateTimeOpt_iff {o : Option DateTime} : isDateTimeOpt o = true ↔ ∀ s, o = some s → s.valid = true := by
  cases o <;> simp [isDateTimeOpt]

omit [Quirks] in
theorem isCharsetOpt_iff {o : Option Charset} : isCharsetOpt o = true ↔ ∀ s, o = some s → s.valid = true := by
  cases o <;> simp [isCharsetOpt]

theorem isCriteria_iff {l : List SearchKey} : isCriteria l = true ↔ l ≠ [] ∧ ∀ k ∈ l, k.valid = true ∧ k.depth ≤ 9 := by
  simp [isCriteria]

instance : Canon (alt [LiteralOrLiteral8.literal <$> literal, .literal8 <$> literal8]) fun v => v.valid = true := ⟨by
  post
  · exact hv
  · exact hv⟩

instance : Canon append fun v => v.valid = true := ⟨by
  unfold append
  refine Post.bind fun _ _ => Post.bind fun m hm => Post.bind fun fs hfs => Post.bind fun d hd => Post.bind fun _ _ =>
    Post.bind fun msg hmsg => Post.pure ?_
  simp only [CommandBody.valid, Bool.and_eq_true]
  exact ⟨⟨⟨hm, all_getD hfs⟩, isDateTimeOpt_iff.2 hd⟩, hmsg⟩⟩

instance : Canon examine fun v => v.valid = true := ⟨by
  unfold examine
  refine Post.bind fun _ _ => Post.bind fun m hm => Post.bind fun ps hps => Post.pure ?_
  simp only [CommandBody.valid, Bool.and_eq_true]
  exact ⟨hm, all_getD hps⟩⟩

instance : Canon select fun v => v.valid = true := ⟨by
  unfold select
  refine Post.bind fun _ _ => Post.bind fun m hm => Post.bind fun ps hps => Post.pure ?_
  simp only [CommandBody.valid, Bool.and_eq_true]
  exact ⟨hm, all_getD hps⟩⟩

instance : Canon list fun v => v.valid = true := ⟨by
  unfold list
  refine Post.bind fun _ _ => Post.bind fun m hm => Post.bind fun _ _ => Post.bind fun _ h => Post.pure ?_
  simp [CommandBody.valid, hm, h]⟩

instance : Canon lsub fun v => v.valid = true := ⟨by
  unfold lsub
  refine Post.bind fun _ _ => Post.bind fun m hm => Post.bind fun _ _ => Post.bind fun _ h => Post.pure ?_
  simp [CommandBody.valid, hm, h]⟩

instance : Canon rename fun v => v.valid = true := ⟨by
  unfold rename
  refine Post.bind fun _ _ => Post.bind fun m hm => Post.bind fun _ _ => Post.bind fun _ h => Post.pure ?_
  simp [CommandBody.valid, hm, h]⟩

instance : Canon statusAtt fun v => v.valid = true := ⟨by
  unfold statusAtt
  post
  all_goals first | rfl | exact hb⟩

instance : Canon status fun v => v.valid = true := ⟨by
  unfold status
  refine Post.bind fun _ _ => Post.bind fun m hm => Post.bind fun _ _ => Post.bind fun l hl => Post.bind fun _ _ => Post.pure ?_
  simpa [CommandBody.valid, hm] using hl⟩

instance : Canon enable fun v => v.valid = true := ⟨by
  unfold enable
  refine Post.bind fun _ _ => Post.bind fun m hm => Post.pure ?_
  simpa [CommandBody.valid] using hm⟩

instance : Canon setquota fun v => v.valid = true := ⟨by
  unfold setquota
  refine Post.bind fun _ _ => Post.bind fun m hm => Post.bind fun _ _ => Post.bind fun l hl => Post.bind fun _ _ => Post.pure ?_
  simpa [CommandBody.valid, hm] using hl⟩

instance : Canon setmetadata fun v => Quirks.extMetadata = true → v.valid = true := ⟨by
  unfold setmetadata
  refine Post.bind fun _ _ => Post.bind fun _ _ => Post.bind fun m hm => Post.bind fun _ _ => Post.bind fun l hl => Post.pure ?_
  intro h
  simpa [CommandBody.valid, hm, h] using hl⟩

instance : Canon getmetadata fun v => Quirks.extMetadata = true → v.valid = true := ⟨by
  unfold getmetadata
  refine Post.bind fun _ _ => Post.bind fun os hos => Post.bind fun _ _ => Post.bind fun m hm => Post.bind fun _ _ =>
    Post.bind fun l hl => Post.pure ?_
  intro h
  simp only [CommandBody.valid, Bool.and_eq_true]
  exact ⟨⟨⟨⟨h, all_getD hos⟩, hm⟩, by simpa using hl.1⟩, by simpa using hl.2⟩⟩

instance : Canon commandAny fun v => v.valid = true := ⟨by
  unfold commandAny
  post
  · rfl
  · rfl
  · rfl
  · exact Bool.and_eq_true_iff.2 ⟨hb, hv⟩⟩

instance : Canon commandAuth fun v => v.valid = true := ⟨by
  unfold commandAuth create delete subscribe unsubscribe compress getquota getquotaroot
  post
  all_goals first | rfl | exact hv | exact hb | exact hv hb | (rw [hv]; rfl)⟩

instance : Canon login fun v => v.valid = true := ⟨by
  unfold login
  refine Post.bind fun _ _ => Post.bind fun _ _ => Post.bind fun m hm => Post.bind fun _ _ => Post.bind fun l hl => Post.pure ?_
  simp [CommandBody.valid, hm, hl]⟩

instance : Canon authenticate fun v => v.valid = true := ⟨by
  unfold authenticate
  refine Post.bind fun _ _ => Post.bind fun m hm => Post.bind fun l hl => Post.pure ?_
  exact hm⟩

instance : Canon commandNonauth fun v => v.valid = true := ⟨by
  unfold commandNonauth
  post
  · exact hv
  · exact hv
  · exact hb⟩

instance : Canon copy fun v => v.valid = true ∧ ∃ s m, v = .copy s m false := ⟨by
  unfold copy
  refine Post.bind fun _ _ => Post.bind fun _ _ => Post.bind fun m hm => Post.bind fun _ _ => Post.bind fun l hl => Post.pure ?_
  simp [CommandBody.valid, hm, hl]⟩

instance : Canon move fun v => v.valid = true ∧ ∃ s m, v = .move s m false := ⟨by
  unfold move
  refine Post.bind fun _ _ => Post.bind fun _ _ => Post.bind fun m hm => Post.bind fun _ _ => Post.bind fun l hl => Post.pure ?_
  simp [CommandBody.valid, hm, hl]⟩

instance : Canon fetch fun v => v.valid = true ∧ ∃ s i ms, v = .fetch s i false ms := ⟨by
  unfold fetch
  refine Post.bind fun _ _ => Post.bind fun _ _ => Post.bind fun m hm => Post.bind fun _ _ => Post.bind fun l hl =>
    Post.bind fun o ho => Post.pure ?_
  refine ⟨?_, _, _, _, rfl⟩
  simp only [CommandBody.valid, hm, hl, Bool.and_true, Bool.true_and]
  exact all_getD ho⟩

instance : Canon store fun v => v.valid = true ∧ ∃ s k r fs ms, v = .store s k r fs false ms := ⟨by
  unfold store
  refine Post.bind fun _ _ => Post.bind fun _ _ => Post.bind fun m hm => Post.bind fun ms hms => Post.bind fun _ _ =>
    Post.bind fun x hx => Post.pure ?_
  refine ⟨?_, _, _, _, _, _, rfl⟩
  simp only [CommandBody.valid, hm, Bool.true_and, Bool.and_eq_true]
  exact ⟨by simpa using hx, all_getD hms⟩⟩

instance : Canon search fun v => v.valid = true ∧ ∃ c l, v = .search c l false := ⟨by
  unfold search
  refine Post.bind fun _ _ => Post.bind fun c hc => Post.bind fun _ _ => Post.bind fun l hl => Post.pure ?_
  refine ⟨?_, _, _, rfl⟩
  simp only [CommandBody.valid, Bool.and_eq_true]
  exact ⟨isCharsetOpt_iff.2 hc, isCriteria_iff.2 hl⟩⟩

instance : Canon sortCriteria fun l => l ≠ [] := ⟨by
  unfold sortCriteria
  refine Post.bind fun _ _ => Post.bind fun l hl => Post.bind fun _ _ => Post.pure hl.1⟩

instance : Canon sort fun v => v.valid = true := ⟨by
  unfold sort
  refine Post.bind fun _ _ => Post.bind fun _ _ => Post.bind fun s hs => Post.bind fun _ _ => Post.bind fun x hx => Post.pure ?_
  simp only [CommandBody.valid, Bool.and_eq_true]
  exact ⟨⟨by simpa using hs, hx.1⟩, isCriteria_iff.2 hx.2⟩⟩

instance : Canon thread fun v => v.valid = true := ⟨by
  unfold thread
  refine Post.bind fun _ _ => Post.bind fun _ _ => Post.bind fun s hs => Post.bind fun _ _ => Post.bind fun x hx => Post.pure ?_
  simp only [CommandBody.valid, Bool.and_eq_true]
  exact ⟨⟨hs, hx.1⟩, isCriteria_iff.2 hx.2⟩⟩

/-- The `unreachable!()` of `uid` (imap-codec/src/command.rs:805) is never reached. -/
theorem uidBody_setUid : Post uidBody fun v => ∃ w, v.setUid = some w ∧ w.valid = true := by
  unfold uidBody
  post
  · obtain ⟨h, s, m, rfl⟩ := hv; exact ⟨_, rfl, h⟩
  · obtain ⟨h, s, i, ms, rfl⟩ := hv; exact ⟨_, rfl, h⟩
  · obtain ⟨h, c, l, rfl⟩ := hv; exact ⟨_, rfl, h⟩
  · obtain ⟨h, s, k, r, fs, ms, rfl⟩ := hv; exact ⟨_, rfl, h⟩
  · obtain ⟨h, s, m, rfl⟩ := hv; exact ⟨_, rfl, h⟩

instance : Canon uidBody fun v => ∃ w, v.setUid = some w ∧ w.valid = true := ⟨uidBody_setUid⟩

instance : Canon uid fun v => v.valid = true := ⟨by
  unfold uid
  refine Post.bind fun _ _ => Post.bind fun _ _ => Post.mapRes fun v hv w hw => ?_
  obtain ⟨w', h1, h2⟩ := hv
  rw [hw] at h1
  cases h1
  exact h2⟩

instance : Canon commandSelect fun v => v.valid = true := ⟨by
  unfold commandSelect uidExpunge
  post
  all_goals first | rfl | exact hv | exact hv.1⟩

instance : Canon commandBody fun v => v.valid = true := ⟨by
  unfold commandBody
  have : Canon (alt [commandAny, commandAuth, commandNonauth, commandSelect]) fun v => v.valid = true := ⟨by
    post
    all_goals exact hv⟩
  exact Post.bind fun b hb => Post.bind fun _ _ => Post.pure hb⟩

end Imap
