import Verif.SizeParts
import Verif.Command
/-
How much of its input each parser of the commands consumes, compared with the size of the encoding of what it returns (see Size.lean).
-/
namespace Imap

/-! ### Search keys -/

theorem AttributeFlag.system_size (a : Bytes) : (AttributeFlag.system a).enc.length ≤ a.length + 2 := by
  unfold AttributeFlag.system
  dsimp only
  repeat' (split; rename_i h; have := length_of_lower h; simp [AttributeFlag.enc] at *; omega)
  simp [AttributeFlag.enc]

instance : Cost attrFlag fun f => 2 * f.enc.length := ⟨by
  unfold attrFlag
  uses
  · rename_i a
    have := AttributeFlag.system_size a
    simp
    omega
  · simp [AttributeFlag.enc]⟩
instance : Cost entryTypeReq fun t => 2 * t.enc.length := ⟨by
  unfold entryTypeReq
  sizes [EntryTypeReq.enc]⟩
instance : Cost entryName fun f => 2 * f.enc.length + 18 := ⟨by
  unfold entryName
  sizes []⟩
instance : Cost searchModseqExt fun x => 2 * x.1.enc.length + 2 * x.2.enc.length + 22 := ⟨by
  unfold searchModseqExt
  sizes []⟩
instance : Cost searchModsequence fun x => len (encModSequence x.1 x.2) := ⟨by
  unfold searchModsequence
  sizes [encModSequence]⟩

instance [Quirks] (n : Nat) : Cost (searchKey n) fun k => len k.enc := ⟨by
  induction n with
  | zero => exact .failure
  | succ n ih =>
    have : Cost (searchKey n) fun k => len k.enc := ⟨ih⟩
    unfold searchKey
    sizes [SearchKey.enc, SearchKey.enc_go]⟩
instance [Quirks] : Cost searchCriteria fun x => len x.1.enc + 1 + len (encKeys x.2) := ⟨by
  unfold searchCriteria
  sizes [encKeys]⟩

/-! ### The items of FETCH -/

instance [Quirks] : Cost headerList fun l => len (join b!" " (l.map AString.enc)) + 4 := ⟨by
  unfold headerList
  sizes []⟩

/-- The size of a part specifier, without the part. -/
def PartSpecifier.size (s : PartSpecifier) : Nat := len (Section.ofPart [] (some s)).enc - 1

instance [Quirks] : Cost sectionMsgtext fun s => s.size := ⟨by
  unfold sectionMsgtext
  sizes [PartSpecifier.size, Section.ofPart, Section.enc, encPartDot, encPart]⟩
instance : Cost sectionPart fun p => 2 * len (encPart p) := ⟨by
  unfold sectionPart
  sizes [encPart, encNat]
  exact Nat.le_of_eq (Nat.mul_add _ _ _)⟩
instance [Quirks] : Cost sectionText fun s => s.size := ⟨by
  unfold sectionText
  sizes [PartSpecifier.size, Section.ofPart, Section.enc, encPartDot, encPart]⟩
instance [Quirks] : Cost sectionSpec fun s => len s.enc := ⟨by
  unfold sectionSpec
  refine .altCons (.mapRes Cost.uses fun s t h => ?_) (.altCons ?_ .altNil)
  · cases s <;> cases h <;> simp [PartSpecifier.size, Section.ofPart, Section.enc, encPartDot, encPart] <;> omega
  · uses
    rename_i p s
    cases s with
    | none => simp [Section.ofPart, Section.enc]; omega
    | some s =>
      cases s <;> simp [PartSpecifier.size, Section.ofPart, Section.enc, encPartDot, encPart, len_join] <;> omega⟩
instance [Quirks] : Cost «section» fun s => len (encSectionOpt s) + 4 := ⟨by
  unfold «section»
  sizes [encSectionOpt]⟩
instance : Cost sectionBinary fun p => len (encPart p) + 4 := ⟨by
  unfold sectionBinary
  sizes [encPart]⟩
instance : Cost partial_ fun x => len (encPartial (some x)) := ⟨by
  unfold partial_
  sizes [encPartial]⟩
instance [Quirks] : Cost fetchAtt fun n => len n.enc := ⟨by
  unfold fetchAtt
  sizes [MessageDataItemName.enc, encPartial]⟩
instance [Quirks] : Cost macroOrNames fun n => len n.enc := ⟨by
  unfold macroOrNames
  uses
  all_goals try (simp [MacroOrNames.enc]; done)
  rename_i l
  unfold MacroOrNames.enc
  split <;> simp_all [len_join] <;> omega⟩

/-! ### The arguments of commands -/

theorem len_encParams (l : List (List W)) : len (encParams l) ≤ len (join b!" " l) + 3 := by
  unfold encParams
  split
  · simp
  · simp; omega

@[simp] theorem encParams_nil : encParams [] = [] := rfl

instance [Quirks] : Cost qresync fun p => len p.enc := ⟨by
  unfold qresync
  have : Cost (do
    sp
    char 40
    let a ← sequenceSet
    sp
    let b ← sequenceSet
    char 41
    return (a, b)) fun x : SequenceSet × SequenceSet => 2 * len (encSet x.1) + 2 * len (encSet x.2) + 8 := ⟨by sizes []⟩
  sizes [SelectParameter.enc]⟩
instance [Quirks] : Cost selectParam fun p => len p.enc := ⟨by
  unfold selectParam
  sizes [SelectParameter.enc]⟩
instance [Quirks] : Cost selectParams fun l => len (encParams (l.map SelectParameter.enc)) := ⟨by
  unfold selectParams
  uses
  rename_i l
  have := len_encParams (l.map SelectParameter.enc)
  simp [len_join] at *
  omega⟩
instance [Quirks] : Cost fetchModifier fun p => len p.enc := ⟨by
  unfold fetchModifier
  sizes [FetchModifier.enc]⟩
instance [Quirks] : Cost fetchModifiers fun l => len (encParams (l.map FetchModifier.enc)) := ⟨by
  unfold fetchModifiers
  uses
  rename_i l
  have := len_encParams (l.map FetchModifier.enc)
  simp [len_join] at *
  omega⟩
instance [Quirks] : Cost storeModifier fun n => len (encStoreModifier n) := ⟨by
  unfold storeModifier
  sizes [encStoreModifier]⟩

theorem len_encStoreModifiers (l : List StoreModifier) :
    len (encStoreModifiers l) ≤ len (join b!" " (l.map encStoreModifier)) + 3 := by
  unfold encStoreModifiers
  split
  · simp
  · simp; omega

instance [Quirks] : Cost storeModifiers fun l => len (encStoreModifiers l) := ⟨by
  unfold storeModifiers
  uses
  rename_i l
  have := len_encStoreModifiers l
  simp [len_join] at *
  omega⟩
instance : Cost storeAttFlags fun x => len x.1.enc + len x.2.1.enc + len (join b!" " (x.2.2.map Flag.enc)) + 8 := ⟨by
  unfold storeAttFlags
  refine .bind (c := fun t => len (t.getD .replace).enc) ?_ fun t => ?_
  · refine .mono (Uses.opt (c := fun t => len t.enc) ?_) fun v => ?_
    · sizes [StoreType.enc]
    · cases v <;> simp [StoreType.enc]
  · refine .bind Cost.uses fun _ => .bind (c := fun s => len (if s.isSome then StoreResponse.silent else .answer).enc) ?_ fun s => ?_
    · refine .mono Cost.uses fun v => ?_
      cases v <;> simp [StoreResponse.enc]
    · refine .bind Cost.uses fun _ => .bind (c := fun l => 2 * len (join b!" " (l.map Flag.enc))) ?_ fun l => .pure ?_
      · sizes []
      · simp
        omega⟩

theorem CapabilityEnable.ofAtom_size [Quirks] (a : Bytes) : (CapabilityEnable.ofAtom a).name.length ≤ a.length := by
  unfold CapabilityEnable.ofAtom
  dsimp only
  repeat' (split; rename_i h; have := length_of_lower h.2; simp [CapabilityEnable.name] at *; omega)
  simp [CapabilityEnable.name]

instance [Quirks] : Cost capabilityEnable fun c => 2 * len c.enc := ⟨by
  unfold capabilityEnable
  uses
  rename_i a
  have := CapabilityEnable.ofAtom_size a
  simp [CapabilityEnable.enc]
  omega⟩

theorem Resource.ofAtom_size (a : Bytes) : (Resource.ofAtom a).name.length ≤ a.length := by
  unfold Resource.ofAtom
  dsimp only
  repeat' (split; rename_i h; have := length_of_upper h; simp [Resource.name] at *; omega)
  simp [Resource.name]

instance : Cost resourceName fun r => 2 * r.name.length := ⟨by
  unfold resourceName
  uses
  rename_i a
  have := Resource.ofAtom_size a
  omega⟩
instance : Cost setquotaResource fun q => 2 * len q.enc := ⟨by
  unfold setquotaResource
  sizes [QuotaSet.enc]⟩
instance : Cost sortKey fun k => 2 * k.name.length := ⟨by
  unfold sortKey
  sizes [SortKey.name]⟩
instance : Cost sortCriterion fun c => 2 * len c.enc := ⟨by
  unfold sortCriterion
  sizes [SortCriterion.enc]⟩
instance : Cost sortCriteria fun l => 2 * len (join b!" " (l.map SortCriterion.enc)) + 4 := ⟨by
  unfold sortCriteria
  sizes []⟩

theorem ThreadingAlgorithm.ofAtom_size (a : Bytes) : (ThreadingAlgorithm.ofAtom a).name.length ≤ a.length := by
  unfold ThreadingAlgorithm.ofAtom
  dsimp only
  repeat' (split; rename_i h; have := length_of_lower h; simp [ThreadingAlgorithm.name] at *; omega)
  simp [ThreadingAlgorithm.name]

instance : Cost threadAlg fun a => 2 * a.name.length := ⟨by
  unfold threadAlg
  uses
  rename_i a
  have := ThreadingAlgorithm.ofAtom_size a
  omega⟩
instance [Quirks] : Cost idParam fun x => len (encIdParam x) := ⟨by
  unfold idParam
  sizes [encIdParam]⟩
instance [q : Quirks] : Cost idParamsList fun x => len (encIdParams x) := ⟨by
  unfold idParamsList
  have h : ∀ l : IdParams, len (encIdParams (some l)) ≤ total (fun x => len (encIdParam x)) l + 2 * (l.length - 1) + 4 := fun l => by
    cases l with
    | nil => simp [encIdParams]; split <;> simp
    | cons a l => simp [encIdParams, len_join]; omega
  refine .altCons (.map (c := fun l => total (fun x => len (encIdParam x)) l + 2 * (l.length - 1) + 4) ?_ h) ?_
  · split <;> sizes []
  · sizes [encIdParams]⟩
instance [Quirks] : Cost idCommand fun x => len (encIdParams x) + 6 := ⟨by
  unfold idCommand
  sizes []⟩
instance [Quirks] : Cost entry fun e => len e.enc := ⟨by
  unfold entry
  exact Cost.uses⟩
instance [Quirks] : Cost imapValue fun v => len v.enc := ⟨by
  unfold imapValue
  sizes [NString8.enc]⟩
instance [Quirks] : Cost entryValue fun e => len e.enc := ⟨by
  unfold entryValue
  sizes [EntryValue.enc]⟩
instance [Quirks] : Cost entryValues fun l => len (join b!" " (l.map EntryValue.enc)) + 4 := ⟨by
  unfold entryValues
  sizes []⟩
instance [Quirks] : Cost entries fun l => len (encEntries l) := ⟨by
  unfold entries entry
  uses
  · simp [encEntries]
  · rename_i l
    unfold encEntries
    split <;> simp [len_join] <;> omega⟩
instance : Cost getmetadataOption fun o => len o.enc := ⟨by
  unfold getmetadataOption
  sizes [GetMetadataOption.enc]⟩
instance : Cost getmetadataOptions fun l => len (join b!" " (l.map GetMetadataOption.enc)) + 4 := ⟨by
  unfold getmetadataOptions
  sizes []⟩

/-! ### Commands -/

instance [Quirks] : Cost append fun c => len c.enc := ⟨by
  unfold append
  have : Cost (alt [LiteralOrLiteral8.literal <$> literal, .literal8 <$> literal8]) fun m => len m.enc := ⟨by
    sizes [LiteralOrLiteral8.enc]⟩
  uses
  rename_i m f d _ msg
  have : len (encDateOpt d) ≤ d.elim 0 fun v => 2 + len v.enc := by
    cases d <;> simp [encDateOpt]
  cases f with
  | none => simp [CommandBody.enc]; omega
  | some f =>
    have := len_encParams (f.map Flag.enc)
    simp [CommandBody.enc]
    omega⟩
instance [Quirks] : Cost create fun c => len c.enc := ⟨by unfold create; sizes [CommandBody.enc]⟩
instance [Quirks] : Cost delete fun c => len c.enc := ⟨by unfold delete; sizes [CommandBody.enc]⟩
instance [Quirks] : Cost examine fun c => len c.enc := ⟨by unfold examine; sizes [CommandBody.enc]⟩
instance [Quirks] : Cost list fun c => len c.enc := ⟨by unfold list; sizes [CommandBody.enc]⟩
instance [Quirks] : Cost lsub fun c => len c.enc := ⟨by unfold lsub; sizes [CommandBody.enc]⟩
instance [Quirks] : Cost rename fun c => len c.enc := ⟨by unfold rename; sizes [CommandBody.enc]⟩
instance [Quirks] : Cost select fun c => len c.enc := ⟨by unfold select; sizes [CommandBody.enc]⟩
instance [Quirks] : Cost status fun c => len c.enc := ⟨by unfold status; sizes [CommandBody.enc]⟩
instance [Quirks] : Cost subscribe fun c => len c.enc := ⟨by unfold subscribe; sizes [CommandBody.enc]⟩
instance [Quirks] : Cost unsubscribe fun c => len c.enc := ⟨by unfold unsubscribe; sizes [CommandBody.enc]⟩
instance [Quirks] : Cost enable fun c => len c.enc := ⟨by
  unfold enable
  uses
  simp only [Nat.add_comm 2, total_sep, total_mul]
  simp [CommandBody.enc, len_join]
  omega⟩
instance [Quirks] : Cost compress fun c => len c.enc := ⟨by unfold compress; sizes [CommandBody.enc]⟩
instance [Quirks] : Cost getquota fun c => len c.enc := ⟨by unfold getquota; sizes [CommandBody.enc]⟩
instance [Quirks] : Cost getquotaroot fun c => len c.enc := ⟨by unfold getquotaroot; sizes [CommandBody.enc]⟩
instance [Quirks] : Cost setquota fun c => len c.enc := ⟨by unfold setquota; sizes [CommandBody.enc]⟩
instance [Quirks] : Cost setmetadata fun c => len c.enc := ⟨by unfold setmetadata; sizes [CommandBody.enc]⟩
instance [Quirks] : Cost getmetadata fun c => len c.enc := ⟨by
  unfold getmetadata
  uses
  rename_i o _ m _ e
  cases o with
  | none => simp [CommandBody.enc]; omega
  | some o =>
    have := len_encParams (o.map GetMetadataOption.enc)
    simp [CommandBody.enc, len_join] at *
    omega⟩
instance [Quirks] : Cost commandAny fun c => len c.enc := ⟨by unfold commandAny; sizes [CommandBody.enc]⟩
instance [Quirks] : Cost commandAuth fun c => len c.enc := ⟨by unfold commandAuth; sizes [CommandBody.enc]⟩
instance [Quirks] : Cost login fun c => len c.enc := ⟨by unfold login; sizes [CommandBody.enc]⟩
instance [Quirks] : Cost authenticate fun c => len c.enc := ⟨by
  unfold authenticate
  refine .bind Cost.uses fun _ => .bind Cost.uses fun m =>
    .bind (c := fun d => len (encInitialResponse d)) (.mono (Uses.opt (c := fun d => len (encInitialResponse (some d))) ?_) fun v => ?_)
      fun d => .pure ?_
  · refine .bind (c := fun _ => 2) ?_ fun _ => ?_
    · exact Cost.uses
    · refine .altCons (.mono Cost.uses fun d => ?_) ?_
      · simp only [encInitialResponse, len_wr, len_nil]
        split <;> simp only [List.length_cons, List.length_nil] <;> omega
      · sizes [encInitialResponse]
  · cases v <;> simp [encInitialResponse]
  · simp [CommandBody.enc, AuthMechanism.enc]
    omega⟩
instance [Quirks] : Cost commandNonauth fun c => len c.enc := ⟨by unfold commandNonauth; sizes [CommandBody.enc]⟩
instance [Quirks] : Cost uidExpunge fun c => len c.enc := ⟨by unfold uidExpunge; sizes [CommandBody.enc]⟩
instance [Quirks] : Cost copy fun c => len c.enc := ⟨by unfold copy; sizes [CommandBody.enc, encUid]⟩
instance [Quirks] : Cost move fun c => len c.enc := ⟨by unfold move; sizes [CommandBody.enc, encUid]⟩
instance [Quirks] : Cost fetch fun c => len c.enc := ⟨by unfold fetch; sizes [CommandBody.enc, encUid]⟩
instance [Quirks] : Cost store fun c => len c.enc := ⟨by unfold store; sizes [CommandBody.enc, encUid, encStoreModifiers]⟩
instance [Quirks] : Cost search fun c => len c.enc := ⟨by unfold search; sizes [CommandBody.enc, encUid, encCharsetOpt, encKeys]⟩
instance [Quirks] : Cost sort fun c => len c.enc := ⟨by unfold sort; sizes [CommandBody.enc, encUid]⟩
instance [Quirks] : Cost thread fun c => len c.enc := ⟨by unfold thread; sizes [CommandBody.enc, encUid]⟩
instance [Quirks] : Cost uidBody fun c => len c.enc := ⟨by unfold uidBody; sizes []⟩

theorem setUid_size [Quirks] {b c : CommandBody} (h : b.setUid = some c) : len c.enc ≤ len b.enc + 4 := by
  cases b <;> simp only [CommandBody.setUid, Option.some.injEq, reduceCtorEq] at h <;> cases h <;>
    simp [CommandBody.enc, encUid] <;> split <;> simp <;> omega

instance [Quirks] : Cost uid fun c => len c.enc := ⟨by
  unfold uid
  refine .bind Cost.uses fun _ => .bind Cost.uses fun _ => .mono (.mapRes (d := fun c => len c.enc - 4) Cost.uses fun b c h => ?_) fun c => ?_
  · have := setUid_size h
    omega
  · simp
    omega⟩
instance [Quirks] : Cost commandSelect fun c => len c.enc := ⟨by unfold commandSelect; sizes [CommandBody.enc]⟩
instance [Quirks] : Cost commandBody fun c => len c.enc + 2 := ⟨by
  unfold commandBody
  have : Cost (alt [commandAny, commandAuth, commandNonauth, commandSelect]) fun c => len c.enc := ⟨by sizes []⟩
  sizes []⟩
instance [Quirks] : Cost command fun c => len c.enc := ⟨by
  unfold command
  refine .bind Cost.uses fun t => .bind Cost.uses fun _ => fun x r v hv => ?_
  have h : Uses (do let b ← commandBody; return ⟨t, b⟩ : P Command) fun c => len c.enc - (2 * t.length) - 2 := by
    sizes [Command.enc]
  refine h x r v ?_
  simp only [fillTag] at hv
  split at hv
  · cases hv
  · exact hv⟩

end Imap
