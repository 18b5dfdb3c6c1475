import Verif.SizeCommand
import Verif.BodyLemmas
import Verif.ResponseLemmas
/-
How much of its input each parser of the responses consumes, compared with the size of the encoding of what it returns (see Size.lean).
-/
namespace Imap

/-! ### Envelopes and bodies -/

theorem len_list1OrNil (sep : Bytes) (l : List (List W)) : len (list1OrNil sep l) ≤ len (join sep l) + 3 := by
  unfold list1OrNil
  split
  · simp
  · simp; omega

theorem len_encParamList (l : Params) : len (encParamList l) ≤ total (fun x => len x.1.enc + 1 + len x.2.enc) l + (l.length - 1) + 3 := by
  have := len_list1OrNil b!" " ((l.map fun x => (x.1.enc, x.2.enc)).map fun x => x.1 ++ [.wr b!" "] ++ x.2)
  unfold encParamList list1AttrOrNil
  simp only [len_join, total_map, List.length_map, len_append, len_wr, len_nil, List.length_cons, List.length_nil] at *
  simp only [Nat.add_assoc, Nat.zero_add, Nat.add_zero, Nat.one_mul] at *
  omega

section
variable [q : Quirks]

instance : Cost addressParen fun a => len a.enc := ⟨by
  unfold addressParen
  sizes [Address.enc]⟩
instance : Cost address fun a => len a.enc := ⟨by
  unfold address
  split
  · sizes []
  · exact Cost.uses⟩
instance : Cost envAddresses fun l => len (encAddresses l) := ⟨by
  unfold envAddresses
  uses
  · rename_i l
    have := len_list1OrNil [] (l.map Address.enc)
    simp [encAddresses, len_join] at *
    omega
  · simp [encAddresses, list1OrNil]⟩
instance : Cost envelope fun e => len e.enc := ⟨by
  unfold envelope
  sizes [Envelope.enc]⟩
instance (n : Nat) : Cost (bodyExtension n) fun e => len e.enc := ⟨by
  induction n with
  | zero => exact .failure
  | succ n ih =>
    have : Cost (bodyExtension n) fun k => len k.enc := ⟨ih⟩
    unfold bodyExtension
    sizes [BodyExtension.enc, BodyExtension.enc_go, encNat]⟩
instance : Cost fldParam fun x => len x.1.enc + len x.2.enc + 4 := ⟨by
  unfold fldParam
  sizes []⟩
instance : Cost bodyFldParam fun l => len (encParamList l) := ⟨by
  unfold bodyFldParam
  uses
  · rename_i l
    have := len_encParamList l
    have h : total (fun x : IString × IString => len x.1.enc + 1 + len x.2.enc) l ≤ total (fun x => len x.1.enc + len x.2.enc + 4) l :=
      total_mono (fun a => by omega) l
    simp only [List.length_cons, List.length_nil]
    omega
  · simp [encParamList, list1AttrOrNil, list1OrNil]⟩
instance : Cost bodyFldEnc fun s => len s.enc := ⟨by
  unfold bodyFldEnc
  split
  · uses
    rename_i s
    have : escapeQuoted [] = [] := rfl
    cases s <;> simp [encNString, IString.enc, encQuoted, this]
  · sizes []⟩
instance : Cost bodyFldOctets fun n => (showNat n).length := ⟨by
  unfold bodyFldOctets
  split
  · have : (showNat 0).length = 1 := by rw [showNat]; rfl
    sizes [this]
  · sizes []⟩
instance : Cost bodyFldDsp fun d => len (encDisposition d) := ⟨by
  unfold bodyFldDsp
  sizes [encDisposition]⟩
instance : Cost bodyFldLang fun l => len (list1OrNil b!" " (l.map IString.enc)) := ⟨by
  unfold bodyFldLang
  uses
  · rename_i s
    cases s <;> simp [encNString, list1OrNil, len_join]
    omega
  · rename_i l
    have := len_list1OrNil b!" " (l.map IString.enc)
    simp [len_join, total_sep] at *
    omega⟩
instance : Cost extLocation fun x => len x.enc + 2 := ⟨by
  unfold extLocation
  uses
  simp only [Nat.add_comm 2, total_sep]
  simp [Location.enc, len_flatMap, Nat.add_comm 1, total_sep]
  omega⟩
instance : Cost extLanguage fun x => len x.enc + 2 := ⟨by
  unfold extLanguage
  sizes [Language.enc, encOpt]⟩
instance : Cost extDisposition fun x => len x.enc + 2 := ⟨by
  unfold extDisposition
  sizes [Disposition.enc, encOpt]⟩
instance : Cost bodyExt1part fun x => len x.enc := ⟨by
  unfold bodyExt1part
  sizes [SinglePartExt.enc, encOpt]⟩
instance : Cost bodyExtMpart fun x => len x.enc := ⟨by
  unfold bodyExtMpart
  sizes [MultiPartExt.enc, encOpt]⟩
instance : Cost bodyFields fun x => len x.enc := ⟨by
  unfold bodyFields
  sizes [BasicFields.enc]⟩

/-- The size of the fields of a body. -/
def fieldsSize (x : BasicFields × SpecificFields BodyStructure) : Nat := len (BodyStructure.single x.1 none x.2).enc - 2

instance : Cost (bodyTypeBasic (B := BodyStructure)) fieldsSize := ⟨by
  unfold bodyTypeBasic
  sizes [fieldsSize, BodyStructure.single, BodyStructure.enc, encOpt]⟩
instance : Cost (bodyTypeText (B := BodyStructure)) fieldsSize := ⟨by
  unfold bodyTypeText
  sizes [fieldsSize, BodyStructure.single, BodyStructure.enc, encOpt]⟩
instance (p : P BodyStructure) [Cost p fun b => len b.enc] : Cost (bodyTypeMsg p) fieldsSize := ⟨by
  unfold bodyTypeMsg
  sizes [fieldsSize, BodyStructure.single, BodyStructure.enc, encOpt]⟩
instance (n : Nat) (p : P BodyStructure) [Cost p fun b => len b.enc] : Cost (bodyType1part n p) fun b => len b.enc - 2 := ⟨by
  unfold bodyType1part
  split
  · exact .failure
  · have : Cost (alt [bodyTypeMsg p, bodyTypeText, bodyTypeBasic]) fieldsSize := ⟨by sizes []⟩
    uses
    rename_i x e
    obtain ⟨f, s⟩ := x
    cases s <;> cases e <;> simp [fieldsSize, BodyStructure.single, BodyStructure.enc, encOpt] <;> omega⟩
instance (n : Nat) (p : P BodyStructure) [Cost p fun b => len b.enc] : Cost (bodyTypeMpart n p) fun b => len b.enc - 2 := ⟨by
  unfold bodyTypeMpart
  split
  · exact .failure
  · sizes [BodyStructure.enc, BodyStructure.enc_go, encOpt]⟩
instance (n : Nat) (p r : P BodyStructure) [Cost p fun b => len b.enc] [Cost r fun b => len b.enc] :
    Cost (bodyStep n p r) fun b => len b.enc := ⟨by
  unfold bodyStep
  split
  · exact .failure
  · have : Cost (alt [bodyType1part (n - 1) p, bodyTypeMpart (n - 1) r]) fun b => len b.enc - 2 := ⟨by sizes []⟩
    sizes []⟩

theorem uses_bodyFuel (f n : Nat) : Uses (bodyFuel f n) fun b => len b.enc := by
  induction f generalizing n with
  | zero => exact .fail fun x v h => by cases h
  | succ f ih =>
    have : ∀ n, Cost (bodyFuel f n) fun b => len b.enc := fun n => ⟨ih n⟩
    unfold bodyFuel
    exact Cost.uses

instance (n : Nat) : Cost (body n) fun b => len b.enc := ⟨fun x r v hv => uses_bodyFuel _ _ x r v hv⟩

end

/-! ### Capabilities and codes -/

theorem Capability.ofAtom_size [Quirks] (a : Bytes) : (Capability.ofAtom a).name.length ≤ a.length := by
  rcases capability_name_lower a with h | ⟨q, p, x, _, h1, h2⟩
  · have := congrArg List.length h
    simp only [lowerAll_length] at this
    omega
  · have h1 := congrArg List.length h1
    have h2 := congrArg List.length h2
    simp at h1 h2
    omega

section
variable [q : Quirks]

instance : Cost capability fun c => 2 * len c.enc := ⟨by
  unfold capability
  uses
  rename_i a
  have := Capability.ofAtom_size a
  simp [Capability.enc]
  omega⟩
instance : Cost capabilityData fun l => 2 * len (join b!" " (l.map Capability.enc)) + 22 := ⟨by
  unfold capabilityData
  split <;> sizes []⟩
instance : Cost uidRange fun u => 2 * len u.enc := ⟨by
  unfold uidRange
  sizes [UidElement.enc]⟩
instance : Cost uidSet fun l => 2 * len (encUidSet l) := ⟨by
  unfold uidSet
  have : Cost (alt [uidRange, .single <$> nzNumber]) fun u => 2 * len u.enc := ⟨by sizes [UidElement.enc]⟩
  refine .mono Cost.uses fun l => ?_
  simp [encUidSet, len_join, total_mul]
  omega⟩
instance : Cost metadataCode fun c => len c.enc := ⟨by
  unfold metadataCode
  sizes [MetadataCode.enc]⟩
instance : Cost charsetList fun l => len (encBadCharset l) - 10 := ⟨by
  unfold charsetList
  uses
  rename_i l
  unfold encBadCharset
  split <;> simp [len_join] <;> omega⟩
instance : Cost flagPermList fun l => 2 * len (join b!" " (l.map FlagPerm.enc)) + 4 := ⟨by
  unfold flagPermList
  have : join b!" " [] = [] := rfl
  sizes [this]⟩
instance : Cost respCodeApnd fun c => len c.enc := ⟨by
  unfold respCodeApnd
  sizes [Code.enc]⟩
instance : Cost respCodeCopy fun c => len c.enc := ⟨by
  unfold respCodeCopy
  sizes [Code.enc]⟩
instance : Cost respTextCode fun c => len c.enc := ⟨by
  unfold respTextCode
  sizes [Code.enc, encBadCharset]⟩
instance : Cost codeKnown fun c => len c.enc + 2 := ⟨by
  unfold codeKnown
  sizes []⟩
instance : Cost codeOther fun c => len c.enc + 2 := ⟨by
  unfold codeOther
  sizes [Code.enc]⟩

omit q in
theorem uses_peek {α : Type} (p : P α) : Uses (peek p) fun _ => 0 := fun x r v hv => by
  simp only [peek, Res.andThen_eq_ok, Res.ok.injEq] at hv
  obtain ⟨_, _, _, rfl, rfl⟩ := hv
  exact Nat.le_refl _

instance {α : Type} (p : P α) : Cost (peek p) fun _ => 0 := ⟨uses_peek p⟩
instance : Cost textAfterCode fun t => t.length - 3 := ⟨by
  unfold textAfterCode
  split <;> sizes []⟩
instance : Cost respTextCoded fun x => len (encRespText x.1 x.2) - 2 := ⟨by
  unfold respTextCoded
  have : Cost (alt [codeKnown, codeOther]) fun c => len c.enc + 2 := ⟨by sizes []⟩
  sizes [encRespText]⟩
instance : Cost respTextPlain fun x => len (encRespText x.1 x.2) - 2 := ⟨by
  unfold respTextPlain
  sizes [encRespText]⟩
instance : Cost respText fun x => len (encRespText x.1 x.2) - 2 := ⟨by
  unfold respText
  refine .bind Cost.uses fun s => ?_
  split <;> exact Uses.mono Cost.uses fun _ => by omega⟩

/-! ### Greetings, statuses, continuation requests -/

instance : Cost condAuthKind fun k => 2 * k.name.length + 2 := ⟨by
  unfold condAuthKind
  sizes [GreetingKind.name]⟩
instance : Cost respCondAuth fun x => 2 * x.1.name.length + 2 + (len (encRespText x.2.1 x.2.2) - 2) := ⟨by
  unfold respCondAuth
  sizes []⟩
instance : Cost respCondBye fun x => 8 + (len (encRespText x.1 x.2) - 2) := ⟨by
  unfold respCondBye
  sizes []⟩
instance : Cost greeting fun g => len g.enc := ⟨by
  unfold greeting
  have : Cost (alt [respCondAuth, (fun t => (GreetingKind.bye, t)) <$> respCondBye])
    fun x => 2 * x.1.name.length + 2 + (len (encRespText x.2.1 x.2.2) - 2) := ⟨by sizes [GreetingKind.name]⟩
  sizes [Greeting.enc]⟩
instance : Cost condStateKind fun k => 2 * k.name.length + 2 := ⟨by
  unfold condStateKind
  sizes [StatusKind.name]⟩
instance : Cost respCondState fun x => 2 * x.1.name.length + 2 + (len (encRespText x.2.1 x.2.2) - 2) := ⟨by
  unfold respCondState
  sizes []⟩

omit q in
theorem StatusKind.name_length (k : StatusKind) : 2 ≤ k.name.length := by cases k <;> simp [StatusKind.name]

instance : Cost responseTagged fun s => len s.enc := ⟨by
  unfold responseTagged
  uses
  rename_i t _ x _
  have := x.1.name_length
  simp [Status.enc]
  omega⟩
instance : Cost responseFatal fun s => len s.enc := ⟨by
  unfold responseFatal
  sizes [Status.enc]⟩
instance : Cost responseDone fun s => len s.enc := ⟨by
  unfold responseDone
  sizes []⟩
instance (t : Bytes) : Cost (takeUntil t) fun v => 2 * v.length := ⟨fun x r v hv => by
  unfold takeUntil at hv
  split at hv
  · rename_i h
    cases hv
    have := congrArg List.length (splitOnce_eq h)
    simp at this ⊢
    omega
  · cases hv⟩

omit q in
theorem stripCr_length (s : Bytes) : (stripCr s).length ≤ s.length := by
  unfold stripCr
  split <;> simp

instance : Cost continueBase64 fun d => 2 * (b64Encode d).length := ⟨by
  unfold continueBase64
  split
  · refine .mapRes Cost.uses fun s d h => ?_
    rw [b64_encode_decode _ _ h]
    have := stripCr_length s
    omega
  · refine .mapRes Cost.uses fun s d h => ?_
    rw [b64_encode_decode _ _ h]⟩

/-- The size of the encoding of a continuation request. -/
def ContinueEither.size : ContinueEither → Nat
  | .base64 d => len (ContinueReq.base64 d).enc
  | .basic x => len (ContinueReq.basic x.1 x.2).enc

instance : Cost continueInner ContinueEither.size := ⟨by
  unfold continueInner
  have : Cost (alt [ContinueEither.base64 <$> continueBase64, ContinueEither.basic <$> respText]) fun x => x.size - 6 := ⟨by
    sizes [ContinueEither.size, ContinueReq.enc]⟩
  sizes []⟩
instance : Cost continueReq fun c => len c.enc := ⟨by
  unfold continueReq
  refine .mapRes Cost.uses fun s d h => ?_
  cases s with
  | base64 s => cases h; exact Nat.le_refl _
  | basic x =>
    simp only [ContinueEither.toReq, ContinueReq.ofBasic] at h
    split at h
    · cases h
    · split at h <;> cases h
      exact Nat.le_refl _⟩

/-! ### Data -/

instance : Cost statusAttVal fun s => len s.enc := ⟨by
  unfold statusAttVal
  sizes [StatusDataItem.enc]⟩
instance : Cost flagFetchList fun l => 2 * len (join b!" " (l.map FlagFetch.enc)) + 4 := ⟨by
  unfold flagFetchList
  have : join b!" " [] = [] := rfl
  sizes [this]⟩
instance : Cost msgAttDynamic fun i => len i.enc := ⟨by
  unfold msgAttDynamic
  sizes [MessageDataItem.enc]⟩
instance : Cost msgBodyExt fun i => len i.enc := ⟨by
  unfold msgBodyExt
  sizes [MessageDataItem.enc, encOrigin]⟩
instance : Cost msgAttStatic fun i => len i.enc := ⟨by
  unfold msgAttStatic
  sizes [MessageDataItem.enc]⟩
instance : Cost msgAtt fun l => len (join b!" " (l.map MessageDataItem.enc)) + 4 := ⟨by
  unfold msgAtt
  have : Cost (alt [msgAttDynamic, msgAttStatic]) fun i => len i.enc := ⟨by sizes []⟩
  sizes []⟩

omit q in
theorem len_encThread_go (l : List Thread) : len (Thread.enc.go l) = total (fun t => len t.enc) l := by
  induction l with
  | nil => simp [Thread.enc.go]
  | cons t l ih => simp [Thread.enc.go, ih]

omit q in
theorem len_encPrefix (p : List NzU32) (l : List Thread) :
    len (encPrefix p l) ≤ total (fun n => (showNat n).length) p + (p.length - 1) + if l.isEmpty then 0 else 1 := by
  unfold encPrefix
  simp only [len_append, len_join, total_map, List.length_map]
  split <;> simp [encNat]

instance (n : Nat) : Cost (threadList n) fun t => len t.enc := ⟨by
  induction n with
  | zero => exact .failure
  | succ n ih =>
    have : Cost (threadList n) fun k => len k.enc := ⟨ih⟩
    unfold threadList
    have : Cost (alt [do
        let p ← sepList1 sp nzNumber
        let l ← opt (do sp; many2 (threadList n))
        return Thread.members p (l.getD []),
      Thread.nested <$> many2 (threadList n)]) fun t => len t.enc - 2 := ⟨by
        uses
        · rename_i p l
          have := len_encPrefix p (l.getD [])
          cases l with
          | none => simp [Thread.enc, len_encThread_go, total_mul] at *; omega
          | some l =>
            cases l <;> simp [Thread.enc, len_encThread_go, total_mul] at * <;> omega
        · simp [Thread.enc, len_encThread_go]; omega⟩
    sizes []⟩
instance : Cost threadData fun l => len (encThreads l) := ⟨by
  unfold threadData
  uses
  rename_i l
  cases l with
  | none => simp [encThreads]
  | some l =>
    cases l <;> simp [encThreads, ← List.flatMap_def, len_flatMap]
    omega⟩
instance : Cost delimiter fun d => len (encDelimiter d) := ⟨by
  unfold delimiter
  sizes [encDelimiter, encQuotedChar]
  split
  · simp
  · split <;> simp⟩
instance : Cost namespaceExt fun e => len e.enc := ⟨by
  unfold namespaceExt
  sizes [NamespaceExt.enc]⟩
instance : Cost namespaceDescr fun n => len n.enc := ⟨by
  unfold namespaceDescr
  sizes [Namespace.enc, ← List.flatMap_def]⟩
instance : Cost namespaces fun l => len (encNamespaces l) := ⟨by
  unfold namespaces
  uses
  · simp [encNamespaces]
  · rename_i l
    unfold encNamespaces
    split <;> simp [← List.flatMap_def, len_flatMap] <;> omega⟩
instance : Cost quotaSp fun _ => 2 := ⟨by
  unfold quotaSp
  split
  · have h : Uses (many1 sp) fun _ => 2 := .bind Cost.uses fun a => .bind (.many0 Cost.uses) fun l => .pure (by simp)
    exact .value h fun _ => Nat.le_refl _
  · exact Cost.uses⟩
instance : Cost quotaResource fun x => len x.enc := ⟨by
  unfold quotaResource
  sizes [QuotaGet.enc]⟩
instance : Cost metadataItems fun x => len x.enc := ⟨by
  unfold metadataItems entry
  sizes [MetadataResponse.enc]⟩
instance : Cost mailboxList fun x => 2 * len (join b!" " (x.1.map FlagNameAttribute.enc)) + 8 + len (encDelimiter x.2.1) + len x.2.2.enc := ⟨by
  unfold mailboxList
  have : join b!" " [] = [] := rfl
  sizes [this]⟩
instance : Cost searchSortModSeq fun n => 2 * len (encModSeqOpt (some n)) - 2 := ⟨by
  unfold searchSortModSeq
  sizes [encModSeqOpt]⟩

omit q in
theorem len_encNumbers (kw : Bytes) (l : List NzU32) :
    len (encNumbers kw l) ≤ kw.length + 2 + total (fun n => (showNat n).length) l + l.length := by
  unfold encNumbers
  split
  · simp
  · rename_i h
    have := List.length_pos_iff.2 h
    simp [len_join, encNat]
    omega

instance : Cost searchNumbers fun x => 2 * (total (fun n => (showNat n).length) x.1 + x.1.length) + len (encModSeqOpt x.2) := ⟨by
  unfold searchNumbers
  refine .bind (c := fun l => 2 * (total (fun n => (showNat n).length) l + l.length)) (.mono (.many0 Cost.uses) fun l => ?_) fun l =>
    .bind (c := fun m => len (encModSeqOpt m)) (.mono (.opt (.gate Cost.uses)) fun m => ?_) fun m => .pure ?_
  · simp only [Nat.add_comm 2, total_sep, total_mul]
    omega
  · cases m <;> simp [encModSeqOpt]
    omega
  · simp⟩
instance (b : Bool) : Cost (optSpIf b) fun _ => 0 := ⟨by
  unfold optSpIf
  split <;> sizes []⟩
instance : Cost searchData fun d => len d.encLine := ⟨by
  unfold searchData
  uses
  rename_i x _
  have := len_encNumbers b!"SEARCH" x.1
  simp [Data.encLine] at *
  omega⟩
instance : Cost sortData fun d => len d.encLine - 4 := ⟨by
  unfold sortData
  uses
  rename_i x
  have := len_encNumbers b!"SORT" x.1
  simp [Data.encLine] at *
  omega⟩
instance : Cost statusItems fun l => len (join b!" " (l.map StatusDataItem.enc)) + 6 := ⟨by
  unfold statusItems
  have : join b!" " [] = [] := rfl
  sizes [this]⟩
instance : Cost statusData fun d => len d.encLine - 4 := ⟨by
  unfold statusData
  sizes [Data.encLine]⟩
instance : Cost metadataResp fun d => len d.encLine - 4 := ⟨by
  unfold metadataResp
  sizes [Data.encLine]⟩
instance : Cost namespaceResponse fun d => len d.encLine - 4 := ⟨by
  unfold namespaceResponse
  sizes [Data.encLine]⟩
instance : Cost quotarootResponse fun d => len d.encLine - 4 := ⟨by
  unfold quotarootResponse
  uses
  simp only [Nat.add_comm 2, total_sep]
  simp [Data.encLine, encSpaced, ← List.flatMap_def, len_flatMap, Nat.add_comm 1, total_sep]
  omega⟩
instance : Cost quotaResponse fun d => len d.encLine - 4 := ⟨by
  unfold quotaResponse
  sizes [Data.encLine]⟩
instance : Cost mailboxData fun d => len d.encLine - 4 := ⟨by
  unfold mailboxData
  sizes [Data.encLine]⟩
instance (n : NzU32) : Cost (messageDataTail n) fun d => len d.encLine - 4 - 2 * (showNat n).length - 2 := ⟨by
  unfold messageDataTail
  sizes [Data.encLine]⟩
instance : Cost vanishedData fun d => len d.encLine - 4 := ⟨by
  unfold vanishedData
  sizes [Data.encLine]⟩
instance : Cost messageData fun d => len d.encLine - 4 := ⟨by
  unfold messageData
  sizes []⟩
instance : Cost enableData fun d => len d.encLine - 4 := ⟨by
  unfold enableData
  uses
  simp only [Nat.add_comm 2, total_sep, total_mul]
  simp [Data.encLine, encSpaced, ← List.flatMap_def, len_flatMap, Nat.add_comm 1, total_sep]
  omega⟩
instance : Cost idResponse fun p => len (encIdParams p) + 6 := ⟨by
  unfold idResponse
  sizes []⟩

/-! ### Responses -/

instance : Cost responseDataInner fun r => len r.enc - 6 := ⟨by
  unfold responseDataInner
  sizes [Response.enc, Status.enc, Data.enc, Data.encLine]⟩
instance : Cost responseData fun r => len r.enc := ⟨by
  unfold responseData
  sizes []⟩

/-- The request that stands for an empty one, which is longer than what has been parsed. -/
def Response.placeholder : Response := .continue_ (.basic none b!"...")

theorem uses_response_plain : Uses (alt [.continue_ <$> continueReq, responseData, .status <$> responseDone]) fun r => len r.enc := by
  sizes [Response.enc]

theorem uses_response : Uses response fun r => if r.enc = Response.placeholder.enc then 4 else len r.enc := by
  have h' : Uses (alt [.continue_ <$> continueReq, responseData, .status <$> responseDone])
      fun r => if r.enc = Response.placeholder.enc then 4 else len r.enc := uses_response_plain.mono fun v => by
    split
    · rename_i h
      rw [h]
      simp [Response.placeholder, Response.enc, ContinueReq.enc, encRespText]
    · exact Nat.le_refl _
  unfold response
  split
  · refine .altCons (fun x r v hv => ?_) h'
    simp only [P.map_apply, emptyContinueReq, P.bind_apply, Res.andThen_eq_ok, P.pure_apply, Res.ok.injEq] at hv
    obtain ⟨r1, c, ⟨r2, _, h1, r3, _, h2, rfl, rfl⟩, rfl, rfl⟩ := hv
    have h1 := Cost.uses (p := tag b!"+") _ _ _ h1
    have h2 := Cost.uses (p := crlf) _ _ _ h2
    simp [Response.placeholder] at *
    omega
  · exact h'

end

end Imap
