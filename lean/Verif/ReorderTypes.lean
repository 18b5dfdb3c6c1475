import Verif.Reorder
set_option maxRecDepth 10000
set_option synthInstance.maxSize 100000
set_option synthInstance.maxHeartbeats 400000
/-! The order of fields does not matter for the deserialization of any type: the types of imap-types. -/
namespace Imap.Serde

open Imap

variable {α β : Type}

instance : Respects u32 := by unfold u32; infer_instance
instance : Respects u64 := by unfold u64; infer_instance
instance : Respects nz32 := by unfold nz32; infer_instance
instance : Respects nz64 := by unfold nz64; infer_instance
instance : Respects bytes := by unfold bytes; infer_instance
instance (n : Nat) (s : S α) [Respects s] : Respects (vec n s) := by unfold vec; infer_instance
instance : Respects atom := by unfold atom; infer_instance
instance : Respects atomExt := by unfold atomExt; infer_instance
instance : Respects quoted := by unfold quoted; infer_instance
instance : Respects quotedUtf8 := by unfold quotedUtf8; infer_instance
instance : Respects tag := by unfold tag; infer_instance
instance : Respects text := by unfold text; infer_instance
instance : Respects literalMode := by unfold literalMode; infer_instance
instance : Respects literal := by unfold literal; infer_instance
instance : Respects literal8 := by unfold literal8; infer_instance
instance : Respects istring := by unfold istring; infer_instance
instance : Respects nstring := by unfold nstring; infer_instance
instance : Respects astring := by unfold astring; infer_instance
instance : Respects charset := by unfold charset; infer_instance
instance : Respects literalOrLiteral8 := by unfold literalOrLiteral8; infer_instance
instance : Respects nstring8 := by unfold nstring8; infer_instance
instance : Respects seqOrUid := by unfold seqOrUid; infer_instance
instance : Respects sequence := by unfold sequence; infer_instance
instance : Respects sequenceSet := by unfold sequenceSet; infer_instance
instance : Respects flag := by unfold flag; infer_instance
instance : Respects flagFetch := by unfold flagFetch; infer_instance
instance : Respects flagPerm := by unfold flagPerm; infer_instance
instance : Respects flagNameAttribute := by unfold flagNameAttribute; infer_instance
instance : Respects mailboxOther := by unfold mailboxOther; infer_instance
instance : Respects mailbox := by unfold mailbox; infer_instance
instance : Respects listCharString := by unfold listCharString; infer_instance
instance : Respects listMailbox := by unfold listMailbox; infer_instance
instance : Respects authMechanism := by unfold authMechanism; infer_instance
instance : Respects authenticateData := by unfold authenticateData; infer_instance
instance : Respects part := by unfold part; infer_instance
instance : Respects section_ := by unfold section_; infer_instance
instance : Respects messageDataItemName := by unfold messageDataItemName; infer_instance
instance : Respects macro_ := by unfold macro_; infer_instance
instance : Respects macroOrNames := by unfold macroOrNames; infer_instance
instance : Respects attributeFlag := by unfold attributeFlag; infer_instance
instance : Respects entryTypeReq := by unfold entryTypeReq; infer_instance

instance (s : S SearchKey) [Respects s] : RespectsVs (keyVariants s) := by unfold keyVariants; infer_instance

theorem deKey_respects : ∀ n v w, Step v w → deKey n v = deKey n w
  | 0, _, _, _ => rfl
  | n + 1, _, _, h =>
    have : Respects { ser := serKey, de := deKey n } := ⟨deKey_respects n⟩
    untag_respects (keyVariants { ser := serKey, de := deKey n }) h

instance : Respects searchKey where
  de v w h := by
    show deKey v.depth v = deKey w.depth w
    rw [step_depth h]
    exact deKey_respects _ v w h

instance : Respects selectParameter := by unfold selectParameter; infer_instance
instance : Respects fetchModifier := by unfold fetchModifier; infer_instance
instance : Respects storeModifier := by unfold storeModifier; infer_instance
instance : Respects storeType := by unfold storeType; infer_instance
instance : Respects storeResponse := by unfold storeResponse; infer_instance
instance : Respects statusDataItemName := by unfold statusDataItemName; infer_instance
instance : Respects compressionAlgorithm := by unfold compressionAlgorithm; infer_instance
instance : Respects utf8Kind := by unfold utf8Kind; infer_instance
instance : Respects capabilityEnable := by unfold capabilityEnable; infer_instance
instance : Respects resource := by unfold resource; infer_instance
instance : Respects quotaSet := by unfold quotaSet; infer_instance
instance : Respects sortKey := by unfold sortKey; infer_instance
instance : Respects sortCriterion := by unfold sortCriterion; infer_instance
instance : Respects threadingAlgorithm := by unfold threadingAlgorithm; infer_instance
instance : Respects idParams := by unfold idParams; infer_instance
instance : Respects entry := by unfold entry; infer_instance
instance : Respects entryValue := by unfold entryValue; infer_instance
instance : Respects depth := by unfold depth; infer_instance
instance : Respects getMetadataOption := by unfold getMetadataOption; infer_instance
instance : Respects commandBody := by unfold commandBody; infer_instance
instance : Respects command := by unfold command; infer_instance
instance : Respects address := by unfold address; infer_instance
instance : Respects envelope := by unfold envelope; infer_instance

instance (s : S BodyExtension) [Respects s] : RespectsVs (extensionVariants s) := by unfold extensionVariants; infer_instance

theorem deExtension_respects : ∀ n v w, Step v w → deExtension n v = deExtension n w
  | 0, _, _, _ => rfl
  | n + 1, _, _, h =>
    have : Respects { ser := serExtension, de := deExtension n } := ⟨deExtension_respects n⟩
    untag_respects (extensionVariants { ser := serExtension, de := deExtension n }) h

instance : Respects bodyExtension where
  de v w h := by
    show deExtension v.depth v = deExtension w.depth w
    rw [step_depth h]
    exact deExtension_respects _ v w h

instance : Respects params := by unfold params; infer_instance
instance : Respects location := by unfold location; infer_instance
instance : Respects language := by unfold language; infer_instance
instance : Respects disposition := by unfold disposition; infer_instance
instance : Respects singlePartExt := by unfold singlePartExt; infer_instance
instance : Respects multiPartExt := by unfold multiPartExt; infer_instance
instance : Respects basicFields := by unfold basicFields; infer_instance
instance (s : S α) [Respects s] : Respects (specificFields s) := by unfold specificFields; infer_instance
instance (s : S α) [Respects s] : Respects (body s) := by unfold body; infer_instance

instance (s : S BodyStructure) [Respects s] : RespectsVs (bodyVariants s) := by unfold bodyVariants; infer_instance

theorem deBody_respects : ∀ n v w, Step v w → deBody n v = deBody n w
  | 0, _, _, _ => rfl
  | n + 1, _, _, h =>
    have : Respects { ser := serBody, de := deBody n } := ⟨deBody_respects n⟩
    untag_respects (bodyVariants { ser := serBody, de := deBody n }) h

instance : Respects bodyStructure where
  de v w h := by
    show deBody v.depth v = deBody w.depth w
    rw [step_depth h]
    exact deBody_respects _ v w h

instance : Respects sortAlgorithm := by unfold sortAlgorithm; infer_instance
instance : Respects capability := by unfold capability; infer_instance
instance : Respects uidElement := by unfold uidElement; infer_instance
instance : Respects uidSet := by unfold uidSet; infer_instance
instance : Respects metadataCode := by unfold metadataCode; infer_instance
instance : Respects code := by unfold code; infer_instance
instance : Respects greetingKind := by unfold greetingKind; infer_instance
instance : Respects greeting := by unfold greeting; infer_instance
instance : Respects statusKind := by unfold statusKind; infer_instance
instance : Respects statusBody := by unfold statusBody; infer_instance
instance : Respects taggedStatus := by unfold taggedStatus; infer_instance
instance : Respects bye := by unfold bye; infer_instance
instance : Respects status := by unfold status; infer_instance
instance : Respects continueBasic := by unfold continueBasic; infer_instance
instance : Respects continueReq := by unfold continueReq; infer_instance
instance : Respects statusDataItem := by unfold statusDataItem; infer_instance
instance : Respects messageDataItem := by unfold messageDataItem; infer_instance

instance (s : S Thread) [Respects s] : RespectsVs (threadVariants s) := by unfold threadVariants; infer_instance

theorem deThread_respects : ∀ n v w, Step v w → deThread n v = deThread n w
  | 0, _, _, _ => rfl
  | n + 1, _, _, h =>
    have : Respects { ser := serThread, de := deThread n } := ⟨deThread_respects n⟩
    untag_respects (threadVariants { ser := serThread, de := deThread n }) h

instance : Respects thread where
  de v w h := by
    show deThread v.depth v = deThread w.depth w
    rw [step_depth h]
    exact deThread_respects _ v w h

instance : Respects namespaceExt := by unfold namespaceExt; infer_instance
instance : Respects namespace_ := by unfold namespace_; infer_instance
instance : Respects quotaGet := by unfold quotaGet; infer_instance
instance : Respects metadataResponse := by unfold metadataResponse; infer_instance
instance : Respects data := by unfold data; infer_instance
instance : Respects response := by unfold response; infer_instance
instance : Respects idleDone := by unfold idleDone; infer_instance

instance (k : Codec) : Respects k.serde := by
  cases k <;> unfold Codec.serde <;> dsimp only <;> infer_instance

end Imap.Serde
