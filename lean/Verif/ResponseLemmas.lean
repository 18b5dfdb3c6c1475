import Verif.Response
import Verif.BodyRT
/-
Facts about responses: niceness and postconditions.
-/
set_option maxRecDepth 10000

namespace Imap

variable {α β : Type}

/-! ### `splitOnce` -/

theorem splitOnce_eq {pat s l r : Bytes} (h : splitOnce pat s = some (l, r)) : s = l ++ pat ++ r := by
  induction s generalizing l r with
  | nil =>
    simp only [splitOnce] at h
    split at h <;> simp at h
    simp_all
  | cons b s ih =>
    simp only [splitOnce] at h
    split at h
    · next hp =>
      simp only [Option.some.injEq, Prod.mk.injEq] at h
      obtain ⟨t, ht⟩ := List.isPrefixOf_iff_prefix.1 hp
      rw [← ht] at h ⊢
      simp [← h.1, ← h.2]
    · simp only [Option.map_eq_some_iff] at h
      obtain ⟨⟨l', r'⟩, h1, h2⟩ := h
      simp only [Prod.mk.injEq] at h2
      rw [ih h1, ← h2.1, ← h2.2]
      rfl

/-- More input after the first occurrence does not change the split. -/
theorem splitOnce_append {pat s l r : Bytes} (h : splitOnce pat s = some (l, r)) (y : Bytes) :
    splitOnce pat (s ++ y) = some (l, r ++ y) := by
  induction s generalizing l r with
  | nil =>
    simp only [splitOnce] at h
    split at h <;> simp at h
    obtain ⟨rfl, rfl⟩ := h
    next hp =>
    subst hp
    cases y <;> simp [splitOnce]
  | cons b s ih =>
    simp only [splitOnce] at h
    split at h
    · next hp =>
      simp only [Option.some.injEq, Prod.mk.injEq] at h
      obtain ⟨t, ht⟩ := List.isPrefixOf_iff_prefix.1 hp
      have hp' : pat.isPrefixOf (b :: (s ++ y)) = true := by
        rw [List.isPrefixOf_iff_prefix]
        exact ⟨t ++ y, by rw [← List.append_assoc, ht]; rfl⟩
      simp only [List.cons_append, splitOnce, hp', if_true, ← h.1, ← h.2]
      have := congrArg (List.drop pat.length) ht
      rw [← List.cons_append, ← ht]
      simp
    · next hp =>
      simp only [Option.map_eq_some_iff] at h
      obtain ⟨⟨l', r'⟩, h1, h2⟩ := h
      simp only [Prod.mk.injEq] at h2
      have hp' : ¬ pat.isPrefixOf (b :: (s ++ y)) = true := by
        intro hc
        apply hp
        rw [List.isPrefixOf_iff_prefix] at hc ⊢
        have hl : pat.length ≤ (b :: s).length := by rw [splitOnce_eq h1]; simp; omega
        exact List.prefix_of_prefix_length_le hc ⟨y, rfl⟩ hl
      simp only [List.cons_append, splitOnce, hp', ih h1]
      simp [← h2.1, ← h2.2]

section
variable [Quirks]

instance {pat : Bytes} : Nice (takeUntil pat) where
  ok := by
    intro x r v h y
    simp only [takeUntil] at h ⊢
    split at h <;> simp at h
    next l r' e =>
    rw [splitOnce_append e y]
    simp [← h.1, ← h.2]
  err := by
    intro x h
    simp only [takeUntil] at h
    split at h <;> simp at h
  fail := by
    intro x k h
    simp only [takeUntil] at h
    split at h <;> simp at h
  suf := by
    intro x r v h
    simp only [takeUntil] at h
    split at h <;> simp at h
    next l r' e => exact ⟨l, by rw [splitOnce_eq e, ← h.1]; simp⟩
  lit := by
    intro x t n m h
    simp only [takeUntil] at h
    split at h <;> simp at h
  more := by
    intro x t n m h
    simp only [takeUntil] at h
    split at h <;> simp at h

instance : Nice capability := by unfold capability; infer_instance
instance : Nice capabilityData := by unfold capabilityData; infer_instance
instance : Nice uidRange := by unfold uidRange; infer_instance
instance : Nice uidSet := by unfold uidSet; infer_instance
instance : Nice metadataCode := by unfold metadataCode; infer_instance
instance : Nice charsetList := by unfold charsetList; infer_instance
instance : Nice flagPermList := by unfold flagPermList; infer_instance
instance : Nice respCodeApnd := by unfold respCodeApnd; infer_instance
instance : Nice respCodeCopy := by unfold respCodeCopy; nice_seq
instance : Nice (alt [.highestModSeq <$> (do tagNC b!"HIGHESTMODSEQ "; modSequenceValue),
      value .noModSeq (tagNC b!"NOMODSEQ"),
      .modified <$> (do tagNC b!"MODIFIED "; sequenceSet),
      value .closed (tagNC b!"CLOSED")] : P Code) := by infer_instance
set_option synthInstance.maxSize 2000 in
set_option synthInstance.maxHeartbeats 400000 in
instance : Nice respTextCode := by unfold respTextCode; infer_instance
instance : Nice codeKnown := by unfold codeKnown; infer_instance
instance : Nice codeOther := by unfold codeOther; infer_instance
instance : Nice textAfterCode := by unfold textAfterCode; infer_instance
instance : Nice respTextCoded := by unfold respTextCoded; infer_instance
instance : Nice respTextPlain := by unfold respTextPlain; infer_instance
instance : Nice respText := by unfold respText; infer_instance
instance : Nice condAuthKind := by unfold condAuthKind; infer_instance
instance : Nice respCondAuth := by unfold respCondAuth; infer_instance
instance : Nice respCondBye := by unfold respCondBye; infer_instance
instance : Nice greeting := by unfold greeting; infer_instance
instance : Nice condStateKind := by unfold condStateKind; infer_instance
instance : Nice respCondState := by unfold respCondState; infer_instance
instance : Nice responseTagged := by unfold responseTagged; infer_instance
instance : Nice responseFatal := by unfold responseFatal; infer_instance
instance : Nice responseDone := by unfold responseDone; infer_instance
instance : Nice emptyContinueReq := by unfold emptyContinueReq; infer_instance
instance : Nice continueBase64 := by unfold continueBase64; infer_instance
instance : Nice continueInner := by unfold continueInner; infer_instance
instance : Nice continueReq := by unfold continueReq; infer_instance
instance : Nice statusAttVal := by unfold statusAttVal; infer_instance
instance : Nice flagFetchList := by unfold flagFetchList; infer_instance
instance : Nice msgAttDynamic := by unfold msgAttDynamic; infer_instance
instance : Nice msgBodyExt := by unfold msgBodyExt; nice_seq
set_option synthInstance.maxSize 2000 in
set_option synthInstance.maxHeartbeats 400000 in
instance : Nice msgAttStatic := by unfold msgAttStatic; infer_instance
instance : Nice msgAtt := by unfold msgAtt; infer_instance

theorem threadList_nice (n : Nat) : Nice (threadList n) := by
  induction n with
  | zero => unfold threadList; infer_instance
  | succ n ih => unfold threadList; infer_instance

instance (n : Nat) : Nice (threadList n) := threadList_nice n
instance : Nice threadData := by unfold threadData; infer_instance
instance : Nice delimiter := by unfold delimiter; infer_instance
instance : Nice namespaceExt := by unfold namespaceExt; nice_seq
instance : Nice namespaceDescr := by unfold namespaceDescr; nice_seq
instance : Nice namespaces := by unfold namespaces; infer_instance
instance : Nice quotaSp := by unfold quotaSp; infer_instance
instance : Nice quotaResource := by unfold quotaResource; infer_instance
instance : Nice metadataItems := by unfold metadataItems; infer_instance
instance : Nice mailboxList := by unfold mailboxList; nice_seq
instance : Nice searchSortModSeq := by unfold searchSortModSeq; infer_instance
instance : Nice searchNumbers := by unfold searchNumbers; infer_instance
instance {b : Bool} : Nice (optSpIf b) := by unfold optSpIf; infer_instance
instance : Nice searchData := by unfold searchData; infer_instance
instance : Nice sortData := by unfold sortData; infer_instance
instance : Nice statusItems := by unfold statusItems; infer_instance
instance : Nice statusData := by unfold statusData; infer_instance
instance : Nice metadataResp := by unfold metadataResp; infer_instance
instance : Nice namespaceResponse := by unfold namespaceResponse; nice_seq
instance : Nice quotarootResponse := by unfold quotarootResponse; infer_instance
instance : Nice quotaResponse := by unfold quotaResponse; infer_instance
set_option synthInstance.maxSize 2000 in
set_option synthInstance.maxHeartbeats 400000 in
instance : Nice mailboxData := by unfold mailboxData; infer_instance
instance {n : NzU32} : Nice (messageDataTail n) := by unfold messageDataTail; infer_instance
instance : Nice vanishedData := by unfold vanishedData; infer_instance
instance : Nice messageData := by unfold messageData; infer_instance
instance : Nice enableData := by unfold enableData; infer_instance
instance : Nice idResponse := by unfold idResponse; infer_instance
instance : Nice responseDataInner := by unfold responseDataInner; infer_instance
instance : Nice responseData := by unfold responseData; infer_instance
instance : Nice response := by
  unfold response
  split
  · simp only [List.cons_append, List.nil_append]; infer_instance
  · simp only [List.nil_append]; infer_instance

end

end Imap
