import Verif.CaseResponseSpec
import Verif.CaseCommand
import Verif.BodyLemmas
import Verif.ResponseLemmas
/-
The parsers of responses and greetings do not depend on the letter case. Property theorems are in Props/CaseResponse.lean.
-/
set_option maxRecDepth 10000
set_option linter.unusedSectionVars false

namespace Imap

open Spec

variable {α β : Type}

/-! ### `fold` -/

instance : Plain UidElement := ⟨fun _ => rfl⟩
instance : Plain MetadataCode := ⟨fun _ => rfl⟩
instance : Plain GreetingKind := ⟨fun _ => rfl⟩
instance : Plain StatusKind := ⟨fun _ => rfl⟩
instance : Plain StatusDataItem := ⟨fun _ => rfl⟩
instance : Plain Thread := ⟨fun _ => rfl⟩
@[simp] theorem fold_SortAlgorithm_display : fold SortAlgorithm.display = .display := rfl
@[simp] theorem fold_SortAlgorithm_other {a} : fold (SortAlgorithm.other a) = .other (fold a) := rfl
@[simp] theorem fold_Capability_imap4Rev1 : fold Capability.imap4Rev1 = .imap4Rev1 := rfl
@[simp] theorem fold_Capability_loginDisabled : fold Capability.loginDisabled = .loginDisabled := rfl
@[simp] theorem fold_Capability_startTls : fold Capability.startTls = .startTls := rfl
@[simp] theorem fold_Capability_mailboxReferrals : fold Capability.mailboxReferrals = .mailboxReferrals := rfl
@[simp] theorem fold_Capability_loginReferrals : fold Capability.loginReferrals = .loginReferrals := rfl
@[simp] theorem fold_Capability_saslIr : fold Capability.saslIr = .saslIr := rfl
@[simp] theorem fold_Capability_idle : fold Capability.idle = .idle := rfl
@[simp] theorem fold_Capability_enable : fold Capability.enable = .enable := rfl
@[simp] theorem fold_Capability_compressDeflate : fold Capability.compressDeflate = .compressDeflate := rfl
@[simp] theorem fold_Capability_quota : fold Capability.quota = .quota := rfl
@[simp] theorem fold_Capability_quotaSet : fold Capability.quotaSet = .quotaSet := rfl
@[simp] theorem fold_Capability_literalPlus : fold Capability.literalPlus = .literalPlus := rfl
@[simp] theorem fold_Capability_literalMinus : fold Capability.literalMinus = .literalMinus := rfl
@[simp] theorem fold_Capability_move_ : fold Capability.move_ = .move_ := rfl
@[simp] theorem fold_Capability_id_ : fold Capability.id_ = .id_ := rfl
@[simp] theorem fold_Capability_unselect : fold Capability.unselect = .unselect := rfl
@[simp] theorem fold_Capability_metadata : fold Capability.metadata = .metadata := rfl
@[simp] theorem fold_Capability_metadataServer : fold Capability.metadataServer = .metadataServer := rfl
@[simp] theorem fold_Capability_binary : fold Capability.binary = .binary := rfl
@[simp] theorem fold_Capability_uidPlus : fold Capability.uidPlus = .uidPlus := rfl
@[simp] theorem fold_Capability_condStore : fold Capability.condStore = .condStore := rfl
@[simp] theorem fold_Capability_qResync : fold Capability.qResync = .qResync := rfl
@[simp] theorem fold_Capability_namespace_ : fold Capability.namespace_ = .namespace_ := rfl
@[simp] theorem fold_Capability_utf8Accept : fold Capability.utf8Accept = .utf8Accept := rfl
@[simp] theorem fold_Capability_utf8Only : fold Capability.utf8Only = .utf8Only := rfl
@[simp] theorem fold_Capability_auth {a} : fold (Capability.auth a) = .auth (fold a) := rfl
@[simp] theorem fold_Capability_quotaRes {a} : fold (Capability.quotaRes a) = .quotaRes (fold a) := rfl
@[simp] theorem fold_Capability_sort {a} : fold (Capability.sort a) = .sort (fold a) := rfl
@[simp] theorem fold_Capability_thread {a} : fold (Capability.thread a) = .thread (fold a) := rfl
@[simp] theorem fold_Capability_other {a} : fold (Capability.other a) = .other (fold a) := rfl
@[simp] theorem fold_FlagFetch_flag {a} : fold (FlagFetch.flag a) = .flag (fold a) := rfl
@[simp] theorem fold_FlagFetch_recent : fold FlagFetch.recent = .recent := rfl
@[simp] theorem fold_FlagPerm_flag {a} : fold (FlagPerm.flag a) = .flag (fold a) := rfl
@[simp] theorem fold_FlagPerm_asterisk : fold FlagPerm.asterisk = .asterisk := rfl
@[simp] theorem fold_FlagNameAttribute_extension {a} : fold (FlagNameAttribute.extension a) = .extension (fold a) := rfl
@[simp] theorem fold_FlagNameAttribute_noinferiors : fold FlagNameAttribute.noinferiors = .noinferiors := rfl
@[simp] theorem fold_FlagNameAttribute_noselect : fold FlagNameAttribute.noselect = .noselect := rfl
@[simp] theorem fold_FlagNameAttribute_marked : fold FlagNameAttribute.marked = .marked := rfl
@[simp] theorem fold_FlagNameAttribute_unmarked : fold FlagNameAttribute.unmarked = .unmarked := rfl
@[simp] theorem fold_Code_alert : fold Code.alert = .alert := rfl
@[simp] theorem fold_Code_parse : fold Code.parse = .parse := rfl
@[simp] theorem fold_Code_readOnly : fold Code.readOnly = .readOnly := rfl
@[simp] theorem fold_Code_readWrite : fold Code.readWrite = .readWrite := rfl
@[simp] theorem fold_Code_tryCreate : fold Code.tryCreate = .tryCreate := rfl
@[simp] theorem fold_Code_compressionActive : fold Code.compressionActive = .compressionActive := rfl
@[simp] theorem fold_Code_overQuota : fold Code.overQuota = .overQuota := rfl
@[simp] theorem fold_Code_tooBig : fold Code.tooBig = .tooBig := rfl
@[simp] theorem fold_Code_unknownCte : fold Code.unknownCte = .unknownCte := rfl
@[simp] theorem fold_Code_uidNotSticky : fold Code.uidNotSticky = .uidNotSticky := rfl
@[simp] theorem fold_Code_noModSeq : fold Code.noModSeq = .noModSeq := rfl
@[simp] theorem fold_Code_closed : fold Code.closed = .closed := rfl
@[simp] theorem fold_Code_badCharset {a} : fold (Code.badCharset a) = .badCharset (fold a) := rfl
@[simp] theorem fold_Code_capability {a} : fold (Code.capability a) = .capability (fold a) := rfl
@[simp] theorem fold_Code_permanentFlags {a} : fold (Code.permanentFlags a) = .permanentFlags (fold a) := rfl
@[simp] theorem fold_Code_referral {a} : fold (Code.referral a) = .referral (fold a) := rfl
@[simp] theorem fold_Code_other {a} : fold (Code.other a) = .other (fold a) := rfl
@[simp] theorem fold_Code_uidNext {a} : fold (Code.uidNext a) = .uidNext a := rfl
@[simp] theorem fold_Code_uidValidity {a} : fold (Code.uidValidity a) = .uidValidity a := rfl
@[simp] theorem fold_Code_unseen {a} : fold (Code.unseen a) = .unseen a := rfl
@[simp] theorem fold_Code_metadata {a} : fold (Code.metadata a) = .metadata a := rfl
@[simp] theorem fold_Code_highestModSeq {a} : fold (Code.highestModSeq a) = .highestModSeq a := rfl
@[simp] theorem fold_Code_modified {a} : fold (Code.modified a) = .modified a := rfl
@[simp] theorem fold_Code_appendUid {a b} : fold (Code.appendUid a b) = .appendUid a b := rfl
@[simp] theorem fold_Code_copyUid {a b c} : fold (Code.copyUid a b c) = .copyUid a b c := rfl
@[simp] theorem fold_Status_untagged {a b c} : fold (Status.untagged a b c) = .untagged a (fold b) (fold c) := rfl
@[simp] theorem fold_Status_tagged {a b c d} : fold (Status.tagged a b c d) = .tagged (fold a) b (fold c) (fold d) := rfl
@[simp] theorem fold_Status_bye {a b} : fold (Status.bye a b) = .bye (fold a) (fold b) := rfl
@[simp] theorem fold_ContinueReq_basic {a b} : fold (ContinueReq.basic a b) = .basic (fold a) (fold b) := rfl
@[simp] theorem fold_ContinueReq_base64 {a} : fold (ContinueReq.base64 a) = .base64 a := rfl
@[simp] theorem fold_MessageDataItem_body {a} : fold (MessageDataItem.body a) = .body (fold a) := rfl
@[simp] theorem fold_MessageDataItem_bodyStructure {a} : fold (MessageDataItem.bodyStructure a) = .bodyStructure (fold a) := rfl
@[simp] theorem fold_MessageDataItem_envelope {a} : fold (MessageDataItem.envelope a) = .envelope (fold a) := rfl
@[simp] theorem fold_MessageDataItem_flags {a} : fold (MessageDataItem.flags a) = .flags (fold a) := rfl
@[simp] theorem fold_MessageDataItem_rfc822 {a} : fold (MessageDataItem.rfc822 a) = .rfc822 (fold a) := rfl
@[simp] theorem fold_MessageDataItem_rfc822Header {a} : fold (MessageDataItem.rfc822Header a) = .rfc822Header (fold a) := rfl
@[simp] theorem fold_MessageDataItem_rfc822Text {a} : fold (MessageDataItem.rfc822Text a) = .rfc822Text (fold a) := rfl
@[simp] theorem fold_MessageDataItem_internalDate {a} : fold (MessageDataItem.internalDate a) = .internalDate a := rfl
@[simp] theorem fold_MessageDataItem_rfc822Size {a} : fold (MessageDataItem.rfc822Size a) = .rfc822Size a := rfl
@[simp] theorem fold_MessageDataItem_uid {a} : fold (MessageDataItem.uid a) = .uid a := rfl
@[simp] theorem fold_MessageDataItem_modSeq {a} : fold (MessageDataItem.modSeq a) = .modSeq a := rfl
@[simp] theorem fold_MessageDataItem_bodyExt {a b c} : fold (MessageDataItem.bodyExt a b c) = .bodyExt (fold a) b (fold c) := rfl
@[simp] theorem fold_MessageDataItem_binary {a b} : fold (MessageDataItem.binary a b) = .binary a (fold b) := rfl
@[simp] theorem fold_MessageDataItem_binarySize {a b} : fold (MessageDataItem.binarySize a b) = .binarySize a b := rfl
@[simp] theorem fold_MetadataResponse_withValues {a} : fold (MetadataResponse.withValues a) = .withValues (fold a) := rfl
@[simp] theorem fold_MetadataResponse_withoutValues {a} : fold (MetadataResponse.withoutValues a) = .withoutValues (fold a) := rfl
@[simp] theorem fold_BodyStructure_basic {a b c d} : fold (BodyStructure.basic a b c d) = .basic (fold a) (fold b) (fold c) (fold d) := rfl
@[simp] theorem fold_BodyStructure_message {a b c d e} : fold (BodyStructure.message a b c d e) = .message (fold a) (fold b) (fold c) d (fold e) := rfl
@[simp] theorem fold_BodyStructure_text {a b c d} : fold (BodyStructure.text a b c d) = .text (fold a) (fold b) c (fold d) := rfl
@[simp] theorem fold_BodyExtension_nstring {a} : fold (BodyExtension.nstring a) = .nstring (fold a) := rfl
@[simp] theorem fold_BodyExtension_number {a} : fold (BodyExtension.number a) = .number a := rfl
@[simp] theorem fold_Data_capability {a} : fold (Data.capability a) = .capability (fold a) := rfl
@[simp] theorem fold_Data_flags {a} : fold (Data.flags a) = .flags (fold a) := rfl
@[simp] theorem fold_Data_enabled {a} : fold (Data.enabled a) = .enabled (fold a) := rfl
@[simp] theorem fold_Data_id_ {a} : fold (Data.id_ a) = .id_ (fold a) := rfl
@[simp] theorem fold_Data_thread {a} : fold (Data.thread a) = .thread a := rfl
@[simp] theorem fold_Data_exists_ {a} : fold (Data.exists_ a) = .exists_ a := rfl
@[simp] theorem fold_Data_recent {a} : fold (Data.recent a) = .recent a := rfl
@[simp] theorem fold_Data_expunge {a} : fold (Data.expunge a) = .expunge a := rfl
@[simp] theorem fold_Data_list {a b c} : fold (Data.list a b c) = .list (fold a) (fold b) (fold c) := rfl
@[simp] theorem fold_Data_lsub {a b c} : fold (Data.lsub a b c) = .lsub (fold a) (fold b) (fold c) := rfl
@[simp] theorem fold_Data_status {a b} : fold (Data.status a b) = .status (fold a) b := rfl
@[simp] theorem fold_Data_search {a b} : fold (Data.search a b) = .search a b := rfl
@[simp] theorem fold_Data_sort {a b} : fold (Data.sort a b) = .sort a b := rfl
@[simp] theorem fold_Data_fetch {a b} : fold (Data.fetch a b) = .fetch a (fold b) := rfl
@[simp] theorem fold_Data_quota {a b} : fold (Data.quota a b) = .quota (fold a) (fold b) := rfl
@[simp] theorem fold_Data_quotaRoot {a b} : fold (Data.quotaRoot a b) = .quotaRoot (fold a) (fold b) := rfl
@[simp] theorem fold_Data_metadata {a b} : fold (Data.metadata a b) = .metadata (fold a) (fold b) := rfl
@[simp] theorem fold_Data_vanished {a b} : fold (Data.vanished a b) = .vanished a b := rfl
@[simp] theorem fold_Data_namespace_ {a b c} : fold (Data.namespace_ a b c) = .namespace_ (fold a) (fold b) (fold c) := rfl
@[simp] theorem fold_Response_continue_ {a} : fold (Response.continue_ a) = .continue_ (fold a) := rfl
@[simp] theorem fold_Response_data {a} : fold (Response.data a) = .data (fold a) := rfl
@[simp] theorem fold_Response_status {a} : fold (Response.status a) = .status (fold a) := rfl
@[simp] theorem fold_Greeting_mk {a b c} : fold (Greeting.mk a b c) = ⟨a, fold b, fold c⟩ := rfl
@[simp] theorem fold_Address_mk {a b c d} : fold (Address.mk a b c d) = ⟨fold a, fold b, fold c, fold d⟩ := rfl
@[simp] theorem fold_Envelope_mk {a b c d e f g h i j} : fold (Envelope.mk a b c d e f g h i j) = ⟨fold a, fold b, fold c, fold d, fold e, fold f, fold g, fold h, fold i, fold j⟩ := rfl
@[simp] theorem fold_Location_mk {a b} : fold (Location.mk a b) = ⟨fold a, fold b⟩ := rfl
@[simp] theorem fold_Language_mk {a b} : fold (Language.mk a b) = ⟨fold a, fold b⟩ := rfl
@[simp] theorem fold_Disposition_mk {a b} : fold (Disposition.mk a b) = ⟨fold a, fold b⟩ := rfl
@[simp] theorem fold_SinglePartExt_mk {a b} : fold (SinglePartExt.mk a b) = ⟨fold a, fold b⟩ := rfl
@[simp] theorem fold_MultiPartExt_mk {a b} : fold (MultiPartExt.mk a b) = ⟨fold a, fold b⟩ := rfl
@[simp] theorem fold_BasicFields_mk {a b c d e} : fold (BasicFields.mk a b c d e) = ⟨fold a, fold b, fold c, fold d, e⟩ := rfl
@[simp] theorem fold_NamespaceExt_mk {a b} : fold (NamespaceExt.mk a b) = ⟨fold a, fold b⟩ := rfl
@[simp] theorem fold_Namespace_mk {a b c} : fold (Namespace.mk a b c) = ⟨fold a, fold b, fold c⟩ := rfl
@[simp] theorem fold_QuotaGet_mk {a b c} : fold (QuotaGet.mk a b c) = ⟨fold a, b, c⟩ := rfl

instance {B : Type} [Fold B] : Fold (SpecificFields B) where
  fold
    | .basic t s => .basic (fold t) (fold s)
    | .message e b n => .message (fold e) (fold b) n
    | .text s n => .text (fold s) n

@[simp] theorem fold_SpecificFields_basic {B : Type} [Fold B] {a b} : fold (SpecificFields.basic a b : SpecificFields B) = .basic (fold a) (fold b) := rfl
@[simp] theorem fold_SpecificFields_message {B : Type} [Fold B] {a b c} :
    fold (SpecificFields.message a b c : SpecificFields B) = .message (fold a) (fold b) c := rfl
@[simp] theorem fold_SpecificFields_text {B : Type} [Fold B] {a b} : fold (SpecificFields.text a b : SpecificFields B) = .text (fold a) b := rfl

instance : Fold ContinueEither where
  fold
    | .base64 d => .base64 d
    | .basic x => .basic (fold x)

@[simp] theorem fold_BodyExtension_list (l : List BodyExtension) : fold (BodyExtension.list l) = .list (fold l) := by
  show BodyExtension.list (foldExtension.go l) = .list (l.map foldExtension)
  congr 1
  induction l with
  | nil => rfl
  | cons a l ih => simp [foldExtension.go, ih]

@[simp] theorem fold_BodyStructure_multi (l : List BodyStructure) (s : IString) (x : Option MultiPartExt) :
    fold (BodyStructure.multi l s x) = .multi (fold l) (fold s) (fold x) := by
  show BodyStructure.multi (foldBody.go l) (fold s) (fold x) = .multi (l.map foldBody) (fold s) (fold x)
  congr 1
  induction l with
  | nil => rfl
  | cons a l ih => simp [foldBody.go, ih]

/-! ### Combinators -/

section
variable [Fold α] [Fold β]

theorem CI.peek {p q : P α} (h : CI p q) : CI (peek p) (peek q) := by
  intro x y e
  have := h x y e
  unfold Imap.peek
  cases e1 : p x <;> cases e2 : q y <;> rw [e1, e2] at this <;> simp only [CRes, Res.andThen] at this ⊢ <;> first | trivial | exact this | skip
  exact ⟨e, this.2⟩

theorem CI.recognize {p q : P α} (h : CI p q) : CI (recognize p) (recognize q) := by
  intro x y e
  have := h x y e
  unfold Imap.recognize
  cases e1 : p x <;> cases e2 : q y <;> rw [e1, e2] at this <;> simp only [CRes, Res.andThen] at this ⊢ <;> first | trivial | exact this | skip
  rw [this.1.length, e.length]
  exact ⟨this.1, e.take _⟩

theorem CI.many2 {p q : P α} (h : CI p q) : CI (many2 p) (many2 q) := by
  intro x y e
  have := CI.many0 h x y e
  unfold Imap.many2
  cases e1 : Imap.many0 p x <;> cases e2 : Imap.many0 q y <;> rw [e1, e2] at this <;> simp only [CRes] at this ⊢ <;>
    first | trivial | exact this | skip
  next r v r' w =>
    have hl : v.length = w.length := by
      have := congrArg List.length this.2
      simpa [fold] using this
    rw [hl]
    by_cases h2 : 2 ≤ w.length
    · rw [if_pos h2, if_pos h2]
      exact this
    · rw [if_neg h2, if_neg h2]
      trivial

instance {p : P α} [h : CIs p] : CIs (peek p) := ⟨CI.peek h.ci⟩
instance {p : P α} [h : CIs p] : CIs (recognize p) := ⟨CI.recognize h.ci⟩
instance {p : P α} [h : CIs p] : CIs (many2 p) := ⟨CI.many2 h.ci⟩

end

instance : Caseless isCodeOtherChar := .of (forall_byte (by decide))

section Q
variable [q : Quirks]

/-! ### Capabilities -/

theorem SameLetters.append {a b c d : Bytes} (h : SameLetters a b) (h' : SameLetters c d) : SameLetters (a ++ c) (b ++ d) := by
  simp only [SameLetters, List.map_append] at h h' ⊢
  rw [h, h']

theorem isPrefixOf_same {pat : Bytes} (hp : pat.all noLetter = true) {x y : Bytes} (h : SameLetters x y) :
    pat.isPrefixOf x = pat.isPrefixOf y := by
  induction pat generalizing x y with
  | nil => simp
  | cons c pat ih =>
    simp only [List.all_cons, Bool.and_eq_true] at hp
    cases x with
    | nil => rw [SameLetters.nil_iff.1 h]
    | cons a x =>
      obtain ⟨b, y, rfl, hb, h⟩ := SameLetters.cons_iff.1 h
      have : (c == a) = (c == b) := by
        rw [Bool.eq_iff_iff, beq_iff_eq, beq_iff_eq, eq_comm, small_ne hp.1 hb, eq_comm]
      simp only [List.isPrefixOf_cons₂, this, ih hp.2 h]

/-- Splitting at a pattern without letters. -/
theorem splitOnce_same {pat : Bytes} (hp : pat.all noLetter = true) {x y : Bytes} (h : SameLetters x y) :
    (splitOnce pat x = none ∧ splitOnce pat y = none) ∨
      ∃ l r l' r', splitOnce pat x = some (l, r) ∧ splitOnce pat y = some (l', r') ∧ SameLetters l l' ∧ SameLetters r r' := by
  induction x generalizing y with
  | nil =>
    rw [SameLetters.nil_iff.1 h]
    simp only [splitOnce]
    split
    · exact .inr ⟨[], [], [], [], rfl, rfl, rfl, rfl⟩
    · exact .inl ⟨rfl, rfl⟩
  | cons a x ih =>
    have h0 := h
    obtain ⟨b, y, rfl, hb, h⟩ := SameLetters.cons_iff.1 h
    simp only [splitOnce, isPrefixOf_same hp h0]
    split
    · exact .inr ⟨_, _, _, _, rfl, rfl, rfl, h0.drop _⟩
    · rcases ih h with ⟨h1, h2⟩ | ⟨l, r, l', r', h1, h2, h3, h4⟩
      · exact .inl ⟨by rw [h1]; rfl, by rw [h2]; rfl⟩
      · exact .inr ⟨a :: l, r, b :: l', r', by rw [h1]; rfl, by rw [h2]; rfl, fold_cons hb h3, h4⟩

theorem isAtom_fold {s t : Bytes} (h : fold s = fold t) : isAtom s = isAtom t := by
  unfold isAtom
  rw [all_caseless h]
  have hl : s.length = t.length := Spec.SameLetters.length h
  cases s <;> cases t <;> simp_all

theorem fold_sortAlgorithm {s t : Bytes} (h : fold s = fold t) : fold (SortAlgorithm.ofAtom s) = fold (SortAlgorithm.ofAtom t) := by
  simp only [SortAlgorithm.ofAtom, lowerAll_eq, h]
  repeat' split
  all_goals simp [h]

theorem fold_ofPair {a b s t : Bytes} (h : fold a = fold b) (h' : fold s = fold t) : fold (Capability.ofPair a s) = fold (Capability.ofPair b t) := by
  simp only [Capability.ofPair, lowerAll_eq, h, h', isAtom_fold h']
  split
  · split
    · simp [fold_mechanism h']
    · rfl
  split
  · split <;> rfl
  split
  · split <;> rfl
  split
  · split
    · simp [fold_sortAlgorithm h']
    · rfl
  split
  · split
    · simp [fold_algorithm h']
    · rfl
  · rfl

theorem fold_capability {s t : Bytes} (h : fold s = fold t) : fold (Capability.ofAtom s) = fold (Capability.ofAtom t) := by
  simp only [Capability.ofAtom, lowerAll_eq, h]
  split
  · rfl
  · rcases splitOnce_same (pat := b!"=") rfl h with ⟨h1, h2⟩ | ⟨l, r, l', r', h1, h2, h3, h4⟩
    · simp only [h1, h2]
      simp [h]
    · simp only [h1, h2]
      have := fold_ofPair h3 h4
      generalize Capability.ofPair l r = u at *
      generalize Capability.ofPair l' r' = v at *
      cases u <;> cases v <;> simp at this
      · simp [h]
      · exact this

instance : CIs capability := ⟨CI.map CIs.ci fun _ _ h => fold_capability h⟩

instance : CIs capabilityData := by
  unfold capabilityData
  refine ⟨CI.bindP CIs.ci fun _ => CI.bind CIs.ci fun _ _ h => ?_⟩
  split
  · exact CI.bindP CIs.ci fun _ => CI.pure h
  · exact CI.pure h

/-! ### Codes -/

instance : CIs flagPerm := by
  unfold flagPerm
  exact ⟨by ci⟩
instance : CIs uidRange := by
  unfold uidRange
  exact ⟨by ci⟩
instance : CIs uidSet := by
  unfold uidSet
  exact ⟨by ci⟩
instance : CIs metadataCode := by
  unfold metadataCode
  exact ⟨by ci⟩
instance : CIs charsetList := by
  unfold charsetList
  exact ⟨by ci⟩
instance : CIs flagPermList := by
  unfold flagPermList
  exact ⟨by ci⟩
instance : CIs respCodeApnd := by
  unfold respCodeApnd
  exact ⟨by ci⟩
instance : CIs respCodeCopy := by
  unfold respCodeCopy
  exact ⟨by ci⟩
instance : CIs respTextCode := by
  unfold respTextCode
  exact ⟨by ci⟩
instance : CIs codeKnown := by
  unfold codeKnown
  exact ⟨by ci⟩
instance : CIs codeOther := by
  unfold codeOther
  exact ⟨by ci⟩

instance : CIs textAfterCode := by
  unfold textAfterCode
  split <;> exact ⟨by ci⟩
instance : CIs respTextCoded := by
  unfold respTextCoded
  exact ⟨by ci⟩
instance : CIs respTextPlain := by
  unfold respTextPlain
  exact ⟨by ci⟩

instance : CIs respText := by
  unfold respText
  refine ⟨CI.bindP (CI.peek (CI.opt (CIs.tag rfl).ci)) fun a => ?_⟩
  split <;> exact CIs.ci

/-! ### Greetings and status responses -/

instance : CIs condAuthKind := by
  unfold condAuthKind
  exact ⟨by ci⟩
instance : CIs respCondAuth := by
  unfold respCondAuth
  exact ⟨by ci⟩
instance : CIs respCondBye := by
  unfold respCondBye
  exact ⟨by ci⟩
instance : CIs greeting := by
  unfold greeting
  exact ⟨by ci⟩
instance : CIs condStateKind := by
  unfold condStateKind
  exact ⟨by ci⟩
instance : CIs respCondState := by
  unfold respCondState
  exact ⟨by ci⟩
instance : CIs responseTagged := by
  unfold responseTagged
  exact ⟨by ci⟩
instance : CIs responseFatal := by
  unfold responseFatal
  exact ⟨by ci⟩
instance : CIs responseDone := by
  unfold responseDone
  exact ⟨by ci⟩
instance : CIs emptyContinueReq := by
  unfold emptyContinueReq
  exact ⟨by ci⟩

/-! ### Envelopes and body structures -/

instance : CIs addressParen := by
  unfold addressParen
  exact ⟨by ci⟩

instance : CIs address := by
  unfold address
  split <;> exact ⟨by ci⟩
instance : CIs envAddresses := by
  unfold envAddresses
  exact ⟨by ci⟩
instance : CIs envelope := by
  unfold envelope
  refine ⟨CI.bind (CIs.tag rfl).ci fun _ _ _ => ?_⟩
  refine CI.bind CIs.ci fun _ _ h1 => CI.bind CIs.ci fun _ _ _ => ?_
  refine CI.bind CIs.ci fun _ _ h2 => CI.bind CIs.ci fun _ _ _ => ?_
  refine CI.bind CIs.ci fun _ _ h3 => CI.bind CIs.ci fun _ _ _ => ?_
  refine CI.bind CIs.ci fun _ _ h4 => CI.bind CIs.ci fun _ _ _ => ?_
  refine CI.bind CIs.ci fun _ _ h5 => CI.bind CIs.ci fun _ _ _ => ?_
  refine CI.bind CIs.ci fun _ _ h6 => CI.bind CIs.ci fun _ _ _ => ?_
  refine CI.bind CIs.ci fun _ _ h7 => CI.bind CIs.ci fun _ _ _ => ?_
  refine CI.bind CIs.ci fun _ _ h8 => CI.bind CIs.ci fun _ _ _ => ?_
  refine CI.bind CIs.ci fun _ _ h9 => CI.bind CIs.ci fun _ _ _ => ?_
  refine CI.bind CIs.ci fun _ _ h10 => CI.bind (CIs.tag rfl).ci fun _ _ _ => CI.pure ?_
  rw [fold_Envelope_mk, fold_Envelope_mk, h1, h2, h3, h4, h5, h6, h7, h8, h9, h10]

instance (n : Nat) : CIs (bodyExtension n) := by
  induction n with
  | zero => exact ⟨CI.failure⟩
  | succ n ih =>
    unfold bodyExtension
    exact ⟨by ci⟩
instance : CIs fldParam := by
  unfold fldParam
  exact ⟨by ci⟩
instance : CIs bodyFldParam := by
  unfold bodyFldParam
  exact ⟨by ci⟩

instance : CIs bodyFldEnc := by
  unfold bodyFldEnc
  split
  · refine ⟨CI.map CIs.ci fun a b h => ?_⟩
    cases a <;> cases b <;> simp_all
  · exact CIs.mk CIs.ci

instance : CIs bodyFldOctets := by
  unfold bodyFldOctets
  split <;> exact ⟨by ci⟩
instance : CIs bodyFldDsp := by
  unfold bodyFldDsp
  exact ⟨by ci⟩

instance : CIs bodyFldLang := by
  unfold bodyFldLang
  refine ⟨CI.alt_cons (CI.map CIs.ci fun a b h => ?_) (by ci)⟩
  cases a <;> cases b <;> simp_all
instance : CIs extLocation := by
  unfold extLocation
  exact ⟨by ci⟩
instance : CIs extLanguage := by
  unfold extLanguage
  exact ⟨by ci⟩
instance : CIs extDisposition := by
  unfold extDisposition
  exact ⟨by ci⟩
instance : CIs bodyExt1part := by
  unfold bodyExt1part
  exact ⟨by ci⟩
instance : CIs bodyExtMpart := by
  unfold bodyExtMpart
  exact ⟨by ci⟩
instance : CIs bodyFields := by
  unfold bodyFields
  exact ⟨by ci⟩

section
variable {B : Type} [Fold B]

instance : CIs (bodyTypeBasic (B := B)) := by
  unfold bodyTypeBasic
  exact ⟨by ci⟩

instance : CIs (bodyTypeText (B := B)) := by
  unfold bodyTypeText
  exact ⟨by ci⟩

instance {p : P B} [CIs p] : CIs (bodyTypeMsg p) := by
  unfold bodyTypeMsg
  refine ⟨CI.bind CIs.ci fun _ _ _ => CI.bind CIs.ci fun _ _ _ => ?_⟩
  refine CI.bind CIs.ci fun _ _ h1 => CI.bind CIs.ci fun _ _ _ => ?_
  refine CI.bind CIs.ci fun _ _ h2 => CI.bind CIs.ci fun _ _ _ => ?_
  refine CI.bind CIs.ci fun _ _ h3 => CI.bind CIs.ci fun _ _ _ => ?_
  refine CI.bind CIs.ci fun a b h4 => CI.pure ?_
  rw [fold_pair, fold_pair, fold_SpecificFields_message, fold_SpecificFields_message, h1, h2, h3, show a = b from h4]

end

theorem fold_single {f g : BasicFields} {x y : Option SinglePartExt} {s t : SpecificFields BodyStructure} (hf : fold f = fold g)
    (hx : fold x = fold y) (h : fold s = fold t) : fold (BodyStructure.single f x s) = fold (BodyStructure.single g y t) := by
  cases s <;> cases t <;> simp at h <;> simp [BodyStructure.single, h, hf, hx]

instance {n : Nat} {p : P BodyStructure} [CIs p] : CIs (bodyType1part n p) := by
  unfold bodyType1part
  split
  · exact ⟨CI.failure⟩
  · refine ⟨CI.bind (CI.alt_cons CIs.ci (CI.alt_cons CIs.ci (CI.alt_cons CIs.ci CI.alt_nil))) fun a b h =>
      CI.bind (CI.opt (CI.bind CIs.ci fun _ _ _ => CIs.ci)) fun c d h' => CI.pure ?_⟩
    simp only [fold_prod, Prod.mk.injEq] at h
    exact fold_single h.1 h' h.2

instance {n : Nat} {p : P BodyStructure} [CIs p] : CIs (bodyTypeMpart n p) := by
  unfold bodyTypeMpart
  split
  · exact ⟨CI.failure⟩
  · exact ⟨by ci⟩

instance {n : Nat} {p p' : P BodyStructure} [CIs p] [CIs p'] : CIs (bodyStep n p p') := by
  unfold bodyStep
  split
  · exact ⟨CI.failure⟩
  · exact ⟨CI.bind (CIs.tag rfl).ci fun _ _ _ => CI.bind (CI.alt_cons CIs.ci (CI.alt_cons CIs.ci CI.alt_nil)) fun _ _ h =>
      CI.bind (CIs.tag rfl).ci fun _ _ _ => CI.pure h⟩

instance (fuel n : Nat) : CIs (bodyFuel fuel n) := by
  induction fuel generalizing n with
  | zero => exact ⟨fun _ _ _ => trivial⟩
  | succ f ih =>
    unfold bodyFuel
    infer_instance

instance (n : Nat) : CIs (body n) := by
  refine ⟨fun x y e => ?_⟩
  unfold body
  rw [e.length]
  exact CIs.ci (p := bodyFuel (y.length + 1) n) x y e

/-! ### Data -/

instance : CIs statusAttVal := by
  unfold statusAttVal
  exact ⟨by ci⟩

theorem eqIC_fold {s t u : Bytes} (h : fold s = fold t) : eqIC s u = eqIC t u := by
  simp only [eqIC, lowerAll_eq, h]

instance : CIs flagFetch := by
  have h1 : CI (recognize (do char 92; atom)) (recognize (do char 92; atom)) := CI.recognize (by ci)
  have h2 : CI (FlagFetch.flag <$> flag) (FlagFetch.flag <$> flag) := by ci
  refine ⟨fun x y e => ?_⟩
  have := h1 x y e
  unfold flagFetch
  cases e1 : recognize (do char 92; atom) x <;> cases e2 : recognize (do char 92; atom) y <;> rw [e1, e2] at this <;>
    simp only [CRes] at this <;> first | exact this.elim | skip
  · simp only [eqIC_fold this.2]
    split
    · exact ⟨this.1, rfl⟩
    · exact h2 x y e
  · exact h2 x y e
  · exact h2 x y e
  · exact h2 x y e
instance : CIs flagFetchList := by
  unfold flagFetchList
  exact ⟨by ci⟩
instance : CIs msgAttDynamic := by
  unfold msgAttDynamic
  exact ⟨by ci⟩
instance : CIs msgBodyExt := by
  unfold msgBodyExt
  exact ⟨by ci⟩
instance : CIs msgAttStatic := by
  unfold msgAttStatic
  exact ⟨by ci⟩
instance : CIs msgAtt := by
  unfold msgAtt
  exact ⟨by ci⟩

instance (n : Nat) : CIs (threadList n) := by
  induction n with
  | zero => exact ⟨CI.failure⟩
  | succ n ih =>
    unfold threadList
    exact ⟨by ci⟩
instance : CIs threadData := by
  unfold threadData
  exact ⟨by ci⟩
instance : CIs delimiter := by
  unfold delimiter
  exact ⟨by ci⟩
instance : CIs namespaceExt := by
  unfold namespaceExt
  exact ⟨by ci⟩
instance : CIs namespaceDescr := by
  unfold namespaceDescr
  exact ⟨by ci⟩
instance : CIs namespaces := by
  unfold namespaces
  exact ⟨by ci⟩

instance : CIs quotaSp := by
  unfold quotaSp
  split <;> infer_instance
instance : CIs quotaResource := by
  unfold quotaResource
  exact ⟨by ci⟩
instance : CIs metadataItems := by
  unfold metadataItems
  exact ⟨by ci⟩

theorem fold_attributeName {s t : Bytes} (h : fold s = fold t) : fold (FlagNameAttribute.ofAtom s) = fold (FlagNameAttribute.ofAtom t) := by
  simp only [FlagNameAttribute.ofAtom, lowerAll_eq, h]
  repeat' split
  all_goals simp [h]

instance : CIs mbxListFlags := ⟨CI.sepList1 CIs.ci (CI.map (by ci) fun _ _ h => fold_attributeName h)⟩
instance : CIs mailboxList := by
  unfold mailboxList
  exact ⟨by ci⟩
instance : CIs searchSortModSeq := by
  unfold searchSortModSeq
  exact ⟨by ci⟩
instance : CIs searchNumbers := by
  unfold searchNumbers
  exact ⟨by ci⟩

instance (b : Bool) : CIs (optSpIf b) := by
  unfold optSpIf
  split <;> exact ⟨by ci⟩
instance : CIs searchData := by
  unfold searchData
  exact ⟨by ci⟩
instance : CIs sortData := by
  unfold sortData
  exact ⟨by ci⟩
instance : CIs statusItems := by
  unfold statusItems
  exact ⟨by ci⟩
instance : CIs statusData := by
  unfold statusData
  exact ⟨by ci⟩
instance : CIs metadataResp := by
  unfold metadataResp
  exact ⟨by ci⟩
instance : CIs namespaceResponse := by
  unfold namespaceResponse
  exact ⟨by ci⟩
instance : CIs quotarootResponse := by
  unfold quotarootResponse
  exact ⟨by ci⟩
instance : CIs quotaResponse := by
  unfold quotaResponse
  exact ⟨by ci⟩
instance : CIs mailboxData := by
  unfold mailboxData
  exact ⟨by ci⟩

instance (n : Nat) : CIs (messageDataTail n) := by
  unfold messageDataTail
  exact ⟨by ci⟩
instance : CIs vanishedData := by
  unfold vanishedData
  exact ⟨by ci⟩
instance : CIs messageData := by
  unfold messageData
  exact ⟨by ci⟩
instance : CIs enableData := by
  unfold enableData
  exact ⟨by ci⟩
instance : CIs idResponse := by
  unfold idResponse
  exact ⟨by ci⟩
instance : CIs responseDataInner := by
  unfold responseDataInner
  exact ⟨by ci⟩
instance : CIs responseData := by
  unfold responseData
  exact ⟨by ci⟩

end Q

end Imap
