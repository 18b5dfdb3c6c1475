import Verif.CaseLemmas
import Verif.CommandLemmas
/-
The parsers of commands, and of the types that they share with responses, do not depend on the letter case.
-/
set_option maxRecDepth 10000
set_option linter.unusedSectionVars false

namespace Imap

open Spec

/-! ### `fold` -/

/-- Types without strings. -/
class Plain (α : Type) [Fold α] : Prop where
  eq : ∀ a : α, fold a = a

@[simp] theorem fold_plain {α : Type} [Fold α] [h : Plain α] (a : α) : fold a = a := h.eq a

instance : Plain Unit := ⟨fun _ => rfl⟩
instance : Plain Nat := ⟨fun _ => rfl⟩
instance : Plain Bool := ⟨fun _ => rfl⟩
instance : Plain Mode := ⟨fun _ => rfl⟩
instance : Plain SeqOrUid := ⟨fun _ => rfl⟩
instance : Plain Sequence := ⟨fun _ => rfl⟩
instance : Plain NaiveDate := ⟨fun _ => rfl⟩
instance : Plain DateTime := ⟨fun _ => rfl⟩
instance : Plain Int := ⟨fun _ => rfl⟩
instance : Plain StatusDataItemName := ⟨fun _ => rfl⟩
instance : Plain EntryTypeReq := ⟨fun _ => rfl⟩
instance : Plain SelectParameter := ⟨fun _ => rfl⟩
instance : Plain FetchModifier := ⟨fun _ => rfl⟩
instance : Plain StoreType := ⟨fun _ => rfl⟩
instance : Plain StoreResponse := ⟨fun _ => rfl⟩
instance : Plain SortKey := ⟨fun _ => rfl⟩
instance : Plain SortCriterion := ⟨fun _ => rfl⟩
instance : Plain GetMetadataOption := ⟨fun _ => rfl⟩
instance {α : Type} [Fold α] [h : Plain α] : Plain (List α) := ⟨fun l => (List.map_congr_left fun a _ => h.eq a).trans (List.map_id l)⟩
instance {α : Type} [Fold α] [h : Plain α] : Plain (Option α) := ⟨fun o => by
  cases o with
  | none => rfl
  | some a => exact congrArg some (h.eq a)⟩
instance {α β : Type} [Fold α] [Fold β] [h : Plain α] [h' : Plain β] : Plain (α × β) := ⟨fun p => Prod.ext (h.eq p.1) (h'.eq p.2)⟩

theorem CI.bindP {α β : Type} [Fold α] [Fold β] [Plain α] {p q : P α} {f g : α → P β} (h : CI p q) (hf : ∀ a, CI (f a) (g a)) :
    CI (p >>= f) (q >>= g) :=
  CI.bind h fun a b e => by rw [fold_plain, fold_plain] at e; subst e; exact hf a

theorem CI.mapP {α β : Type} [Fold α] [Fold β] [Plain α] {p q : P α} {f g : α → β} (h : CI p q) (hf : ∀ a, fold (f a) = fold (g a)) :
    CI (f <$> p) (g <$> q) :=
  CI.map h fun a b e => by rw [fold_plain, fold_plain] at e; subst e; exact hf a

@[simp] theorem fold_prod {α β : Type} [Fold α] [Fold β] (p : α × β) : fold p = (fold p.1, fold p.2) := rfl
@[simp] theorem fold_none {α : Type} [Fold α] : fold (none : Option α) = none := rfl
@[simp] theorem fold_some {α : Type} [Fold α] (a : α) : fold (some a) = some (fold a) := rfl
@[simp] theorem fold_nil {α : Type} [Fold α] : fold ([] : List α) = [] := rfl
@[simp] theorem fold_cons_eq {α : Type} [Fold α] (a : α) (l : List α) : fold (a :: l) = fold a :: fold l := rfl
@[simp] theorem fold_pair {α β : Type} [Fold α] [Fold β] (a : α) (b : β) : fold (a, b) = (fold a, fold b) := rfl
@[simp] theorem fold_Literal (d m) : fold (Literal.mk d m) = ⟨fold d, m⟩ := rfl
@[simp] theorem fold_Literal8 (d m) : fold (Literal8.mk d m) = ⟨fold d, m⟩ := rfl
@[simp] theorem fold_QuotaSet (d m) : fold (QuotaSet.mk d m) = ⟨fold d, m⟩ := rfl
@[simp] theorem fold_EntryValue (d m) : fold (EntryValue.mk d m) = ⟨fold d, fold m⟩ := rfl
@[simp] theorem fold_IString_literal {a} : fold (IString.literal a) = .literal (fold a) := rfl
@[simp] theorem fold_IString_quoted {a} : fold (IString.quoted a) = .quoted (fold a) := rfl
@[simp] theorem fold_IString_quotedUtf8 {a} : fold (IString.quotedUtf8 a) = .quotedUtf8 (fold a) := rfl
@[simp] theorem fold_AString_atom {a} : fold (AString.atom a) = .atom (fold a) := rfl
@[simp] theorem fold_AString_string {a} : fold (AString.string a) = .string (fold a) := rfl
@[simp] theorem fold_Charset_atom {a} : fold (Charset.atom a) = .atom (fold a) := rfl
@[simp] theorem fold_Charset_quoted {a} : fold (Charset.quoted a) = .quoted (fold a) := rfl
@[simp] theorem fold_LiteralOrLiteral8_literal {a} : fold (LiteralOrLiteral8.literal a) = .literal (fold a) := rfl
@[simp] theorem fold_LiteralOrLiteral8_literal8 {a} : fold (LiteralOrLiteral8.literal8 a) = .literal8 (fold a) := rfl
@[simp] theorem fold_NString8_nstring {a} : fold (NString8.nstring a) = .nstring (fold a) := rfl
@[simp] theorem fold_NString8_literal8 {a} : fold (NString8.literal8 a) = .literal8 (fold a) := rfl
@[simp] theorem fold_ListMailbox_token {a} : fold (ListMailbox.token a) = .token (fold a) := rfl
@[simp] theorem fold_ListMailbox_string {a} : fold (ListMailbox.string a) = .string (fold a) := rfl
@[simp] theorem fold_Mailbox_other {a} : fold (Mailbox.other a) = .other (fold a) := rfl
@[simp] theorem fold_Flag_extension {a} : fold (Flag.extension a) = .extension (fold a) := rfl
@[simp] theorem fold_Flag_keyword {a} : fold (Flag.keyword a) = .keyword (fold a) := rfl
@[simp] theorem fold_AttributeFlag_extension {a} : fold (AttributeFlag.extension a) = .extension (fold a) := rfl
@[simp] theorem fold_AttributeFlag_keyword {a} : fold (AttributeFlag.keyword a) = .keyword (fold a) := rfl
@[simp] theorem fold_AuthMechanism_other {a} : fold (AuthMechanism.other a) = .other (fold a) := rfl
@[simp] theorem fold_CapabilityEnable_other {a} : fold (CapabilityEnable.other a) = .other (fold a) := rfl
@[simp] theorem fold_Resource_other {a} : fold (Resource.other a) = .other (fold a) := rfl
@[simp] theorem fold_ThreadingAlgorithm_other {a} : fold (ThreadingAlgorithm.other a) = .other (fold a) := rfl
@[simp] theorem fold_PartSpecifier_headerFields {a} : fold (PartSpecifier.headerFields a) = .headerFields (fold a) := rfl
@[simp] theorem fold_PartSpecifier_headerFieldsNot {a} : fold (PartSpecifier.headerFieldsNot a) = .headerFieldsNot (fold a) := rfl
@[simp] theorem fold_MacroOrNames_names {a} : fold (MacroOrNames.names a) = .names (fold a) := rfl
@[simp] theorem fold_MacroOrNames_macro_ {a} : fold (MacroOrNames.macro_ a) = .macro_ a := rfl
@[simp] theorem fold_Mailbox_inbox : fold Mailbox.inbox = .inbox := rfl
@[simp] theorem fold_PartSpecifier_header : fold PartSpecifier.header = .header := rfl
@[simp] theorem fold_PartSpecifier_mime : fold PartSpecifier.mime = .mime := rfl
@[simp] theorem fold_PartSpecifier_text : fold PartSpecifier.text = .text := rfl
@[simp] theorem fold_Flag_answered : fold Flag.answered = .answered := rfl
@[simp] theorem fold_Flag_deleted : fold Flag.deleted = .deleted := rfl
@[simp] theorem fold_Flag_draft : fold Flag.draft = .draft := rfl
@[simp] theorem fold_Flag_flagged : fold Flag.flagged = .flagged := rfl
@[simp] theorem fold_Flag_seen : fold Flag.seen = .seen := rfl
@[simp] theorem fold_AttributeFlag_answered : fold AttributeFlag.answered = .answered := rfl
@[simp] theorem fold_AttributeFlag_deleted : fold AttributeFlag.deleted = .deleted := rfl
@[simp] theorem fold_AttributeFlag_draft : fold AttributeFlag.draft = .draft := rfl
@[simp] theorem fold_AttributeFlag_flagged : fold AttributeFlag.flagged = .flagged := rfl
@[simp] theorem fold_AttributeFlag_seen : fold AttributeFlag.seen = .seen := rfl
@[simp] theorem fold_AuthMechanism_plain : fold AuthMechanism.plain = .plain := rfl
@[simp] theorem fold_AuthMechanism_login : fold AuthMechanism.login = .login := rfl
@[simp] theorem fold_AuthMechanism_oAuthBearer : fold AuthMechanism.oAuthBearer = .oAuthBearer := rfl
@[simp] theorem fold_AuthMechanism_xOAuth2 : fold AuthMechanism.xOAuth2 = .xOAuth2 := rfl
@[simp] theorem fold_AuthMechanism_scramSha1 : fold AuthMechanism.scramSha1 = .scramSha1 := rfl
@[simp] theorem fold_AuthMechanism_scramSha1Plus : fold AuthMechanism.scramSha1Plus = .scramSha1Plus := rfl
@[simp] theorem fold_AuthMechanism_scramSha256 : fold AuthMechanism.scramSha256 = .scramSha256 := rfl
@[simp] theorem fold_AuthMechanism_scramSha256Plus : fold AuthMechanism.scramSha256Plus = .scramSha256Plus := rfl
@[simp] theorem fold_CapabilityEnable_condStore : fold CapabilityEnable.condStore = .condStore := rfl
@[simp] theorem fold_CapabilityEnable_metadata : fold CapabilityEnable.metadata = .metadata := rfl
@[simp] theorem fold_CapabilityEnable_metadataServer : fold CapabilityEnable.metadataServer = .metadataServer := rfl
@[simp] theorem fold_CapabilityEnable_utf8Accept : fold CapabilityEnable.utf8Accept = .utf8Accept := rfl
@[simp] theorem fold_CapabilityEnable_utf8Only : fold CapabilityEnable.utf8Only = .utf8Only := rfl
@[simp] theorem fold_Resource_storage : fold Resource.storage = .storage := rfl
@[simp] theorem fold_Resource_message : fold Resource.message = .message := rfl
@[simp] theorem fold_Resource_mailbox : fold Resource.mailbox = .mailbox := rfl
@[simp] theorem fold_Resource_annotationStorage : fold Resource.annotationStorage = .annotationStorage := rfl
@[simp] theorem fold_ThreadingAlgorithm_orderedSubject : fold ThreadingAlgorithm.orderedSubject = .orderedSubject := rfl
@[simp] theorem fold_ThreadingAlgorithm_references : fold ThreadingAlgorithm.references = .references := rfl
@[simp] theorem fold_MessageDataItemName_body : fold MessageDataItemName.body = .body := rfl
@[simp] theorem fold_MessageDataItemName_bodyStructure : fold MessageDataItemName.bodyStructure = .bodyStructure := rfl
@[simp] theorem fold_MessageDataItemName_envelope : fold MessageDataItemName.envelope = .envelope := rfl
@[simp] theorem fold_MessageDataItemName_flags : fold MessageDataItemName.flags = .flags := rfl
@[simp] theorem fold_MessageDataItemName_internalDate : fold MessageDataItemName.internalDate = .internalDate := rfl
@[simp] theorem fold_MessageDataItemName_rfc822 : fold MessageDataItemName.rfc822 = .rfc822 := rfl
@[simp] theorem fold_MessageDataItemName_rfc822Header : fold MessageDataItemName.rfc822Header = .rfc822Header := rfl
@[simp] theorem fold_MessageDataItemName_rfc822Size : fold MessageDataItemName.rfc822Size = .rfc822Size := rfl
@[simp] theorem fold_MessageDataItemName_rfc822Text : fold MessageDataItemName.rfc822Text = .rfc822Text := rfl
@[simp] theorem fold_MessageDataItemName_uid : fold MessageDataItemName.uid = .uid := rfl
@[simp] theorem fold_MessageDataItemName_modSeq : fold MessageDataItemName.modSeq = .modSeq := rfl
@[simp] theorem fold_Section_part {p} : fold (Section.part p) = .part p := rfl
@[simp] theorem fold_Section_header {p} : fold (Section.header p) = .header p := rfl
@[simp] theorem fold_Section_text {p} : fold (Section.text p) = .text p := rfl
@[simp] theorem fold_Section_mime {p} : fold (Section.mime p) = .mime p := rfl
@[simp] theorem fold_Section_headerFields {p l} : fold (Section.headerFields p l) = .headerFields p (fold l) := rfl
@[simp] theorem fold_Section_headerFieldsNot {p l} : fold (Section.headerFieldsNot p l) = .headerFieldsNot p (fold l) := rfl
@[simp] theorem fold_MessageDataItemName_bodyExt {s p k} : fold (MessageDataItemName.bodyExt s p k) = .bodyExt (fold s) p k := rfl
@[simp] theorem fold_MessageDataItemName_binary {s p k} : fold (MessageDataItemName.binary s p k) = .binary s p k := rfl
@[simp] theorem fold_MessageDataItemName_binarySize {s} : fold (MessageDataItemName.binarySize s) = .binarySize s := rfl
@[simp] theorem fold_SearchKey_bcc {a} : fold (SearchKey.bcc a) = .bcc (fold a) := rfl
@[simp] theorem fold_SearchKey_body {a} : fold (SearchKey.body a) = .body (fold a) := rfl
@[simp] theorem fold_SearchKey_cc {a} : fold (SearchKey.cc a) = .cc (fold a) := rfl
@[simp] theorem fold_SearchKey_from_ {a} : fold (SearchKey.from_ a) = .from_ (fold a) := rfl
@[simp] theorem fold_SearchKey_keyword {a} : fold (SearchKey.keyword a) = .keyword (fold a) := rfl
@[simp] theorem fold_SearchKey_subject {a} : fold (SearchKey.subject a) = .subject (fold a) := rfl
@[simp] theorem fold_SearchKey_text {a} : fold (SearchKey.text a) = .text (fold a) := rfl
@[simp] theorem fold_SearchKey_to {a} : fold (SearchKey.to a) = .to (fold a) := rfl
@[simp] theorem fold_SearchKey_unkeyword {a} : fold (SearchKey.unkeyword a) = .unkeyword (fold a) := rfl
@[simp] theorem fold_SearchKey_not {a} : fold (SearchKey.not a) = .not (fold a) := rfl
@[simp] theorem fold_SearchKey_sequenceSet {a} : fold (SearchKey.sequenceSet a) = .sequenceSet a := rfl
@[simp] theorem fold_SearchKey_before {a} : fold (SearchKey.before a) = .before a := rfl
@[simp] theorem fold_SearchKey_larger {a} : fold (SearchKey.larger a) = .larger a := rfl
@[simp] theorem fold_SearchKey_on {a} : fold (SearchKey.on a) = .on a := rfl
@[simp] theorem fold_SearchKey_sentBefore {a} : fold (SearchKey.sentBefore a) = .sentBefore a := rfl
@[simp] theorem fold_SearchKey_sentOn {a} : fold (SearchKey.sentOn a) = .sentOn a := rfl
@[simp] theorem fold_SearchKey_sentSince {a} : fold (SearchKey.sentSince a) = .sentSince a := rfl
@[simp] theorem fold_SearchKey_since {a} : fold (SearchKey.since a) = .since a := rfl
@[simp] theorem fold_SearchKey_smaller {a} : fold (SearchKey.smaller a) = .smaller a := rfl
@[simp] theorem fold_SearchKey_uid {a} : fold (SearchKey.uid a) = .uid a := rfl
@[simp] theorem fold_SearchKey_header {a b} : fold (SearchKey.header a b) = .header (fold a) (fold b) := rfl
@[simp] theorem fold_SearchKey_or {a b} : fold (SearchKey.or a b) = .or (fold a) (fold b) := rfl
@[simp] theorem fold_SearchKey_modSequence {a b} : fold (SearchKey.modSequence a b) = .modSequence (fold a) b := rfl
@[simp] theorem fold_CommandBody_authenticate {a b} : fold (CommandBody.authenticate a b) = .authenticate (fold a) b := rfl
@[simp] theorem fold_CommandBody_login {a b} : fold (CommandBody.login a b) = .login (fold a) (fold b) := rfl
@[simp] theorem fold_CommandBody_rename {a b} : fold (CommandBody.rename a b) = .rename (fold a) (fold b) := rfl
@[simp] theorem fold_CommandBody_list {a b} : fold (CommandBody.list a b) = .list (fold a) (fold b) := rfl
@[simp] theorem fold_CommandBody_lsub {a b} : fold (CommandBody.lsub a b) = .lsub (fold a) (fold b) := rfl
@[simp] theorem fold_CommandBody_setQuota {a b} : fold (CommandBody.setQuota a b) = .setQuota (fold a) (fold b) := rfl
@[simp] theorem fold_CommandBody_setMetadata {a b} : fold (CommandBody.setMetadata a b) = .setMetadata (fold a) (fold b) := rfl
@[simp] theorem fold_CommandBody_select {a b} : fold (CommandBody.select a b) = .select (fold a) b := rfl
@[simp] theorem fold_CommandBody_examine {a b} : fold (CommandBody.examine a b) = .examine (fold a) b := rfl
@[simp] theorem fold_CommandBody_status {a b} : fold (CommandBody.status a b) = .status (fold a) b := rfl
@[simp] theorem fold_CommandBody_create {a} : fold (CommandBody.create a) = .create (fold a) := rfl
@[simp] theorem fold_CommandBody_delete {a} : fold (CommandBody.delete a) = .delete (fold a) := rfl
@[simp] theorem fold_CommandBody_subscribe {a} : fold (CommandBody.subscribe a) = .subscribe (fold a) := rfl
@[simp] theorem fold_CommandBody_unsubscribe {a} : fold (CommandBody.unsubscribe a) = .unsubscribe (fold a) := rfl
@[simp] theorem fold_CommandBody_enable {a} : fold (CommandBody.enable a) = .enable (fold a) := rfl
@[simp] theorem fold_CommandBody_getQuota {a} : fold (CommandBody.getQuota a) = .getQuota (fold a) := rfl
@[simp] theorem fold_CommandBody_getQuotaRoot {a} : fold (CommandBody.getQuotaRoot a) = .getQuotaRoot (fold a) := rfl
@[simp] theorem fold_CommandBody_id {a} : fold (CommandBody.id a) = .id (fold a) := rfl
@[simp] theorem fold_CommandBody_append {a b c d} : fold (CommandBody.append a b c d) = .append (fold a) (fold b) c (fold d) := rfl
@[simp] theorem fold_CommandBody_search {a b c} : fold (CommandBody.search a b c) = .search (fold a) (fold b) c := rfl
@[simp] theorem fold_CommandBody_sort {a b c d} : fold (CommandBody.sort a b c d) = .sort a (fold b) (fold c) d := rfl
@[simp] theorem fold_CommandBody_thread {a b c d} : fold (CommandBody.thread a b c d) = .thread (fold a) (fold b) (fold c) d := rfl
@[simp] theorem fold_CommandBody_fetch {a b c d} : fold (CommandBody.fetch a b c d) = .fetch a (fold b) c d := rfl
@[simp] theorem fold_CommandBody_store {a b c d e f} : fold (CommandBody.store a b c d e f) = .store a b c (fold d) e f := rfl
@[simp] theorem fold_CommandBody_copy {a b c} : fold (CommandBody.copy a b c) = .copy a (fold b) c := rfl
@[simp] theorem fold_CommandBody_move {a b c} : fold (CommandBody.move a b c) = .move a (fold b) c := rfl
@[simp] theorem fold_CommandBody_getMetadata {a b c} : fold (CommandBody.getMetadata a b c) = .getMetadata a (fold b) (fold c) := rfl
@[simp] theorem fold_CommandBody_expungeUid {a} : fold (CommandBody.expungeUid a) = .expungeUid a := rfl
@[simp] theorem fold_CommandBody_capability : fold CommandBody.capability = .capability := rfl
@[simp] theorem fold_CommandBody_noop : fold CommandBody.noop = .noop := rfl
@[simp] theorem fold_CommandBody_logout : fold CommandBody.logout = .logout := rfl
@[simp] theorem fold_CommandBody_startTls : fold CommandBody.startTls = .startTls := rfl
@[simp] theorem fold_CommandBody_unselect : fold CommandBody.unselect = .unselect := rfl
@[simp] theorem fold_CommandBody_check : fold CommandBody.check = .check := rfl
@[simp] theorem fold_CommandBody_close : fold CommandBody.close = .close := rfl
@[simp] theorem fold_CommandBody_expunge : fold CommandBody.expunge = .expunge := rfl
@[simp] theorem fold_CommandBody_idle : fold CommandBody.idle = .idle := rfl
@[simp] theorem fold_CommandBody_compress : fold CommandBody.compress = .compress := rfl
@[simp] theorem fold_CommandBody_namespace_ : fold CommandBody.namespace_ = .namespace_ := rfl

/-- Splits the proof that a parser does not depend on the letter case along its structure. -/
macro "ci" : tactic => `(tactic| repeat' (first
  | exact CIs.ci | exact CI.alt_nil | refine CI.alt_cons ?_ ?_ | refine CI.gate ?_ | exact (CIs.tag rfl).ci | exact (CIs.char rfl).ci
  | refine CI.bindP ?_ fun _ => ?_ | refine CI.bind ?_ fun _ _ _ => ?_ | refine CI.opt ?_
  | refine CI.sepList1 ?_ ?_ | refine CI.sepList0 ?_ ?_ | refine CI.many0 ?_ | refine CI.many1 ?_ | refine CI.value ?_ rfl
  | refine CI.mapP ?_ fun _ => ?_ | refine CI.map ?_ fun _ _ _ => ?_ | exact rfl | refine CI.pure ?_ | (simp_all; done)))

/-! ### Core -/

theorem CIs.nat {p : P Bytes} (h : CIs p) (hp : Post p fun s => s.all isDigit = true) {f : Bytes → Option Nat} : CIs (mapRes p f) :=
  ⟨CI.mapRes_post h.ci hp fun a b ha hb e => by rw [digits_eq ha hb e]⟩

theorem CIs.natMap {p : P Bytes} (h : CIs p) (hp : Post p fun s => s.all isDigit = true) {f : Bytes → Nat} : CIs (f <$> p) :=
  ⟨CI.map_post h.ci hp fun a b ha hb e => by rw [digits_eq ha hb e]⟩

theorem post_digits1 : Post (takeWhile1 isDigit) fun s => s.all isDigit = true := Post.canon fun _ h => h.2
theorem post_digits2 : Post (take1or2 isDigit) fun s => s.all isDigit = true := Post.canon fun _ h => h.2
theorem post_digits3 {n : Nat} : Post (takeExactly isDigit n) fun s => s.all isDigit = true := Post.canon fun _ h => h.2

instance : CIs number := CIs.nat inferInstance post_digits1
instance : CIs number64 := CIs.nat inferInstance post_digits1
instance : CIs nzNumber := ⟨CI.mapRes CIs.ci fun a b e => by cases e; rfl⟩
instance : CIs modSequenceValue := ⟨CI.mapRes CIs.ci fun a b e => by cases e; rfl⟩
instance : CIs modSequenceValzer := inferInstanceAs (CIs number64)
instance : CIs digit12 := CIs.natMap inferInstance post_digits2
instance : CIs digit2 := CIs.natMap inferInstance post_digits3
instance : CIs digit4 := CIs.natMap inferInstance post_digits3

theorem small_ne {c : UInt8} (hc : noLetter c = true) {a b : UInt8} (h : small a = small b) : a = c ↔ b = c :=
  ⟨fun e => noLetter_eq hc b (by rw [← h, e]), fun e => noLetter_eq hc a (by rw [h, e])⟩

theorem fold_replace2 {a b : UInt8} {z : Bytes} (ha : noLetter a = true) (hb : noLetter b = true) {s t : Bytes} (h : fold s = fold t) :
    fold (replace2 a b z s) = fold (replace2 a b z t) := by
  induction s using (measure List.length).wf.induction generalizing t with
  | _ s ih =>
    match s with
    | [] => cases t with
      | nil => rfl
      | cons => cases h
    | [x] =>
      obtain ⟨x', t, rfl, hx, h⟩ := SameLetters.cons_iff.1 h
      obtain rfl := SameLetters.nil_iff.1 h
      exact fold_cons hx rfl
    | x :: y :: s =>
      obtain ⟨x', t, rfl, hx, h'⟩ := SameLetters.cons_iff.1 h
      obtain ⟨y', t, rfl, hy, h''⟩ := SameLetters.cons_iff.1 h'
      simp only [replace2, Bool.and_eq_true, decide_eq_true_eq, small_ne ha hx, small_ne hb hy]
      split
      · show List.map small (z ++ _) = List.map small (z ++ _)
        rw [List.map_append, List.map_append]
        exact congrArg _ (ih s (by show s.length < (x :: y :: s).length; simp; omega) h'')
      · exact fold_cons hx (ih (y :: s) (by show (y :: s).length < (x :: y :: s).length; simp) h')

theorem fold_unescape {s t : Bytes} (h : fold s = fold t) : fold (unescapeQuoted s) = fold (unescapeQuoted t) :=
  fold_replace2 rfl rfl (fold_replace2 rfl rfl h)

theorem isUtf8_fold {s t : Bytes} (h : fold s = fold t) : isUtf8 s = isUtf8 t := by
  have key : ∀ u : Utf8, ∀ b, u.step (small b) = u.step b := by
    intro u
    cases u <;> exact forall_byte (by decide)
  have : ∀ (s t : Bytes), fold s = fold t → ∀ u : Utf8, u.run s = u.run t := by
    intro s
    induction s with
    | nil => intro t h u; rw [SameLetters.nil_iff.1 h]
    | cons a s ih =>
      intro t h u
      obtain ⟨b, t, rfl, hb, h⟩ := SameLetters.cons_iff.1 h
      simp only [Utf8.run]
      rw [← key u a, hb, key u b]
      split
      · exact ih t h _
      · rfl
  exact this s t h _

instance : CIs quoted := ⟨CI.bind CIs.ci fun _ _ _ => CI.bind CIs.ci fun _ _ h => CI.bind CIs.ci fun _ _ _ => CI.pure (fold_unescape h)⟩

instance : CIs quotedUtf8 := ⟨CI.bind CIs.ci fun _ _ _ => CI.bind
  (CI.mapRes CIs.ci fun a b h => by rw [isUtf8_fold h]; split <;> simp [h])
  fun _ _ h => CI.bind CIs.ci fun _ _ _ => CI.pure (fold_unescape h)⟩

instance : CIs quotedChar := by
  unfold quotedChar
  exact ⟨by ci⟩

section Q
variable [Quirks]

theorem CI.literalHdr {t : Bytes} (h : t.all noLetter = true) : CI (literalHdr t) (literalHdr t) := by
  refine CI.bind (CIs.tag h).ci fun _ _ _ => ?_
  ci

theorem CI.literalData {n : Nat} {m : Mode} : CI (literalData n m) (literalData n m) := by
  intro x y e
  unfold Imap.literalData
  cases x with
  | nil => obtain rfl := SameLetters.nil_iff.1 e; rfl
  | cons a x =>
    obtain ⟨b, y, rfl, hb, e'⟩ := SameLetters.cons_iff.1 e
    exact CIs.ci (p := take n) _ _ e

instance : CIs literal := by
  refine ⟨CI.bindP (CI.literalHdr rfl) fun a => ?_⟩
  refine CI.bind CI.literalData fun a b e => ?_
  refine CI.ite (by rw [all_caseless e]) (fun _ => CI.pure ?_) fun _ => CI.failure
  simp [e]

instance : CIs literal8 := by
  refine ⟨CI.bindP (CI.literalHdr rfl) fun a => ?_⟩
  refine CI.bind CI.literalData fun a b e => ?_
  refine CI.pure ?_
  simp [e]

instance : CIs string := by
  unfold string
  exact ⟨by ci⟩
instance : CIs astring := by
  unfold astring
  exact ⟨by ci⟩
instance : CIs atom := inferInstanceAs (CIs (takeWhile1 _))
instance : CIs nil := inferInstanceAs (CIs (tagNC _))
instance : CIs nstring := by
  unfold nstring
  exact ⟨by ci⟩
instance : CIs text := inferInstanceAs (CIs (takeWhile1 _))
instance : CIs charset := by
  unfold charset
  exact ⟨by ci⟩
instance : CIs tagImap := inferInstanceAs (CIs (takeWhile1 _))

/-! ### Parts -/

instance : CIs seqNumber := by
  unfold seqNumber
  exact ⟨by ci⟩
instance : CIs seqRange := by
  unfold seqRange
  exact ⟨by ci⟩
instance : CIs sequenceSet := by
  unfold sequenceSet
  exact ⟨by ci⟩

theorem fold_content {s t : AString} (h : fold s = fold t) : fold s.content = fold t.content := by
  cases s <;> cases t <;> simp only [fold_AString_atom, fold_AString_string, AString.atom.injEq, AString.string.injEq, reduceCtorEq] at h
  · exact h
  · next s t =>
    cases s <;> cases t <;> simp only [fold_IString_literal, fold_IString_quoted, fold_IString_quotedUtf8, IString.literal.injEq, IString.quoted.injEq, IString.quotedUtf8.injEq, reduceCtorEq] at h
    · exact congrArg Literal.data h
    · exact h
    · exact h

theorem fold_ofAString {s t : AString} (h : fold s = fold t) : fold (Mailbox.ofAString s) = fold (Mailbox.ofAString t) := by
  unfold Mailbox.ofAString
  simp only [eqIC, lowerAll_eq, fold_content h]
  split
  · rfl
  · simp [h]

instance : CIs mailbox := ⟨CI.map CIs.ci fun _ _ h => fold_ofAString h⟩
instance : CIs listMailbox := by
  unfold listMailbox
  exact ⟨by ci⟩

theorem upperAll_fold {s t : Bytes} (h : fold s = fold t) : upperAll s = upperAll t := by
  have key : ∀ b, upper (small b) = upper b := forall_byte (by decide)
  have : ∀ s : Bytes, upperAll s = upperAll (fold s) := by
    intro s
    unfold upperAll
    show List.map upper s = List.map upper (List.map small s)
    rw [List.map_map]
    exact List.map_congr_left fun b _ => (key b).symm
  rw [this s, h, ← this t]

theorem fold_system {s t : Bytes} (h : fold s = fold t) : fold (Flag.system s) = fold (Flag.system t) := by
  simp only [Flag.system, lowerAll_eq, h]
  repeat' split
  all_goals simp [h]

instance : CIs flag := ⟨CI.alt_cons (CI.map (by ci) fun _ _ h => fold_system h) (by ci)⟩
instance : CIs flagList := by
  unfold flagList
  exact ⟨by ci⟩

instance : CIs dateMonth := by
  unfold dateMonth
  exact ⟨by ci⟩
instance : CIs dateText := by
  unfold dateText
  exact ⟨by ci⟩
instance : CIs date := by
  unfold date
  exact ⟨by ci⟩
instance : CIs dateSome := ⟨CI.mapRes CIs.ci fun a b h => h⟩
instance : CIs time := by
  unfold time
  exact ⟨by ci⟩
instance : CIs dateDayFixed := by
  unfold dateDayFixed
  refine ⟨CI.alt_cons (CI.map_post (Q := fun b => isDigit b = true) (by ci) ?_ ?_) (by ci)⟩
  · intro x r v h
    simp only [P.bind_apply] at h
    obtain ⟨i, u, -, h⟩ := Res.andThen_eq_ok.1 h
    cases i with
    | nil => cases h
    | cons b i =>
      simp only [satisfy] at h
      split at h
      · next hb => cases h; exact hb
      · cases h
  · intro a b ha hb h
    have := digits_eq (s := [a]) (t := [b]) (by simp [ha]) (by simp [hb]) (fold_cons h rfl)
    cases this
    rfl
instance : CIs zone := by
  unfold zone
  exact ⟨by ci⟩
instance : CIs dateTime := by
  unfold dateTime
  refine ⟨?_⟩
  ci
  unfold mkDateTime
  split
  · exact CI.pure rfl
  · exact CI.failure

theorem fold_mechanism {s t : Bytes} (h : fold s = fold t) : fold (AuthMechanism.ofAtom s) = fold (AuthMechanism.ofAtom t) := by
  simp only [AuthMechanism.ofAtom, upperAll_fold h]
  repeat' split
  all_goals simp [h]

instance : CIs authType := ⟨CI.map CIs.ci fun _ _ h => fold_mechanism h⟩
instance : CIs idleDone := by
  unfold idleDone
  exact ⟨by ci⟩
instance : CIs statusAtt := by
  unfold statusAtt
  exact ⟨by ci⟩

/-! ### Search -/

theorem fold_attribute {s t : Bytes} (h : fold s = fold t) : fold (AttributeFlag.system s) = fold (AttributeFlag.system t) := by
  simp only [AttributeFlag.system, lowerAll_eq, h]
  repeat' split
  all_goals simp [h]

instance : CIs attrFlag := ⟨CI.alt_cons (CI.map (by ci) fun _ _ h => fold_attribute h) (by ci)⟩
instance : CIs entryTypeReq := by
  unfold entryTypeReq
  exact ⟨by ci⟩
instance : CIs entryName := by
  unfold entryName
  exact ⟨by ci⟩
instance : CIs searchModseqExt := by
  unfold searchModseqExt
  exact ⟨by ci⟩
instance : CIs searchModsequence := by
  unfold searchModsequence
  exact ⟨by ci⟩

@[simp] theorem fold_and (l : List SearchKey) : fold (SearchKey.and l) = .and (fold l) := by
  show SearchKey.and (foldKey.go l) = .and (l.map foldKey)
  congr 1
  induction l with
  | nil => rfl
  | cons a l ih => simp [foldKey.go, ih]

instance (n : Nat) : CIs (searchKey n) := by
  induction n with
  | zero => exact ⟨CI.failure⟩
  | succ n ih =>
    unfold searchKey
    exact ⟨by ci⟩

instance : CIs searchCriteria := by
  unfold searchCriteria
  exact ⟨by ci⟩

/-! ### Fetch -/

instance : CIs headerList := by
  unfold headerList
  exact ⟨by ci⟩
instance : CIs sectionMsgtext := by
  unfold sectionMsgtext
  exact ⟨by ci⟩
instance : CIs sectionPart := by
  unfold sectionPart
  exact ⟨by ci⟩
instance : CIs sectionText := by
  unfold sectionText
  exact ⟨by ci⟩

theorem fold_ofMsgtext {s t : PartSpecifier} (h : fold s = fold t) : fold (Section.ofMsgtext s) = fold (Section.ofMsgtext t) := by
  cases s <;> cases t <;> simp [fold] at h <;> simp [Section.ofMsgtext, fold, h]

theorem fold_ofPart {p : List NzU32} {s t : Option PartSpecifier} (h : fold s = fold t) : fold (Section.ofPart p s) = fold (Section.ofPart p t) := by
  rcases s with _ | s <;> rcases t with _ | t
  · rfl
  · cases h
  · cases h
  · cases s <;> cases t <;> simp [fold] at h <;> simp [Section.ofPart, fold, h]

instance : CIs sectionSpec := ⟨CI.alt_cons (CI.mapRes CIs.ci fun _ _ h => fold_ofMsgtext h)
  (CI.alt_cons (CI.bindP CIs.ci fun _ => CI.bind (by ci) fun _ _ h => CI.pure (fold_ofPart h)) CI.alt_nil)⟩
instance : CIs «section» := by
  unfold «section»
  exact ⟨by ci⟩
instance : CIs sectionBinary := by
  unfold sectionBinary
  exact ⟨by ci⟩
instance : CIs partial_ := by
  unfold partial_
  exact ⟨by ci⟩
instance : CIs fetchAtt := by
  unfold fetchAtt
  exact ⟨by ci⟩
instance : CIs macroOrNames := by
  unfold macroOrNames
  exact ⟨by ci⟩

/-! ### Arguments of commands -/

instance : CIs qresync := by
  unfold qresync
  exact ⟨by ci⟩
instance : CIs selectParam := by
  unfold selectParam
  exact ⟨by ci⟩
instance : CIs selectParams := by
  unfold selectParams
  exact ⟨by ci⟩
instance : CIs fetchModifier := by
  unfold fetchModifier
  exact ⟨by ci⟩
instance : CIs fetchModifiers := by
  unfold fetchModifiers
  exact ⟨by ci⟩
instance : CIs storeModifier := by
  unfold storeModifier
  exact ⟨by ci⟩
instance : CIs storeModifiers := by
  unfold storeModifiers
  exact ⟨by ci⟩
instance : CIs storeAttFlags := by
  unfold storeAttFlags
  exact ⟨by ci⟩

theorem fold_enable {s t : Bytes} (h : fold s = fold t) : fold (CapabilityEnable.ofAtom s) = fold (CapabilityEnable.ofAtom t) := by
  simp only [CapabilityEnable.ofAtom, upperAll_fold h, lowerAll_eq, h]
  repeat' split
  all_goals simp [h]

instance : CIs capabilityEnable := ⟨CI.map CIs.ci fun _ _ h => fold_enable h⟩

theorem fold_resource {s t : Bytes} (h : fold s = fold t) : fold (Resource.ofAtom s) = fold (Resource.ofAtom t) := by
  simp only [Resource.ofAtom, upperAll_fold h]
  repeat' split
  all_goals simp [h]

instance : CIs resourceName := ⟨CI.map CIs.ci fun _ _ h => fold_resource h⟩

theorem fold_algorithm {s t : Bytes} (h : fold s = fold t) : fold (ThreadingAlgorithm.ofAtom s) = fold (ThreadingAlgorithm.ofAtom t) := by
  simp only [ThreadingAlgorithm.ofAtom, lowerAll_eq, h]
  repeat' split
  all_goals simp [h]

instance : CIs threadAlg := ⟨CI.map CIs.ci fun _ _ h => fold_algorithm h⟩
instance : CIs setquotaResource := by
  unfold setquotaResource
  exact ⟨by ci⟩
instance : CIs sortKey := by
  unfold sortKey
  exact ⟨by ci⟩
instance : CIs sortCriterion := by
  unfold sortCriterion
  exact ⟨by ci⟩
instance : CIs sortCriteria := by
  unfold sortCriteria
  exact ⟨by ci⟩
instance : CIs idParam := by
  unfold idParam
  exact ⟨by ci⟩
instance : CIs idParamsList := by
  unfold idParamsList
  refine ⟨CI.alt_cons (CI.map (CI.bindP (CIs.tag rfl).ci fun _ => CI.bind CIs.ci fun _ _ h => ?_) fun _ _ h => ?_) (by ci)⟩
  · exact CI.ite Iff.rfl (fun _ => by ci) (fun _ => by ci)
  · exact congrArg some h
instance : CIs idCommand := by
  unfold idCommand
  exact ⟨by ci⟩
instance : CIs entry := inferInstanceAs (CIs astring)
instance : CIs imapValue := by
  unfold imapValue
  exact ⟨by ci⟩
instance : CIs entryValue := by
  unfold entryValue
  exact ⟨by ci⟩
instance : CIs entryValues := by
  unfold entryValues
  exact ⟨by ci⟩
instance : CIs entries := by
  unfold entries
  exact ⟨by ci⟩
instance : CIs getmetadataOption := by
  unfold getmetadataOption
  exact ⟨by ci⟩
instance : CIs getmetadataOptions := by
  unfold getmetadataOptions
  exact ⟨by ci⟩

/-! ### Commands -/

@[simp] theorem fold_getD {α : Type} [Fold α] (o : Option (List α)) : fold (o.getD []) = (fold o).getD [] := by
  cases o <;> rfl

instance : CIs append := by
  unfold append
  exact ⟨by ci⟩
instance : CIs create := by
  unfold create
  exact ⟨by ci⟩
instance : CIs delete := by
  unfold delete
  exact ⟨by ci⟩
instance : CIs examine := by
  unfold examine
  exact ⟨by ci⟩
instance : CIs list := by
  unfold list
  exact ⟨by ci⟩
instance : CIs lsub := by
  unfold lsub
  exact ⟨by ci⟩
instance : CIs rename := by
  unfold rename
  exact ⟨by ci⟩
instance : CIs select := by
  unfold select
  exact ⟨by ci⟩
instance : CIs status := by
  unfold status
  exact ⟨by ci⟩
instance : CIs subscribe := by
  unfold subscribe
  exact ⟨by ci⟩
instance : CIs unsubscribe := by
  unfold unsubscribe
  exact ⟨by ci⟩
instance : CIs enable := by
  unfold enable
  exact ⟨by ci⟩
instance : CIs compress := by
  unfold compress
  exact ⟨by ci⟩
instance : CIs getquota := by
  unfold getquota
  exact ⟨by ci⟩
instance : CIs getquotaroot := by
  unfold getquotaroot
  exact ⟨by ci⟩
instance : CIs setquota := by
  unfold setquota
  exact ⟨by ci⟩
instance : CIs setmetadata := by
  unfold setmetadata
  exact ⟨by ci⟩
instance : CIs getmetadata := by
  unfold getmetadata
  exact ⟨by ci⟩
instance : CIs commandAny := by
  unfold commandAny
  exact ⟨by ci⟩
instance : CIs commandAuth := by
  unfold commandAuth
  exact ⟨by ci⟩
instance : CIs login := by
  unfold login
  exact ⟨by ci⟩
instance : CIs uidExpunge := by
  unfold uidExpunge
  exact ⟨by ci⟩
instance : CIs copy := by
  unfold copy
  exact ⟨by ci⟩
instance : CIs move := by
  unfold move
  exact ⟨by ci⟩
instance : CIs fetch := by
  unfold fetch
  exact ⟨by ci⟩
instance : CIs store := by
  unfold store
  exact ⟨by ci⟩
instance : CIs search := by
  unfold search
  exact ⟨by ci⟩
instance : CIs sort := by
  unfold sort
  exact ⟨by ci⟩
instance : CIs thread := by
  unfold thread
  exact ⟨by ci⟩
instance : CIs uidBody := by
  unfold uidBody
  exact ⟨by ci⟩

theorem fold_setUid {s t : CommandBody} (h : fold s = fold t) : fold s.setUid = fold t.setUid := by
  have key : ∀ s : CommandBody, fold s.setUid = (fold s).setUid := fun s => by cases s <;> rfl
  rw [key, key, h]

instance : CIs uid := ⟨CI.bindP CIs.ci fun _ => CI.bindP CIs.ci fun _ => CI.mapRes CIs.ci fun _ _ h => fold_setUid h⟩
instance : CIs commandSelect := by
  unfold commandSelect
  exact ⟨by ci⟩

end Q

end Imap
