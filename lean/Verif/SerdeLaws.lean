import Verif.SerdeLemmas
import Mathlib.Tactic.Tauto
/-
The laws of the types: serialization and deserialization of each type follow its specification.
-/
set_option maxRecDepth 10000

namespace Imap.Serde

open Imap Imap.Spec

/-- Close a goal about a domain, given the same fact in another form. -/
macro "serde_dom" h:term:max : tactic => `(tactic| first
  | exact $h
  | exact trivial
  | (have h' := $h
     simp [Code.Dom, CommandBody.Dom, MessageDataItem.Dom, Data.Dom, Capability.Dom, Code.Inv, CommandBody.Inv, MessageDataItem.Inv,
      Data.Inv, Capability.Inv, Criteria.Inv, SelectParameter.Inv, FetchModifier.Inv, StatusDataItemName.Inv, StatusDataItem.Inv,
      Complete.starttls, Complete.extCondstoreQresync, Complete.extId, Complete.extLoginReferrals, Complete.extMailboxReferrals,
      Complete.extMetadata, Complete.extNamespace, Complete.extUtf8, All, All1, Opt] at h' ⊢ <;> first | (simp [h']; done) | tauto))

/-- The round trip of an enum: each variant is found by its name. -/
macro "serde_rt" : tactic => `(tactic| (
  intro a h
  cases a <;> exact untag_rt rfl (by first | rfl | exact of_rt (by serde_dom h))))

/-- The domain of an enum: each variant is deserialized to a value in it. -/
macro "serde_sound" : tactic => `(tactic| (
  repeat' refine List.forall_mem_cons.2 ⟨?_, ?_⟩
  all_goals first
    | exact List.forall_mem_nil _
    | exact unit_sound trivial
    | exact unit_sound Complete.starttls
    | exact unit_sound Complete.extCondstoreQresync
    | exact unit_sound Complete.extId
    | exact unit_sound Complete.extMetadata
    | exact unit_sound Complete.extNamespace
    | exact unit_sound Complete.extUtf8
    | exact unit_sound Complete.extLoginReferrals
    | exact unit_sound Complete.extMailboxReferrals
    | exact of_sound fun _ h => by serde_dom h))

theorem ascii_utf8 {s : Bytes} (h : ∀ b ∈ s, b.toNat < 128) : isUtf8 s = true := by
  induction s with
  | nil => rfl
  | cons b s ih =>
    have hb : Utf8.s0.step b = some .s0 := by
      have : b < 0x80 := by
        rw [UInt8.lt_iff_toNat_lt]
        exact h b (by simp)
      simp [Utf8.step, this]
    simpa [isUtf8, Utf8.run, hb] using ih fun x hx => h x (by simp [hx])

theorem str1_ascii {c : UInt8 → Prop} (hc : ∀ b, c b → b.toNat < 128) {s : Bytes} (h : Str1 c s) : isUtf8 s = true :=
  ascii_utf8 fun b hb => hc b (h.2 b hb)

theorem AStringChar.lt {b : UInt8} (h : AStringChar b) : b.toNat < 128 := by
  rcases h with h | h
  · exact h.1
  · simp at h
    subst h
    decide

theorem ListChar.lt {b : UInt8} (h : ListChar b) : b.toNat < 128 := by
  rcases h with h | h
  · exact h.1
  · simp at h
    rcases h with rfl | rfl | rfl <;> decide

/-! ### Core types -/

instance : Lawful atom IsAtom := Lawful.via (string.tryFrom isAtom) fun s => by
  rw [isAtom_iff]
  exact ⟨fun h => h.2, fun h => ⟨str1_ascii (fun _ hb => hb.1) h, h⟩⟩

instance : Lawful atomExt (Str1 AStringChar) := Lawful.via (string.tryFrom isAtomExt) fun s => by
  rw [isAtomExt_iff]
  exact ⟨fun h => h.2, fun h => ⟨str1_ascii (fun _ hb => AStringChar.lt hb) h, h⟩⟩

instance : Lawful quoted fun s => ∀ b ∈ s, TextChar b := Lawful.via (string.tryFrom isQuoted) fun s => by
  simp only [isQuoted, List.all_eq_true, textChar_iff]
  exact ⟨fun h => h.2, fun h => ⟨ascii_utf8 fun b hb => (h b hb).1, h⟩⟩

instance : Lawful quotedUtf8 fun s => isUtf8 s = true := Lawful.via (string.tryFrom fun _ => true) fun s => by simp

instance : Lawful tag Tag.Inv := Lawful.via (string.tryFrom isTagStr) fun s => by
  rw [isTagStr_iff]
  exact ⟨fun h => h.2, fun h => ⟨str1_ascii (fun _ hb => AStringChar.lt hb.1) h, h⟩⟩

instance : Lawful text (Str1 TextChar) := Lawful.via (string.tryFrom isText) fun s => by
  rw [isText_iff]
  exact ⟨fun h => h.2, fun h => ⟨str1_ascii (fun _ hb => hb.1) h, h⟩⟩

instance : Lawful listCharString (Str1 ListChar) := Lawful.via (string.tryFrom isListCharString) fun s => by
  rw [show isListCharString s = true ↔ Str1 ListChar s by simp [isListCharString, Str1, listChar_iff]]
  exact ⟨fun h => h.2, fun h => ⟨str1_ascii (fun _ hb => ListChar.lt hb) h, h⟩⟩

instance : Lawful quotedChar TextChar where
  rt b h := by
    have h1 : isUtf8 [b] = true := ascii_utf8 (by simpa using h.1)
    have h2 : isQuotedChar b = true := (textChar_iff b).2 h
    simp [quotedChar, h1, h2]
  sound v b h := by
    simp only [quotedChar] at h
    split at h
    · split at h
      · rename_i hb
        cases h
        exact (textChar_iff b).1 (Bool.and_eq_true_iff.1 hb).2
      · cases h
    · cases h
  missing _ h := nomatch h

instance : NotNull quotedChar := ⟨rfl⟩

instance : Lawful literalMode fun _ => True := Lawful.names fun a => by cases a <;> rfl

theorem all_isChar8 (d : Bytes) : d.all isChar8 = true ↔ 0 ∉ d := by
  simp only [List.all_eq_true, isChar8]
  constructor
  · intro h h0
    simpa using h 0 h0
  · intro h b hb
    have : b ≠ 0 := fun e => h (e ▸ hb)
    simpa using this

instance : Distinct (.cons b!"data" (bytes.tryFrom fun d => d.all isChar8) (.one b!"mode" literalMode)) := ⟨by decide⟩
instance : Distinct (.cons b!"data" bytes (.one b!"mode" literalMode)) := ⟨by decide⟩

instance : Lawful literal (Literal.Inv .inv) :=
  Lawful.newtype inferInstance (fun _ => rfl) (fun _ => rfl) fun l => by simp [Literal.Inv, ← all_isChar8]

instance : Lawful literal8 (Literal8.Inv .inv) :=
  Lawful.newtype inferInstance (fun _ => rfl) (fun _ => rfl) fun l => by simp [Literal8.Inv]

instance [Quirks] [Complete] : Lawful istring (IString.Inv .inv) := Lawful.enum
  (by
    intro a h
    cases a with
    | literal l => exact untag_rt rfl (of_rt h)
    | quoted s => exact untag_rt rfl (of_rt h)
    | quotedUtf8 s => exact untag_rt rfl (of_rt h.2.1))
  (by
    repeat' refine List.forall_mem_cons.2 ⟨?_, ?_⟩
    · exact of_sound fun _ h => h
    · exact of_sound fun _ h => h
    · exact of_sound fun _ h => ⟨Complete.extUtf8, h, nofun, nofun⟩
    · exact List.forall_mem_nil _)

instance : NotNull istring := ⟨rfl⟩

instance [Quirks] [Complete] : Lawful nstring (NString.Inv .inv) := inferInstanceAs (Lawful ((opt istring).newtype id id) _)

instance [Quirks] [Complete] : Lawful astring (AString.Inv .inv) := Lawful.enum (by serde_rt) (by serde_sound)

instance : Lawful charset Charset.Inv := Lawful.enum (by serde_rt) (by serde_sound)

instance : NotNull charset := ⟨rfl⟩

instance : Lawful literalOrLiteral8 (LiteralOrLiteral8.Inv .inv) := Lawful.enum (by serde_rt) (by serde_sound)

instance [Quirks] [Complete] : Lawful nstring8 (NString8.Inv .inv) := Lawful.enum (by serde_rt) (by serde_sound)

/-! ### Sequence sets, dates, flags, mailboxes, mechanisms -/

instance : Lawful seqOrUid SeqOrUid.Inv := Lawful.enum (by serde_rt) (by serde_sound)

instance : Lawful sequence Sequence.Inv := Lawful.enum (by serde_rt) (by serde_sound)

instance : Lawful sequenceSet SequenceSet.Inv := inferInstanceAs (Lawful ((vec 1 sequence).newtype id id) _)

instance : NotNull sequenceSet := ⟨rfl⟩

instance : Lawful naiveDate NaiveDate.Inv where
  rt d h := by simp [naiveDate, (NaiveDate.inv_iff d).2 h]
  sound v d h := by
    cases v <;> simp [naiveDate] at h
    obtain ⟨h, rfl⟩ := h
    exact (NaiveDate.inv_iff _).1 h
  missing _ h := nomatch h

instance : Lawful dateTime DateTime.Inv where
  rt d h := by simp [dateTime, (DateTime.inv_iff d).2 h]
  sound v d h := by
    cases v <;> simp [dateTime] at h
    obtain ⟨h, rfl⟩ := h
    exact (DateTime.inv_iff _).1 h
  missing _ h := nomatch h

instance : NotNull dateTime := ⟨rfl⟩

instance : Lawful flag Flag.Dom := Lawful.enum (by serde_rt) (by serde_sound)

instance : Lawful flagFetch FlagFetch.Dom := Lawful.enum (by serde_rt) (by serde_sound)

instance : Lawful flagPerm FlagPerm.Dom := Lawful.enum (by serde_rt) (by serde_sound)

instance : Lawful flagNameAttribute FlagNameAttribute.Dom := Lawful.enum (by serde_rt) (by serde_sound)

instance [Quirks] [Complete] : Lawful mailboxOther fun s => AString.Inv .inv s ∧ NotOneOf [b!"inbox"] s.content :=
  Lawful.via (astring.tryFrom fun s => (MailboxOther.tryFrom s).isSome) fun s => by
    refine and_congr_right fun _ => ?_
    unfold MailboxOther.tryFrom
    split <;> simp_all [isMailboxOther, NotOneOf, eqIC, show lowerAll b!"inbox" = b!"inbox" from rfl]

instance [Quirks] [Complete] : Lawful mailbox (Mailbox.Inv .inv) := Lawful.enum (by serde_rt) (by serde_sound)

instance [Quirks] [Complete] : Lawful listMailbox (ListMailbox.Inv .inv) := Lawful.enum (by serde_rt) (by serde_sound)

instance : Lawful authMechanism AuthMechanism.Dom := Lawful.enum (by serde_rt) (by serde_sound)

instance : Lawful authenticateData fun _ => True := Lawful.enum (by serde_rt) (by serde_sound)

/-! ### Fetch -/

instance : Lawful part Part.Inv := inferInstanceAs (Lawful ((vec 1 nz32).newtype id id) _)

instance : NotNull part := ⟨rfl⟩

instance [Quirks] [Complete] : Lawful section_ (Section.Inv .inv) := Lawful.enum (by serde_rt) (by serde_sound)

instance : NotNull section_ := ⟨rfl⟩

instance : Distinct bodyExtNameFields := ⟨by decide⟩
instance : Distinct binaryNameFields := ⟨by decide⟩
instance {α : Type} (n : Bytes) (s : S α) : Distinct (.one n s) := ⟨by simp [Fields.one]⟩

instance [Quirks] [Complete] : Lawful messageDataItemName (MessageDataItemName.Inv .inv) := Lawful.enum
  (by
    intro a h
    cases a <;> exact untag_rt rfl (by first | rfl | exact of_rt h | exact of_rt ⟨h.1, h.2, trivial⟩))
  (by
    repeat' refine List.forall_mem_cons.2 ⟨?_, ?_⟩
    all_goals first
      | exact List.forall_mem_nil _
      | exact unit_sound trivial
      | exact unit_sound Complete.extCondstoreQresync
      | exact of_sound fun _ h => h
      | exact of_sound fun _ h => ⟨h.1, h.2.1⟩)

instance : Lawful macro_ fun _ => True := Lawful.enum (by serde_rt) (by serde_sound)

instance [Quirks] [Complete] : Lawful macroOrNames (MacroOrNames.Inv .inv) := Lawful.enum (by serde_rt) (by serde_sound)

/-! ### Search -/

instance : Lawful attributeFlag AttributeFlag.Dom := Lawful.enum (by serde_rt) (by serde_sound)

instance : Lawful entryTypeReq fun _ => True := Lawful.names fun a => by cases a <;> rfl

instance : Distinct modSequenceFields := ⟨by decide⟩

theorem serKeys_eq : ∀ l, serKeys l = l.map serKey
  | [] => rfl
  | k :: l => by simp [serKeys, serKeys_eq l]

theorem SearchKey.go_iff [Quirks] : ∀ l, SearchKey.Dom.go l ↔ All SearchKey.Dom l
  | [] => by simp [SearchKey.Dom.go, All]
  | k :: l => by simp [SearchKey.Dom.go, SearchKey.go_iff l, All]

theorem SearchKey.depth_pos : ∀ k : SearchKey, 1 ≤ k.depth := by
  intro k
  cases k <;> simp [Imap.SearchKey.depth]

theorem SearchKey.go_le {n : Nat} : ∀ l : List SearchKey, Imap.SearchKey.depth.go l ≤ n ↔ ∀ k ∈ l, k.depth ≤ n
  | [] => by simp [Imap.SearchKey.depth.go]
  | k :: l => by simp [Imap.SearchKey.depth.go, SearchKey.go_le l]

instance deKey_lawful [Quirks] [Complete] : ∀ n, Lawful { ser := serKey, de := deKey n } fun k => SearchKey.Dom k ∧ k.depth ≤ n
  | 0 =>
    { rt := fun k h => by
        have := SearchKey.depth_pos k
        omega
      sound := fun _ _ h => nomatch h
      missing := fun _ h => nomatch h }
  | n + 1 =>
    { rt := fun k h => by
        have ih := deKey_lawful n
        obtain ⟨h, hd⟩ := h
        show untag (keyVariants { ser := serKey, de := deKey n }) (serKey k) = some k
        cases k with
        | and l =>
          have hl : All1 (fun k => SearchKey.Dom k ∧ k.depth ≤ n) l :=
            ⟨h.1, fun k hk => ⟨(SearchKey.go_iff l).1 h.2 k hk, (SearchKey.go_le l).1 (Nat.le_of_succ_le_succ hd) k hk⟩⟩
          simp only [serKey, serKeys_eq]
          exact untag_rt rfl (of_rt (s := vec 1 { ser := serKey, de := deKey n }) hl)
        | not k =>
          exact untag_rt rfl (of_rt (s := { ser := serKey, de := deKey n }) ⟨h, Nat.le_of_succ_le_succ hd⟩)
        | or a b =>
          have hd : max a.depth b.depth ≤ n := Nat.le_of_succ_le_succ hd
          exact untag_rt rfl (of_rt (s := pair { ser := serKey, de := deKey n } { ser := serKey, de := deKey n }) (b := (a, b))
            ⟨⟨h.1, (Nat.max_le.1 hd).1⟩, ⟨h.2, (Nat.max_le.1 hd).2⟩⟩)
        | modSequence e m =>
          exact untag_rt rfl (of_rt (s := record modSequenceFields) (b := (e, m)) ⟨fun a ha => ⟨h.1 a ha, trivial⟩, h.2⟩)
        | _ => exact untag_rt rfl (by first | rfl | exact of_rt h)
      sound := fun v k h => by
        have ih := deKey_lawful n
        refine untag_sound (P := fun k => SearchKey.Dom k ∧ k.depth ≤ n + 1) ?_ h
        unfold keyVariants
        repeat' refine List.forall_mem_cons.2 ⟨?_, ?_⟩
        all_goals first
          | exact List.forall_mem_nil _
          | exact unit_sound ⟨trivial, by simp [Imap.SearchKey.depth]⟩
          | exact of_sound fun _ h => ⟨h, by simp [Imap.SearchKey.depth]⟩
          | skip
        · refine of_sound fun l h => ?_
          refine ⟨⟨h.1, (SearchKey.go_iff l).2 fun k hk => (h.2 k hk).1⟩, Nat.succ_le_succ ((SearchKey.go_le l).2 fun k hk => (h.2 k hk).2)⟩
        · exact of_sound fun k h => ⟨h.1, Nat.succ_le_succ h.2⟩
        · exact of_sound fun x h => ⟨⟨h.1.1, h.2.1⟩, Nat.succ_le_succ (Nat.max_le.2 ⟨h.1.2, h.2.2⟩)⟩
        · exact of_sound fun x h => ⟨⟨fun a ha => (h.1 a ha).1, h.2⟩, by simp [Imap.SearchKey.depth]⟩
      missing := fun _ h => nomatch h }

theorem le_tagged {n : Bytes} {v : Value} {d : Nat} (h : d ≤ v.depth + 1) : d ≤ (tagged (n, some v)).depth := by
  simp only [tagged, Value.depth, depthEntries]
  omega

theorem one_le_tagged (x : Bytes × Option Value) : 1 ≤ (tagged x).depth := by
  obtain ⟨n, _ | v⟩ := x <;> simp [tagged, Value.depth]

mutual

theorem depth_serKey : ∀ k : SearchKey, k.depth ≤ (serKey k).depth
  | .and l => by
    have := depth_serKeys l
    simp only [Imap.SearchKey.depth, serKey]
    exact le_tagged (by simp only [Value.depth]; omega)
  | .not k => by
    have := depth_serKey k
    simp only [Imap.SearchKey.depth, serKey]
    exact le_tagged (by omega)
  | .or a b => by
    have := depth_serKey a
    have := depth_serKey b
    simp only [Imap.SearchKey.depth, serKey]
    exact le_tagged (by simp only [Value.depth, depthItems]; omega)
  | .sequenceSet _ | .all | .answered | .bcc _ | .before _ | .body _ | .cc _ | .deleted | .draft | .flagged | .from_ _ | .header _ _
  | .keyword _ | .larger _ | .new | .old | .on _ | .recent | .seen | .sentBefore _ | .sentOn _ | .sentSince _ | .since _
  | .smaller _ | .subject _ | .text _ | .to _ | .uid _ | .unanswered | .undeleted | .undraft | .unflagged | .unkeyword _ | .unseen
  | .modSequence _ _ => by
    simp only [Imap.SearchKey.depth, serKey]
    exact one_le_tagged _

theorem depth_serKeys : ∀ l : List SearchKey, Imap.SearchKey.depth.go l ≤ depthItems (serKeys l)
  | [] => by simp [Imap.SearchKey.depth.go]
  | k :: l => by
    have := depth_serKey k
    have := depth_serKeys l
    simp only [Imap.SearchKey.depth.go, serKeys, depthItems]
    omega

end

instance [Quirks] [Complete] : Lawful searchKey SearchKey.Dom where
  rt k h := (deKey_lawful _).rt k ⟨h, depth_serKey k⟩
  sound v k h := ((deKey_lawful _).sound v k h).1
  missing _ h := nomatch h

/-! ### Commands -/

instance : Distinct qresyncFields := ⟨by decide⟩

instance [Quirks] [Complete] : Lawful selectParameter SelectParameter.Inv := Lawful.enum (by serde_rt) (by serde_sound)

instance [Quirks] [Complete] : Lawful fetchModifier FetchModifier.Inv := Lawful.enum (by serde_rt) (by serde_sound)

instance : Lawful storeModifier fun n : StoreModifier => n < 2 ^ 64 := Lawful.enum
  (fun _ h => untag_rt rfl (of_rt (s := u64) h)) (by serde_sound)

instance : Lawful storeType fun _ => True := Lawful.names fun a => by cases a <;> rfl

instance : Lawful storeResponse fun _ => True := Lawful.names fun a => by cases a <;> rfl

instance [Quirks] [Complete] : Lawful statusDataItemName StatusDataItemName.Inv := by
  rw [show StatusDataItemName.Inv = fun _ => True by
    funext a
    cases a <;> simp [StatusDataItemName.Inv, Complete.extCondstoreQresync]]
  exact Lawful.names fun a => by cases a <;> rfl

instance : Lawful compressionAlgorithm fun _ => True := Lawful.enum (by serde_rt) (by serde_sound)

instance : Lawful utf8Kind fun _ => True := Lawful.enum (by serde_rt) (by serde_sound)

instance : Lawful capabilityEnable CapabilityEnable.Dom := Lawful.enum
  (by
    intro a h
    cases a with
    | utf8Accept => exact untag_rt rfl (of_rt (s := utf8Kind) (b := .accept) trivial)
    | utf8Only => exact untag_rt rfl (of_rt (s := utf8Kind) (b := .only) trivial)
    | _ => exact untag_rt rfl (by first | rfl | exact of_rt h))
  (by
    repeat' refine List.forall_mem_cons.2 ⟨?_, ?_⟩
    all_goals first
      | exact List.forall_mem_nil _
      | exact unit_sound trivial
      | exact unit_sound Complete.extCondstoreQresync
      | exact of_sound fun _ h => h
      | exact of_sound fun b _ => by cases b <;> trivial)

instance : Lawful resource Resource.Dom := Lawful.enum (by serde_rt) (by serde_sound)

instance : Distinct (.cons b!"resource" resource (.one b!"limit" u64)) := ⟨by decide⟩

instance : Lawful quotaSet QuotaSet.Dom := Lawful.newtype inferInstance (fun _ => rfl) (fun _ => rfl) fun _ => Iff.rfl

instance : Lawful sortKey fun _ => True := Lawful.names fun a => by cases a <;> rfl

instance : Distinct (.cons b!"reverse" bool (.one b!"key" sortKey)) := ⟨by decide⟩

instance : Lawful sortCriterion fun _ => True :=
  Lawful.newtype inferInstance (fun _ => rfl) (fun _ => rfl) fun _ => ⟨fun _ => trivial, fun _ => ⟨trivial, trivial⟩⟩

instance : Lawful threadingAlgorithm ThreadingAlgorithm.Dom := Lawful.enum (by serde_rt) (by serde_sound)

instance [Quirks] [Complete] : Lawful idParams (IdParams.Inv .inv) := inferInstanceAs (Lawful (list (pair istring nstring)) _)

instance : NotNull idParams := ⟨rfl⟩

instance [Quirks] [Complete] : Lawful entry (AString.Inv .inv) := inferInstanceAs (Lawful (astring.newtype id id) _)

instance : Distinct (.cons b!"entry" entry (.one b!"value" nstring8)) := ⟨by decide⟩

instance [Quirks] [Complete] : Lawful entryValue (EntryValue.Inv .inv) :=
  Lawful.newtype inferInstance (fun _ => rfl) (fun _ => rfl) fun _ => Iff.rfl

instance : Lawful depth fun _ => True := Lawful.names fun a => by cases a <;> rfl

instance : Lawful getMetadataOption GetMetadataOption.Inv := Lawful.enum
  (by
    intro a h
    cases a with
    | maxSize n => exact untag_rt rfl (of_rt h)
    | depthNull => exact untag_rt rfl (of_rt (s := depth) (b := .null) trivial)
    | depthOne => exact untag_rt rfl (of_rt (s := depth) (b := .one) trivial)
    | depthInfinity => exact untag_rt rfl (of_rt (s := depth) (b := .infinity) trivial))
  (by
    repeat' refine List.forall_mem_cons.2 ⟨?_, ?_⟩
    · exact of_sound fun _ h => h
    · exact of_sound fun b _ => by cases b <;> trivial
    · exact List.forall_mem_nil _)

instance : NotNull bytes := ⟨rfl⟩
instance : Distinct authenticateFields := ⟨by decide⟩
instance : Distinct loginFields := ⟨by decide⟩
instance : Distinct selectFields := ⟨by decide⟩
instance : Distinct renameFields := ⟨by decide⟩
instance : Distinct listFields := ⟨by decide⟩
instance : Distinct statusNameFields := ⟨by decide⟩
instance : Distinct appendFields := ⟨by decide⟩
instance : Distinct searchFields := ⟨by decide⟩
instance : Distinct sortFields := ⟨by decide⟩
instance : Distinct threadFields := ⟨by decide⟩
instance : Distinct fetchFields := ⟨by decide⟩
instance : Distinct storeFields := ⟨by decide⟩
instance : Distinct copyFields := ⟨by decide⟩
instance : Distinct setQuotaFields := ⟨by decide⟩
instance : Distinct setMetadataFields := ⟨by decide⟩
instance : Distinct getMetadataFields := ⟨by decide⟩

instance [Quirks] [Complete] : Lawful commandBody CommandBody.Dom := Lawful.enum (by serde_rt) (by serde_sound)

instance : Distinct (.cons b!"tag" tag (.one b!"body" commandBody)) := ⟨by decide⟩

instance [Quirks] [Complete] : Lawful command Command.Dom := Lawful.newtype inferInstance (fun _ => rfl) (fun _ => rfl) fun _ => Iff.rfl

end Imap.Serde
