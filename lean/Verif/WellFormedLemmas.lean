import Verif.WellFormed
import Verif.NomLemmas
import Mathlib.Tactic.SplitIfs
import Mathlib.Tactic.IntervalCases
/-
The specification of the invariants (Verif/WellFormed.lean) and the validators of the model agree.
-/
set_option maxRecDepth 10000

namespace Imap.Spec

open Imap

theorem atomChar_iff : ∀ b : UInt8, isAtomChar b = true ↔ AtomChar b := by
  unfold AtomChar Ctl
  exact forall_byte (by decide)

theorem aStringChar_iff : ∀ b : UInt8, isAStringChar b = true ↔ AStringChar b := by
  unfold AStringChar AtomChar Ctl
  exact forall_byte (by decide)

theorem tagChar_iff : ∀ b : UInt8, isTagChar b = true ↔ TagChar b := by
  unfold TagChar AStringChar AtomChar Ctl
  exact forall_byte (by decide)

theorem textChar_iff : ∀ b : UInt8, isTextChar b = true ↔ TextChar b := by
  unfold TextChar
  exact forall_byte (by decide)

theorem listChar_iff : ∀ b : UInt8, isListChar b = true ↔ ListChar b := by
  unfold ListChar AtomChar Ctl
  exact forall_byte (by decide)

instance : DecidablePred AtomChar := fun b => decidable_of_iff _ (atomChar_iff b)
instance : DecidablePred AStringChar := fun b => decidable_of_iff _ (aStringChar_iff b)
instance : DecidablePred TagChar := fun b => decidable_of_iff _ (tagChar_iff b)
instance : DecidablePred TextChar := fun b => decidable_of_iff _ (textChar_iff b)
instance : DecidablePred ListChar := fun b => decidable_of_iff _ (listChar_iff b)
instance (c : UInt8 → Prop) [DecidablePred c] (s : Bytes) : Decidable (Str1 c s) := inferInstanceAs (Decidable (_ ∧ _))
instance (s : Bytes) : Decidable (IsAtom s) := inferInstanceAs (Decidable (Str1 _ s))
instance (s : Bytes) : Decidable (Tag.Inv s) := inferInstanceAs (Decidable (Str1 _ s))

theorem all_iff {α : Type} {f : α → Bool} {p : α → Prop} (h : ∀ a, f a = true ↔ p a) (l : List α) : l.all f = true ↔ All p l := by
  simp [All, h]

theorem all1_iff {α : Type} {f : α → Bool} {p : α → Prop} (h : ∀ a, f a = true ↔ p a) (l : List α) :
    (!l.isEmpty && l.all f) = true ↔ All1 p l := by
  simp [All1, h]

theorem All.mono {α : Type} {p q : α → Prop} (h : ∀ a, p a → q a) {l : List α} (hl : All p l) : All q l := fun a ha => h a (hl a ha)

theorem All1.mono {α : Type} {p q : α → Prop} (h : ∀ a, p a → q a) {l : List α} (hl : All1 p l) : All1 q l :=
  ⟨hl.1, fun a ha => h a (hl.2 a ha)⟩

theorem Opt.mono {α : Type} {p q : α → Prop} (h : ∀ a, p a → q a) {l : Option α} (hl : Opt p l) : Opt q l := fun a ha => h a (hl a ha)

theorem isAtom_iff (s : Bytes) : isAtom s = true ↔ IsAtom s := by simp [isAtom, IsAtom, Str1, atomChar_iff]
theorem isAtomExt_iff (s : Bytes) : isAtomExt s = true ↔ Str1 AStringChar s := by simp [isAtomExt, Str1, aStringChar_iff]
theorem isTagStr_iff (s : Bytes) : isTagStr s = true ↔ Str1 TagChar s := by simp [isTagStr, Str1, tagChar_iff]
theorem isText_iff (s : Bytes) : isText s = true ↔ Str1 TextChar s := by simp [isText, Str1, textChar_iff]
theorem isQuoted_iff (s : Bytes) : isQuoted s = true ↔ ∀ b ∈ s, TextChar b := by simp [isQuoted, textChar_iff]
theorem isListCharString_iff (s : Bytes) : isListCharString s = true ↔ Str1 ListChar s := by
  simp [isListCharString, Str1, listChar_iff]

theorem nz32_iff (n : Nat) : isNonZeroU32 n = true ↔ NZ32 n := by
  have : u32Max = 2 ^ 32 - 1 := rfl
  simp only [isNonZeroU32, NZ32, Bool.and_eq_true, decide_eq_true_eq, this]
  omega

theorem nz64_iff (n : Nat) : isNonZeroU64 n = true ↔ NZ64 n := by
  simp only [isNonZeroU64, NZ64, Bool.and_eq_true, decide_eq_true_eq]
  omega

theorem lower_upper (s : Bytes) : lowerAll (upperAll s) = lowerAll s := by
  have : ∀ b : UInt8, lower (upper b) = lower b := forall_byte (by decide)
  simp [lowerAll, upperAll, this]

theorem upper_lower (s : Bytes) : upperAll (lowerAll s) = upperAll s := by
  have : ∀ b : UInt8, upper (lower b) = upper b := forall_byte (by decide)
  simp [lowerAll, upperAll, this]

theorem upper_eq_iff {s u : Bytes} (h : upperAll u = u) : upperAll s = u ↔ lowerAll s = lowerAll u := by
  constructor
  · rintro rfl; rw [lower_upper]
  · intro e
    rw [← upper_lower, e, upper_lower, h]

/-! ### Strings -/

theorem Literal.inv_iff (l : Literal) : l.valid = true ↔ Literal.Inv .rt l := by
  have : (l.data.all isChar8 = true) ↔ (0 ∉ l.data) := by
    simp only [List.all_eq_true, isChar8, bne_iff_ne]
    constructor
    · intro h h0; exact h 0 h0 rfl
    · rintro h b hb rfl; exact h hb
  simp only [Imap.Literal.valid, Literal.Inv, Bool.and_eq_true, this, decide_eq_true_eq, forall_const]

theorem Literal8.inv_iff (l : Literal8) : l.valid = true ↔ Literal8.Inv .rt l := by
  simp [Imap.Literal8.valid, Literal8.Inv]

theorem IString.inv_iff [Quirks] (s : IString) : s.valid = true ↔ IString.Inv .rt s := by
  cases s with
  | literal l => exact Literal.inv_iff l
  | quoted s => exact isQuoted_iff s
  | quotedUtf8 s =>
    have := isQuoted_iff s
    simp only [Imap.IString.valid, IString.Inv, Bool.and_eq_true, Bool.not_eq_true', forall_const, and_assoc]
    refine and_congr Iff.rfl (and_congr Iff.rfl ?_)
    rw [← Bool.not_eq_true, this]
    simp

theorem NString.inv_iff [Quirks] (s : NString) : NString.valid s = true ↔ NString.Inv .rt s := by
  cases s <;> simp [Imap.NString.valid, NString.Inv, Opt, IString.inv_iff]

theorem AString.inv_iff [Quirks] (s : AString) : s.valid = true ↔ AString.Inv .rt s := by
  cases s <;> simp [Imap.AString.valid, AString.Inv, IString.inv_iff, isAtomExt_iff]

theorem Charset.inv_iff (s : Charset) : s.valid = true ↔ Charset.Inv s := by
  cases s <;> simp [Imap.Charset.valid, Charset.Inv, isQuoted_iff, isAtom_iff]

theorem LiteralOrLiteral8.inv_iff (s : LiteralOrLiteral8) : s.valid = true ↔ LiteralOrLiteral8.Inv .rt s := by
  cases s <;> simp [Imap.LiteralOrLiteral8.valid, LiteralOrLiteral8.Inv, Literal.inv_iff, Literal8.inv_iff]

theorem NString8.inv_iff [Quirks] (s : NString8) : s.valid = true ↔ NString8.Inv .rt s := by
  cases s <;> simp [Imap.NString8.valid, NString8.Inv, NString.inv_iff, Literal8.inv_iff]

/-! ### Parts -/

theorem SeqOrUid.inv_iff (s : SeqOrUid) : s.wf = true ↔ SeqOrUid.Inv s := by
  cases s <;> simp [Imap.SeqOrUid.wf, SeqOrUid.Inv, nz32_iff]

theorem Sequence.inv_iff (s : Sequence) : s.wf = true ↔ Sequence.Inv s := by
  cases s <;> simp [Imap.Sequence.wf, Sequence.Inv, SeqOrUid.inv_iff]

theorem SequenceSet.inv_iff (s : SequenceSet) : SequenceSet.wf s = true ↔ SequenceSet.Inv s :=
  all1_iff Sequence.inv_iff s

theorem daysIn_eq (y m : Nat) (h : 1 ≤ m ∧ m ≤ 12) : daysIn y m = monthDays y m := by
  obtain ⟨h1, h2⟩ := h
  unfold daysIn monthDays isLeap
  interval_cases m <;> simp
  rcases Nat.lt_or_ge 0 (y % 4) with h | h <;> rcases Nat.lt_or_ge 0 (y % 100) with h' | h' <;> grind

theorem NaiveDate.inv_iff (d : NaiveDate) : d.valid = true ↔ NaiveDate.Inv d := by
  simp only [Imap.NaiveDate.valid, NaiveDate.Inv, Bool.and_eq_true, decide_eq_true_eq]
  by_cases h : 1 ≤ d.month ∧ d.month ≤ 12
  · rw [daysIn_eq _ _ h]; grind
  · grind

theorem DateTime.inv_iff (t : DateTime) : t.valid = true ↔ DateTime.Inv t := by
  simp only [Imap.DateTime.valid, DateTime.Inv, Bool.and_eq_true, decide_eq_true_eq, beq_iff_eq, NaiveDate.inv_iff, and_assoc]
  refine and_congr Iff.rfl ?_
  omega

theorem Flag.inv_iff (f : Flag) : f.valid = true ↔ Flag.Inv f := by
  cases f <;> simp only [Imap.Flag.valid, Flag.Inv, Bool.and_eq_true, beq_iff_eq, isAtom_iff]
  refine and_congr Iff.rfl ?_
  simp only [Imap.Flag.system, NotOneOf]
  split_ifs <;> simp_all

theorem FlagFetch.inv_iff (f : FlagFetch) : f.valid = true ↔ FlagFetch.Inv .rt f := by
  rcases f with f | _
  · cases f <;> simp [Imap.FlagFetch.valid, FlagFetch.Inv, Flag.inv_iff, NotOneOf, eqIC]
    exact fun _ => Iff.rfl
  · simp [Imap.FlagFetch.valid, FlagFetch.Inv]

theorem FlagPerm.inv_iff (f : FlagPerm) : f.valid = true ↔ FlagPerm.Inv f := by
  cases f <;> simp [Imap.FlagPerm.valid, FlagPerm.Inv, Flag.inv_iff]

theorem FlagNameAttribute.inv_iff (f : FlagNameAttribute) : f.valid = true ↔ FlagNameAttribute.Inv f := by
  cases f <;> simp only [Imap.FlagNameAttribute.valid, FlagNameAttribute.Inv, Bool.and_eq_true, beq_iff_eq, isAtom_iff]
  refine and_congr Iff.rfl ?_
  simp only [Imap.FlagNameAttribute.ofAtom, NotOneOf]
  split_ifs <;> simp_all

theorem Mailbox.inv_iff [Quirks] (m : Mailbox) : m.valid = true ↔ Mailbox.Inv .rt m := by
  cases m <;> simp [Imap.Mailbox.valid, Mailbox.Inv, AString.inv_iff, isMailboxOther, NotOneOf, eqIC]
  intros; rfl

theorem ListMailbox.inv_iff [Quirks] (m : ListMailbox) : m.valid = true ↔ ListMailbox.Inv .rt m := by
  cases m <;> simp [Imap.ListMailbox.valid, ListMailbox.Inv, IString.inv_iff, isListCharString_iff]

theorem AuthMechanism.inv_iff (m : AuthMechanism) : m.valid = true ↔ AuthMechanism.Inv .rt m := by
  cases m <;> simp only [Imap.AuthMechanism.valid, AuthMechanism.Inv, Bool.and_eq_true, beq_iff_eq, isAtom_iff] <;> try simp
  refine fun _ => ?_
  simp only [Imap.AuthMechanism.ofAtom, NotOneOf]
  split_ifs with h1 h2 h3 h4 h5 h6 h7 h8 <;> rw [upper_eq_iff (by rfl)] at *
  · rw [h1]; decide
  · rw [h2]; decide
  · rw [h3]; decide
  · rw [h4]; decide
  · rw [h5]; decide
  · rw [h6]; decide
  · rw [h7]; decide
  · rw [h8]; decide
  · simp only [List.mem_cons, List.not_mem_nil, or_false, true_iff]
    exact fun h => h.elim h1 (·.elim h2 (·.elim h3 (·.elim h4 (·.elim h5 (·.elim h6 (·.elim h7 h8))))))

/-! ### Fetch -/

theorem Part.inv_iff (p : List NzU32) : isPart p = true ↔ Part.Inv p := all1_iff nz32_iff p

theorem isPartOpt_iff (p : Option (List NzU32)) : isPartOpt p = true ↔ Opt Part.Inv p := by
  cases p <;> simp [isPartOpt, Opt, Part.inv_iff]

theorem isAStrings_iff [Quirks] (l : List AString) : isAStrings l = true ↔ All1 (AString.Inv .rt) l := all1_iff AString.inv_iff l

theorem Section.inv_iff [Quirks] (s : Section) : s.valid = true ↔ Section.Inv .rt s := by
  cases s <;> simp [Imap.Section.valid, Section.Inv, isPartOpt_iff, Part.inv_iff, isAStrings_iff]

theorem isSectionOpt_iff [Quirks] (p : Option Section) : isSectionOpt p = true ↔ Opt (Section.Inv .rt) p := by
  cases p <;> simp [isSectionOpt, Opt, Section.inv_iff]

theorem isPartial_iff (p : Option (Nat × NzU32)) : isPartial p = true ↔ Opt Partial.Inv p := by
  rcases p with _ | ⟨a, b⟩ <;> simp [isPartial, Opt, Partial.Inv, nz32_iff]

theorem MessageDataItemName.inv_iff [Quirks] (x : MessageDataItemName) : x.valid = true ↔ MessageDataItemName.Inv .rt x := by
  cases x <;> simp only [Imap.MessageDataItemName.valid, MessageDataItemName.Inv, isSectionOpt_iff, isPartial_iff, all_iff nz32_iff,
    Bool.and_eq_true]

theorem MacroOrNames.inv_iff [Quirks] (x : MacroOrNames) : x.valid = true ↔ MacroOrNames.Inv .rt x := by
  cases x <;> simp only [Imap.MacroOrNames.valid, MacroOrNames.Inv, all_iff MessageDataItemName.inv_iff]

/-! ### Search -/

theorem AttributeFlag.inv_iff (f : AttributeFlag) : f.valid = true ↔ AttributeFlag.Inv f := by
  cases f <;> simp only [Imap.AttributeFlag.valid, AttributeFlag.Inv, Bool.and_eq_true, decide_eq_true_eq, isAtom_iff]
  refine and_congr Iff.rfl ?_
  simp only [Imap.AttributeFlag.system, NotOneOf]
  split_ifs <;> simp_all

mutual
theorem SearchKey.inv_iff [Quirks] : ∀ k : SearchKey, k.valid = true ↔ SearchKey.Inv .rt k
  | .and ks => by simp [Imap.SearchKey.valid, SearchKey.Inv, SearchKey.go_iff ks]
  | .not k => by simp [Imap.SearchKey.valid, SearchKey.Inv, SearchKey.inv_iff k]
  | .or a b => by simp [Imap.SearchKey.valid, SearchKey.Inv, SearchKey.inv_iff a, SearchKey.inv_iff b]
  | .modSequence e n => by
    rcases e with _ | ⟨f, t⟩ <;> simp [Imap.SearchKey.valid, SearchKey.Inv, isEntryOpt, Opt, AttributeFlag.inv_iff, and_assoc]
  | .sequenceSet s | .uid s => by simp [Imap.SearchKey.valid, SearchKey.Inv, SequenceSet.inv_iff]
  | .bcc s | .body s | .cc s | .from_ s | .subject s | .text s | .to s => by simp [Imap.SearchKey.valid, SearchKey.Inv, AString.inv_iff]
  | .before d | .on d | .sentBefore d | .sentOn d | .sentSince d | .since d => by
    simp [Imap.SearchKey.valid, SearchKey.Inv, NaiveDate.inv_iff]
  | .header n v => by simp [Imap.SearchKey.valid, SearchKey.Inv, AString.inv_iff]
  | .keyword a | .unkeyword a => by simp [Imap.SearchKey.valid, SearchKey.Inv, isAtom_iff]
  | .larger n | .smaller n => by simp [Imap.SearchKey.valid, SearchKey.Inv]
  | .all | .answered | .deleted | .draft | .flagged | .new | .old | .recent | .seen | .unanswered | .undeleted | .undraft
  | .unflagged | .unseen => by simp [Imap.SearchKey.valid, SearchKey.Inv]

theorem SearchKey.go_iff [Quirks] : ∀ ks : List SearchKey, SearchKey.valid.go ks = true ↔ SearchKey.Inv.go .rt ks
  | [] => by simp [Imap.SearchKey.valid.go, SearchKey.Inv.go]
  | k :: ks => by simp [Imap.SearchKey.valid.go, SearchKey.Inv.go, SearchKey.inv_iff k, SearchKey.go_iff ks]
end

theorem Criteria.inv_iff [Quirks] (l : List SearchKey) : isCriteria l = true ↔ Criteria.Inv .rt l :=
  all1_iff (fun k => by simp [SearchKey.inv_iff]) l

/-! ### Commands -/

theorem isSetOpt_iff (p : Option SequenceSet) : isSetOpt p = true ↔ Opt SequenceSet.Inv p := by
  cases p <;> simp [isSetOpt, Opt, SequenceSet.inv_iff]

theorem SelectParameter.inv_iff [Quirks] (x : SelectParameter) : x.valid = true ↔ SelectParameter.Inv x := by
  rcases x with _ | ⟨u, m, k, s⟩
  · simp [Imap.SelectParameter.valid, SelectParameter.Inv]
  · rcases s with _ | ⟨a, b⟩ <;>
      simp [Imap.SelectParameter.valid, SelectParameter.Inv, isSetPairOpt, Opt, SequenceSet.inv_iff, isSetOpt_iff, nz32_iff, nz64_iff, and_assoc]

theorem FetchModifier.inv_iff [Quirks] (x : FetchModifier) : x.valid = true ↔ FetchModifier.Inv x := by
  cases x <;> simp [Imap.FetchModifier.valid, FetchModifier.Inv, nz64_iff]

theorem isStoreModifier_iff [Quirks] (n : StoreModifier) : isStoreModifier n = true ↔ StoreModifier.Inv n := by
  simp [isStoreModifier, StoreModifier.Inv]

theorem StatusDataItemName.inv_iff [Quirks] (x : StatusDataItemName) : x.valid = true ↔ StatusDataItemName.Inv x := by
  cases x <;> simp [Imap.StatusDataItemName.valid, StatusDataItemName.Inv]

theorem CapabilityEnable.inv_iff [Quirks] (x : CapabilityEnable) : x.valid = true ↔ CapabilityEnable.Inv x := by
  cases x <;> simp only [Imap.CapabilityEnable.valid, CapabilityEnable.Inv, CapabilityEnable.present, Bool.and_eq_true, decide_eq_true_eq,
    isAtom_iff]
  refine and_congr Iff.rfl ?_
  simp only [Imap.CapabilityEnable.ofAtom, NotOneOf]
  split_ifs <;> simp_all

theorem Resource.inv_iff (x : Resource) : x.valid = true ↔ Resource.Inv x := by
  cases x <;> simp only [Imap.Resource.valid, Resource.Inv, Bool.and_eq_true, decide_eq_true_eq, isAtom_iff]
  refine and_congr Iff.rfl ?_
  simp only [Imap.Resource.ofAtom, NotOneOf]
  split_ifs with h1 h2 h3 h4 <;> rw [upper_eq_iff (by rfl)] at *
  · rw [h1]; decide
  · rw [h2]; decide
  · rw [h3]; decide
  · rw [h4]; decide
  · simp only [List.mem_cons, List.not_mem_nil, or_false, true_iff]
    exact fun h => h.elim h1 (·.elim h2 (·.elim h3 h4))

theorem QuotaSet.inv_iff (x : QuotaSet) : x.valid = true ↔ QuotaSet.Inv x := by
  simp [Imap.QuotaSet.valid, QuotaSet.Inv, Resource.inv_iff]

theorem ThreadingAlgorithm.inv_iff (x : ThreadingAlgorithm) : x.valid = true ↔ ThreadingAlgorithm.Inv x := by
  cases x <;> simp only [Imap.ThreadingAlgorithm.valid, ThreadingAlgorithm.Inv, Bool.and_eq_true, decide_eq_true_eq, isAtom_iff]
  refine and_congr Iff.rfl ?_
  simp only [Imap.ThreadingAlgorithm.ofAtom, NotOneOf]
  split_ifs <;> simp_all

theorem isIdParamsOpt_iff [Quirks] (x : Option IdParams) : isIdParamsOpt x = true ↔ Opt (IdParams.Inv .rt) x := by
  cases x with
  | none => simp [isIdParamsOpt, Opt]
  | some l =>
    have := all_iff (f := isIdParam) (p := fun x => IString.Inv .rt x.1 ∧ NString.Inv .rt x.2)
      (fun x => by simp [isIdParam, IString.inv_iff, NString.inv_iff]) l
    simpa [isIdParamsOpt, Opt, IdParams.Inv] using this

theorem EntryValue.inv_iff [Quirks] (x : EntryValue) : x.valid = true ↔ EntryValue.Inv .rt x := by
  simp [Imap.EntryValue.valid, EntryValue.Inv, AString.inv_iff, NString8.inv_iff]

theorem GetMetadataOption.inv_iff (x : GetMetadataOption) : x.valid = true ↔ GetMetadataOption.Inv x := by
  cases x <;> simp [Imap.GetMetadataOption.valid, GetMetadataOption.Inv]

theorem isCharsetOpt_iff (p : Option Charset) : isCharsetOpt p = true ↔ Opt Charset.Inv p := by
  cases p <;> simp [isCharsetOpt, Opt, Charset.inv_iff]

theorem isDateTimeOpt_iff (p : Option DateTime) : isDateTimeOpt p = true ↔ Opt DateTime.Inv p := by
  cases p <;> simp [isDateTimeOpt, Opt, DateTime.inv_iff]

theorem CommandBody.inv_iff [Quirks] (b : CommandBody) : b.valid = true ↔ CommandBody.Inv .rt b := by
  cases b <;> simp only [Imap.CommandBody.valid, CommandBody.Inv, Bool.and_eq_true, AuthMechanism.inv_iff, AString.inv_iff, Mailbox.inv_iff,
    all_iff SelectParameter.inv_iff, ListMailbox.inv_iff, all_iff Flag.inv_iff, isDateTimeOpt_iff, LiteralOrLiteral8.inv_iff,
    SequenceSet.inv_iff, isCharsetOpt_iff, Criteria.inv_iff, Charset.inv_iff, ThreadingAlgorithm.inv_iff, MacroOrNames.inv_iff,
    all_iff FetchModifier.inv_iff, all_iff isStoreModifier_iff, all_iff QuotaSet.inv_iff, isIdParamsOpt_iff,
    all_iff EntryValue.inv_iff, all_iff GetMetadataOption.inv_iff, all_iff AString.inv_iff, all_iff CapabilityEnable.inv_iff, and_assoc,
    all_iff StatusDataItemName.inv_iff,
    Bool.not_eq_true', List.isEmpty_eq_false_iff, ne_eq] <;> rfl

theorem Command.inv_iff [Quirks] (c : Command) : c.valid = true ↔ Command.Inv .rt c := by
  simp [Imap.Command.valid, Command.Inv, Tag.Inv, CommandBody.inv_iff, isTagStr_iff]

/-! ### Bodies -/

theorem Address.inv_iff [Quirks] (x : Address) : x.valid = true ↔ Address.Inv .rt x := by
  simp [Imap.Address.valid, Address.Inv, NString.inv_iff, and_assoc]

theorem Envelope.inv_iff [Quirks] (x : Envelope) : x.valid = true ↔ Envelope.Inv .rt x := by
  simp only [Imap.Envelope.valid, Envelope.Inv, NString.inv_iff, and_assoc, Bool.and_eq_true, all_iff Address.inv_iff]

mutual
theorem BodyExtension.inv_iff [Quirks] : ∀ k : BodyExtension, k.valid = true ↔ BodyExtension.Inv .rt k
  | .nstring s => by simp [Imap.BodyExtension.valid, BodyExtension.Inv, NString.inv_iff]
  | .number n => by simp [Imap.BodyExtension.valid, BodyExtension.Inv]
  | .list l => by simp [Imap.BodyExtension.valid, BodyExtension.Inv, BodyExtension.go_iff l]

theorem BodyExtension.go_iff [Quirks] : ∀ ks : List BodyExtension, BodyExtension.valid.go ks = true ↔ BodyExtension.Inv.go .rt ks
  | [] => by simp [Imap.BodyExtension.valid.go, BodyExtension.Inv.go]
  | k :: ks => by simp [Imap.BodyExtension.valid.go, BodyExtension.Inv.go, BodyExtension.inv_iff k, BodyExtension.go_iff ks]
end

theorem Params.inv_iff [Quirks] (x : Params) : isParams x = true ↔ Params.Inv .rt x :=
  all_iff (fun x => by simp [IString.inv_iff]) x

theorem isOpt_iff {α : Type} {f : α → Bool} {p : α → Prop} (h : ∀ a, f a = true ↔ p a) (l : Option α) : isOpt f l = true ↔ Opt p l := by
  cases l <;> simp [isOpt, Opt, h]

theorem Location.inv_iff [Quirks] (x : Location) : x.valid = true ↔ Location.Inv .rt x := by
  have := all_iff (f := fun e : BodyExtension => e.valid && decide (e.depth ≤ 8))
    (p := fun e => BodyExtension.Inv .rt e ∧ (true = true → e.depth ≤ 8)) (fun e => by simp [BodyExtension.inv_iff]) x.extensions
  simp only [Imap.Location.valid, Location.Inv, NString.inv_iff, Bool.and_eq_true, this]

theorem Language.inv_iff [Quirks] (x : Language) : x.valid = true ↔ Language.Inv .rt x := by
  simp only [Imap.Language.valid, Language.Inv, Bool.and_eq_true, all_iff IString.inv_iff, isOpt_iff Location.inv_iff]

theorem Disposition.inv_iff [Quirks] (x : Disposition) : x.valid = true ↔ Disposition.Inv .rt x := by
  have := isOpt_iff (f := fun d : IString × Params => d.1.valid && isParams d.2)
    (p := fun d => IString.Inv .rt d.1 ∧ Params.Inv .rt d.2) (fun e => by simp [IString.inv_iff, Params.inv_iff]) x.disposition
  simp only [Imap.Disposition.valid, Disposition.Inv, Bool.and_eq_true, this, isOpt_iff Language.inv_iff]

theorem SinglePartExt.inv_iff [Quirks] (x : SinglePartExt) : x.valid = true ↔ SinglePartExt.Inv .rt x := by
  simp only [Imap.SinglePartExt.valid, SinglePartExt.Inv, Bool.and_eq_true, NString.inv_iff, isOpt_iff Disposition.inv_iff]

theorem MultiPartExt.inv_iff [Quirks] (x : MultiPartExt) : x.valid = true ↔ MultiPartExt.Inv .rt x := by
  simp only [Imap.MultiPartExt.valid, MultiPartExt.Inv, Bool.and_eq_true, Params.inv_iff, isOpt_iff Disposition.inv_iff]

theorem BasicFields.inv_iff [Quirks] (x : BasicFields) : x.valid = true ↔ BasicFields.Inv .rt x := by
  simp [Imap.BasicFields.valid, BasicFields.Inv, NString.inv_iff, IString.inv_iff, Params.inv_iff, and_assoc]

mutual
theorem BodyStructure.inv_iff [Quirks] : ∀ k : BodyStructure, k.valid = true ↔ BodyStructure.Inv .rt k
  | .basic f t s x => by
    simp [Imap.BodyStructure.valid, BodyStructure.Inv, BasicFields.inv_iff, IString.inv_iff, isOpt_iff SinglePartExt.inv_iff, and_assoc]
  | .message f e b n x => by
    simp [Imap.BodyStructure.valid, BodyStructure.Inv, BasicFields.inv_iff, Envelope.inv_iff, BodyStructure.inv_iff b,
      isOpt_iff SinglePartExt.inv_iff, and_assoc]
  | .text f s n x => by
    simp [Imap.BodyStructure.valid, BodyStructure.Inv, BasicFields.inv_iff, IString.inv_iff, isOpt_iff SinglePartExt.inv_iff, and_assoc]
  | .multi l s x => by
    simp [Imap.BodyStructure.valid, BodyStructure.Inv, BodyStructure.go_iff l, IString.inv_iff, isOpt_iff MultiPartExt.inv_iff, and_assoc]

theorem BodyStructure.go_iff [Quirks] : ∀ ks : List BodyStructure, BodyStructure.valid.go ks = true ↔ BodyStructure.Inv.go .rt ks
  | [] => by simp [Imap.BodyStructure.valid.go, BodyStructure.Inv.go]
  | k :: ks => by simp [Imap.BodyStructure.valid.go, BodyStructure.Inv.go, BodyStructure.inv_iff k, BodyStructure.go_iff ks]
end

/-! ### Responses -/

theorem SortAlgorithm.inv_iff (x : SortAlgorithm) : x.valid = true ↔ SortAlgorithm.Inv x := by
  cases x <;> simp [Imap.SortAlgorithm.valid, SortAlgorithm.Inv, isAtom_iff, Imap.SortAlgorithm.ofAtom, NotOneOf]

theorem Capability.inv_iff [Quirks] (x : Capability) : x.valid = true ↔ Capability.Inv .rt x := by
  cases x with
  | quotaRes r => cases r <;> simp [Imap.Capability.valid, Capability.Inv, Capability.present, ← Resource.inv_iff] <;> simp [Imap.Resource.valid]
  | sort a => cases a <;> simp [Imap.Capability.valid, Capability.Inv, Capability.present, SortAlgorithm.inv_iff]
  | _ => simp [Imap.Capability.valid, Capability.Inv, Capability.present, AuthMechanism.inv_iff, isAtom_iff, ThreadingAlgorithm.inv_iff]

theorem UidElement.inv_iff (x : UidElement) : x.valid = true ↔ UidElement.Inv x := by
  cases x <;> simp [Imap.UidElement.valid, UidElement.Inv, nz32_iff]

theorem isUidSet_iff (x : List UidElement) : isUidSet x = true ↔ All1 UidElement.Inv x := all1_iff UidElement.inv_iff x

theorem MetadataCode.inv_iff (x : MetadataCode) : x.valid = true ↔ MetadataCode.Inv x := by
  cases x <;> simp [Imap.MetadataCode.valid, MetadataCode.Inv]

theorem isError_iff {α : Type} (r : Res α) : r.isError = true ↔ r = .error := by cases r <;> simp [Res.isError]

theorem codeOther_iff : ∀ b : UInt8, isCodeOtherChar b = true ↔ b ∉ b!"]\r\n" := forall_byte (by decide)

variable [Quirks]

theorem Code.inv_iff (t : Bytes) (x : Code) : x.valid t = true ↔ Code.Inv .rt t x := by
  cases x with
  | other bs => simp only [Imap.Code.valid, Code.Inv, Bool.and_eq_true, List.all_eq_true, codeOther_iff, isError_iff, forall_const, reduceCtorEq, false_imp_iff,
      and_true]
  | badCharset l => exact all_iff Charset.inv_iff l
  | capability l => exact all1_iff Capability.inv_iff l
  | permanentFlags l => exact all_iff FlagPerm.inv_iff l
  | _ => simp [Imap.Code.valid, Code.Inv, nz32_iff, nz64_iff, isUidSet_iff, MetadataCode.inv_iff, SequenceSet.inv_iff, and_assoc]

theorem RespText.inv_iff (c : Option Code) (t : Bytes) : validRespText c t = true ↔ RespText.Inv .rt c t := by
  cases c <;> simp [validRespText, RespText.Inv, Opt, isText_iff, Code.inv_iff]

theorem Status.inv_iff (x : Status) : x.valid = true ↔ Status.Inv .rt x := by
  cases x <;> simp [Imap.Status.valid, Status.Inv, RespText.inv_iff, isTagStr_iff, Tag.Inv]

theorem ContinueReq.inv_iff (x : ContinueReq) : x.valid = true ↔ ContinueReq.Inv .rt x := by
  cases x with
  | base64 d => simp [Imap.ContinueReq.valid, ContinueReq.Inv]
  | basic c t =>
    simp only [Imap.ContinueReq.valid, ContinueReq.Inv, Bool.and_eq_true, RespText.inv_iff, ContinueReq.ofBasic]
    refine and_congr Iff.rfl ?_
    cases c with
    | some c => simp
    | none =>
      cases e : b64Decode t <;> by_cases h : t.head? = some 91 <;> simp [h]

theorem StatusDataItem.inv_iff (x : StatusDataItem) : x.valid = true ↔ StatusDataItem.Inv x := by
  cases x <;> simp [Imap.StatusDataItem.valid, StatusDataItem.Inv, nz32_iff]

omit [Quirks] in
theorem isOptU32_iff (x : Option Nat) : isOptU32 x = true ↔ Opt (fun n : Nat => n < 2 ^ 32) x := by
  cases x <;> simp [isOptU32, Opt]

theorem MessageDataItem.inv_iff (x : MessageDataItem) : (x.valid && x.noModSeq) = true ↔ MessageDataItem.Inv .rt x := by
  cases x <;> simp only [Imap.MessageDataItem.valid, MessageDataItem.Inv, Imap.MessageDataItem.noModSeq, Bool.and_true, Bool.and_false,
    Bool.and_eq_true, BodyStructure.inv_iff, decide_eq_true_eq, forall_const, isSectionOpt_iff, isOptU32_iff, NString.inv_iff,
    Envelope.inv_iff, all_iff FlagFetch.inv_iff, DateTime.inv_iff, nz32_iff, all_iff nz32_iff, NString8.inv_iff, and_assoc] <;> simp

omit [Quirks] in
mutual
theorem Thread.inv_iff : ∀ k : Thread, k.valid = true ↔ Thread.Inv k
  | .members p l => by
    have := all1_iff nz32_iff p
    simp only [Bool.and_eq_true] at this
    simp [Imap.Thread.valid, Thread.Inv, ← this, Thread.go_iff l, and_assoc]
  | .nested l => by simp [Imap.Thread.valid, Thread.Inv, Thread.go_iff l]

theorem Thread.go_iff : ∀ ks : List Thread, Thread.valid.go ks = true ↔ Thread.Inv.go ks
  | [] => by simp [Imap.Thread.valid.go, Thread.Inv.go]
  | k :: ks => by simp [Imap.Thread.valid.go, Thread.Inv.go, Thread.inv_iff k, Thread.go_iff ks]
end

theorem NamespaceExt.inv_iff (x : NamespaceExt) : x.valid = true ↔ NamespaceExt.Inv .rt x := by
  have := all1_iff IString.inv_iff x.values
  simp only [Bool.and_eq_true] at this
  simp only [Imap.NamespaceExt.valid, NamespaceExt.Inv, Bool.and_eq_true, ← this, and_assoc, IString.inv_iff]

omit [Quirks] in
theorem isDelimiter_iff (x : Option UInt8) : isDelimiter x = true ↔ Opt TextChar x := by
  cases x <;> simp [isDelimiter, Opt, isQuotedChar, textChar_iff]

theorem Namespace.inv_iff (x : Namespace) : x.valid = true ↔ Namespace.Inv .rt x := by
  simp only [Imap.Namespace.valid, Namespace.Inv, Bool.and_eq_true, IString.inv_iff, isDelimiter_iff, all_iff NamespaceExt.inv_iff,
    and_assoc]

omit [Quirks] in
theorem QuotaGet.inv_iff (x : QuotaGet) : x.valid = true ↔ QuotaGet.Inv x := by
  simp [Imap.QuotaGet.valid, QuotaGet.Inv, Resource.inv_iff, and_assoc]

theorem MetadataResponse.inv_iff (x : MetadataResponse) : x.valid = true ↔ MetadataResponse.Inv .rt x := by
  cases x with
  | withValues l => exact all1_iff EntryValue.inv_iff l
  | withoutValues l => exact all1_iff AString.inv_iff l

theorem isModSeqOpt_iff (x : Option Nat) : isModSeqOpt x = true ↔ Opt (fun n => Quirks.extCondstoreQresync = true ∧ NZ64 n) x := by
  cases x <;> simp [isModSeqOpt, Opt, nz64_iff]

theorem Data.inv_iff (x : Data) : (x.valid && x.noModSeq) = true ↔ Data.Inv .rt x := by
  cases x with
  | capability l => simpa only [Imap.Data.valid, Data.Inv, Data.noModSeq, Bool.and_true] using all1_iff Capability.inv_iff l
  | thread l =>
    have := all_iff (f := fun t : Thread => t.valid && decide (t.depth ≤ 8))
      (p := fun t => Thread.Inv t ∧ (true = true → t.depth ≤ 8)) (fun e => by simp [Thread.inv_iff]) l
    simpa only [Imap.Data.valid, Data.Inv, Data.noModSeq, Bool.and_true] using this
  | fetch n l =>
    have := all1_iff MessageDataItem.inv_iff l
    simp only [Bool.and_eq_true, Bool.not_eq_true', List.isEmpty_eq_false_iff, List.all_eq_true] at this
    simp only [Imap.Data.valid, Data.Inv, Data.noModSeq, ← this, nz32_iff, Bool.and_eq_true, Bool.not_eq_true',
      List.isEmpty_eq_false_iff, List.all_eq_true]
    grind
  | _ =>
    simp only [Imap.Data.valid, Data.Inv, Data.noModSeq, Bool.and_true, Bool.and_eq_true, all_iff FlagNameAttribute.inv_iff, isDelimiter_iff,
      Mailbox.inv_iff, all_iff StatusDataItem.inv_iff, all_iff nz32_iff, isModSeqOpt_iff, all_iff Flag.inv_iff, decide_eq_true_eq,
      nz32_iff, all_iff CapabilityEnable.inv_iff, AString.inv_iff, all_iff QuotaGet.inv_iff, all_iff AString.inv_iff,
      isIdParamsOpt_iff, MetadataResponse.inv_iff, SequenceSet.inv_iff, all_iff Namespace.inv_iff, and_assoc, Bool.not_eq_true',
      List.isEmpty_eq_false_iff] <;> rfl

theorem Response.inv_iff (x : Response) : (x.valid && x.noModSeq) = true ↔ Response.Inv .rt x := by
  cases x with
  | data d => exact Data.inv_iff d
  | _ => simp [Imap.Response.valid, Response.Inv, Imap.Response.noModSeq, ContinueReq.inv_iff, Status.inv_iff]

/-! ### The exclusions are additional conditions -/

section

variable {L : Level}

theorem Literal.mono {x : Literal} (h : Literal.Inv L x) : Literal.Inv .inv x := ⟨h.1, by simp⟩

theorem Literal8.mono {x : Literal8} (_ : Literal8.Inv L x) : Literal8.Inv .inv x := by simp [Literal8.Inv]

theorem IString.mono {x : IString} (h : IString.Inv L x) : IString.Inv .inv x := by
  cases x with
  | literal l => exact Literal.mono h
  | quoted s => exact h
  | quotedUtf8 s => exact ⟨h.1, h.2.1, by simp⟩

theorem NString.mono {x : NString} (h : NString.Inv L x) : NString.Inv .inv x := Opt.mono (fun _ => IString.mono) h

theorem AString.mono {x : AString} (h : AString.Inv L x) : AString.Inv .inv x := by
  cases x with
  | atom s => exact h
  | string s => exact IString.mono h

theorem LiteralOrLiteral8.mono {x : LiteralOrLiteral8} (h : LiteralOrLiteral8.Inv L x) : LiteralOrLiteral8.Inv .inv x := by
  cases x with
  | literal s => exact Literal.mono h
  | literal8 s => exact Literal8.mono h

theorem NString8.mono {x : NString8} (h : NString8.Inv L x) : NString8.Inv .inv x := by
  cases x with
  | nstring s => exact NString.mono h
  | literal8 s => exact Literal8.mono h

theorem FlagFetch.mono {x : FlagFetch} (h : FlagFetch.Inv L x) : FlagFetch.Inv .inv x := by
  cases x with
  | flag f => exact ⟨h.1, by simp⟩
  | recent => trivial

theorem Mailbox.mono {x : Mailbox} (h : Mailbox.Inv L x) : Mailbox.Inv .inv x := by
  cases x with
  | inbox => trivial
  | other s => exact ⟨AString.mono h.1, h.2⟩

theorem ListMailbox.mono {x : ListMailbox} (h : ListMailbox.Inv L x) : ListMailbox.Inv .inv x := by
  cases x with
  | token s => exact h
  | string s => exact IString.mono h

theorem AuthMechanism.mono {x : AuthMechanism} (h : AuthMechanism.Inv L x) : AuthMechanism.Inv .inv x := by
  cases x <;> first | trivial | exact h | exact nofun

theorem Section.mono {x : Section} (h : Section.Inv L x) : Section.Inv .inv x := by
  cases x with
  | headerFields p fs => exact ⟨h.1, h.2.mono fun _ => AString.mono⟩
  | headerFieldsNot p fs => exact ⟨h.1, h.2.mono fun _ => AString.mono⟩
  | _ => exact h

theorem MessageDataItemName.mono {x : MessageDataItemName} (h : MessageDataItemName.Inv L x) : MessageDataItemName.Inv .inv x := by
  cases x with
  | bodyExt s p k => exact ⟨h.1.mono fun _ => Section.mono, h.2⟩
  | _ => exact h

theorem MacroOrNames.mono {x : MacroOrNames} (h : MacroOrNames.Inv L x) : MacroOrNames.Inv .inv x := by
  cases x with
  | macro_ => trivial
  | names l => exact All.mono (fun _ => MessageDataItemName.mono) h

mutual
theorem SearchKey.mono : ∀ {x : SearchKey}, SearchKey.Inv L x → SearchKey.Inv .inv x
  | .and ks, h => by
    simp only [SearchKey.Inv] at h ⊢
    exact ⟨h.1, SearchKey.go_mono h.2⟩
  | .not k, h => by
    simp only [SearchKey.Inv] at h ⊢
    exact SearchKey.mono h
  | .or a b, h => by
    simp only [SearchKey.Inv] at h ⊢
    exact ⟨SearchKey.mono h.1, SearchKey.mono h.2⟩
  | .modSequence e n, h | .sequenceSet s, h | .uid s, h | .before d, h | .on d, h | .sentBefore d, h | .sentOn d, h
  | .sentSince d, h | .since d, h | .keyword a, h | .unkeyword a, h | .larger n, h | .smaller n, h
  | .all, h | .answered, h | .deleted, h | .draft, h | .flagged, h | .new, h | .old, h | .recent, h | .seen, h | .unanswered, h
  | .undeleted, h | .undraft, h | .unflagged, h | .unseen, h => by
    simp only [SearchKey.Inv] at h ⊢
    try exact h
  | .bcc s, h | .body s, h | .cc s, h | .from_ s, h | .subject s, h | .text s, h | .to s, h => by
    simp only [SearchKey.Inv] at h ⊢
    exact AString.mono h
  | .header n v, h => by
    simp only [SearchKey.Inv] at h ⊢
    exact ⟨AString.mono h.1, AString.mono h.2⟩

theorem SearchKey.go_mono : ∀ {l : List SearchKey}, SearchKey.Inv.go L l → SearchKey.Inv.go .inv l
  | [], _ => by simp [SearchKey.Inv.go]
  | k :: ks, h => by
    simp only [SearchKey.Inv.go] at h ⊢
    exact ⟨SearchKey.mono h.1, SearchKey.go_mono h.2⟩
end

theorem Criteria.mono {l : List SearchKey} (h : Criteria.Inv L l) : Criteria.Inv .inv l :=
  All1.mono (fun _ h => ⟨SearchKey.mono h.1, by simp⟩) h

theorem IdParams.mono {l : IdParams} (h : IdParams.Inv L l) : IdParams.Inv .inv l :=
  All.mono (fun _ h => ⟨IString.mono h.1, NString.mono h.2⟩) h

theorem EntryValue.mono {x : EntryValue} (h : EntryValue.Inv L x) : EntryValue.Inv .inv x := ⟨AString.mono h.1, NString8.mono h.2⟩

theorem CommandBody.mono {x : CommandBody} (h : CommandBody.Inv L x) : CommandBody.Inv .inv x := by
  cases x with
  | authenticate => exact AuthMechanism.mono h
  | login => exact ⟨AString.mono h.1, AString.mono h.2⟩
  | select => exact ⟨Mailbox.mono h.1, h.2⟩
  | examine => exact ⟨Mailbox.mono h.1, h.2⟩
  | create => exact Mailbox.mono h
  | delete => exact Mailbox.mono h
  | subscribe => exact Mailbox.mono h
  | unsubscribe => exact Mailbox.mono h
  | getQuotaRoot => exact Mailbox.mono h
  | rename => exact ⟨Mailbox.mono h.1, Mailbox.mono h.2⟩
  | list => exact ⟨Mailbox.mono h.1, ListMailbox.mono h.2⟩
  | lsub => exact ⟨Mailbox.mono h.1, ListMailbox.mono h.2⟩
  | status => exact ⟨Mailbox.mono h.1, h.2⟩
  | append => exact ⟨Mailbox.mono h.1, h.2.1, h.2.2.1, LiteralOrLiteral8.mono h.2.2.2⟩
  | search => exact ⟨h.1, Criteria.mono h.2⟩
  | sort => exact ⟨h.1, h.2.1, Criteria.mono h.2.2⟩
  | thread => exact ⟨h.1, h.2.1, Criteria.mono h.2.2⟩
  | fetch => exact ⟨h.1, MacroOrNames.mono h.2.1, h.2.2⟩
  | copy => exact ⟨h.1, Mailbox.mono h.2⟩
  | move => exact ⟨h.1, Mailbox.mono h.2⟩
  | getQuota => exact AString.mono h
  | setQuota => exact ⟨AString.mono h.1, h.2⟩
  | id => exact ⟨h.1, Opt.mono (fun _ => IdParams.mono) h.2⟩
  | setMetadata => exact ⟨h.1, Mailbox.mono h.2.1, h.2.2.mono fun _ => EntryValue.mono⟩
  | getMetadata => exact ⟨h.1, h.2.1, Mailbox.mono h.2.2.1, h.2.2.2.mono fun _ => AString.mono⟩
  | _ => exact h

theorem Command.mono {x : Command} (h : Command.Inv L x) : Command.Inv .inv x := ⟨h.1, CommandBody.mono h.2⟩

theorem Address.mono {x : Address} (h : Address.Inv L x) : Address.Inv .inv x :=
  ⟨NString.mono h.1, NString.mono h.2.1, NString.mono h.2.2.1, NString.mono h.2.2.2⟩

theorem Envelope.mono {x : Envelope} (h : Envelope.Inv L x) : Envelope.Inv .inv x := by
  have m : ∀ a, Address.Inv L a → Address.Inv .inv a := fun _ => Address.mono
  obtain ⟨h1, h2, h3, h4, h5, h6, h7, h8, h9, h10⟩ := h
  exact ⟨NString.mono h1, NString.mono h2, h3.mono m, h4.mono m, h5.mono m, h6.mono m, h7.mono m, h8.mono m, NString.mono h9,
    NString.mono h10⟩

mutual
theorem BodyExtension.mono : ∀ {x : BodyExtension}, BodyExtension.Inv L x → BodyExtension.Inv .inv x
  | .nstring s, h => by
    simp only [BodyExtension.Inv] at h ⊢
    exact NString.mono h
  | .number n, h => by
    simp only [BodyExtension.Inv] at h ⊢
    exact h
  | .list l, h => by
    simp only [BodyExtension.Inv] at h ⊢
    exact ⟨h.1, BodyExtension.go_mono h.2⟩

theorem BodyExtension.go_mono : ∀ {l : List BodyExtension}, BodyExtension.Inv.go L l → BodyExtension.Inv.go .inv l
  | [], _ => by simp [BodyExtension.Inv.go]
  | k :: ks, h => by
    simp only [BodyExtension.Inv.go] at h ⊢
    exact ⟨BodyExtension.mono h.1, BodyExtension.go_mono h.2⟩
end

theorem Params.mono {l : Params} (h : Params.Inv L l) : Params.Inv .inv l :=
  All.mono (fun _ h => ⟨IString.mono h.1, IString.mono h.2⟩) h

theorem Location.mono {x : Location} (h : Location.Inv L x) : Location.Inv .inv x :=
  ⟨NString.mono h.1, h.2.mono fun _ h => ⟨BodyExtension.mono h.1, by simp⟩⟩

theorem Language.mono {x : Language} (h : Language.Inv L x) : Language.Inv .inv x :=
  ⟨h.1.mono fun _ => IString.mono, h.2.mono fun _ => Location.mono⟩

theorem Disposition.mono {x : Disposition} (h : Disposition.Inv L x) : Disposition.Inv .inv x :=
  ⟨h.1.mono fun _ h => ⟨IString.mono h.1, Params.mono h.2⟩, h.2.mono fun _ => Language.mono⟩

theorem SinglePartExt.mono {x : SinglePartExt} (h : SinglePartExt.Inv L x) : SinglePartExt.Inv .inv x :=
  ⟨NString.mono h.1, h.2.mono fun _ => Disposition.mono⟩

theorem MultiPartExt.mono {x : MultiPartExt} (h : MultiPartExt.Inv L x) : MultiPartExt.Inv .inv x :=
  ⟨Params.mono h.1, h.2.mono fun _ => Disposition.mono⟩

theorem BasicFields.mono {x : BasicFields} (h : BasicFields.Inv L x) : BasicFields.Inv .inv x :=
  ⟨Params.mono h.1, NString.mono h.2.1, NString.mono h.2.2.1, IString.mono h.2.2.2.1, h.2.2.2.2⟩

mutual
theorem BodyStructure.mono : ∀ {x : BodyStructure}, BodyStructure.Inv L x → BodyStructure.Inv .inv x
  | .basic f t s x, h => by
    simp only [BodyStructure.Inv] at h ⊢
    exact ⟨BasicFields.mono h.1, IString.mono h.2.1, IString.mono h.2.2.1, h.2.2.2.mono fun _ => SinglePartExt.mono⟩
  | .message f e b n x, h => by
    simp only [BodyStructure.Inv] at h ⊢
    obtain ⟨h1, h2, h3, h4, h5, h6⟩ := h
    exact ⟨BasicFields.mono h1, Envelope.mono h2, BodyStructure.mono h3, by simp, h5, h6.mono fun _ => SinglePartExt.mono⟩
  | .text f s n x, h => by
    simp only [BodyStructure.Inv] at h ⊢
    exact ⟨BasicFields.mono h.1, IString.mono h.2.1, h.2.2.1, h.2.2.2.mono fun _ => SinglePartExt.mono⟩
  | .multi l s x, h => by
    simp only [BodyStructure.Inv] at h ⊢
    exact ⟨h.1, BodyStructure.go_mono h.2.1, IString.mono h.2.2.1, h.2.2.2.mono fun _ => MultiPartExt.mono⟩

theorem BodyStructure.go_mono : ∀ {l : List BodyStructure}, BodyStructure.Inv.go L l → BodyStructure.Inv.go .inv l
  | [], _ => by simp [BodyStructure.Inv.go]
  | k :: ks, h => by
    simp only [BodyStructure.Inv.go] at h ⊢
    exact ⟨BodyStructure.mono h.1, BodyStructure.go_mono h.2⟩
end

theorem Capability.mono {x : Capability} (h : Capability.Inv L x) : Capability.Inv .inv x := by
  cases x with
  | auth m => exact AuthMechanism.mono h
  | quotaRes r => exact ⟨h.1, by simp⟩
  | namespace_ => exact ⟨h.1, nofun⟩
  | sort a => cases a <;> exact h
  | _ => exact h

end

theorem Code.mono {t : Bytes} {x : Code} (h : Code.Inv L t x) : Code.Inv .inv t x := by
  cases x with
  | capability l => exact All1.mono (fun _ => Capability.mono) h
  | referral => exact ⟨h.1, nofun, h.2.2.1, nofun⟩
  | other => simp [Code.Inv]
  | _ => exact h

theorem RespText.mono {c : Option Code} {t : Bytes} (h : RespText.Inv L c t) : RespText.Inv .inv c t :=
  ⟨h.1, h.2.1.mono fun _ => Code.mono, by simp⟩

theorem Status.mono {x : Status} (h : Status.Inv L x) : Status.Inv .inv x := by
  cases x with
  | tagged => exact ⟨h.1, RespText.mono h.2⟩
  | untagged => exact RespText.mono h
  | bye => exact RespText.mono h

theorem ContinueReq.mono {x : ContinueReq} (h : ContinueReq.Inv L x) : ContinueReq.Inv .inv x := by
  cases x with
  | basic => exact ⟨RespText.mono h.1, h.2⟩
  | base64 => trivial

section

theorem MessageDataItem.mono {x : MessageDataItem} (h : MessageDataItem.Inv L x) : MessageDataItem.Inv .inv x := by
  cases x with
  | body => exact ⟨BodyStructure.mono h.1, by simp⟩
  | bodyExt => exact ⟨h.1.mono fun _ => Section.mono, h.2.1, NString.mono h.2.2⟩
  | bodyStructure => exact ⟨BodyStructure.mono h.1, by simp⟩
  | envelope => exact Envelope.mono h
  | flags => exact All.mono (fun _ => FlagFetch.mono) h
  | rfc822 => exact NString.mono h
  | rfc822Header => exact NString.mono h
  | rfc822Text => exact NString.mono h
  | binary => exact ⟨h.1, NString8.mono h.2⟩
  | modSeq => exact ⟨h.1, h.2.1, nofun⟩
  | _ => exact h

/-- Without the condition on MODSEQ. -/
theorem MessageDataItem.inv_of_valid {x : MessageDataItem} (h : x.valid = true) : MessageDataItem.Inv .inv x := by
  cases hm : x.noModSeq with
  | true => exact MessageDataItem.mono ((MessageDataItem.inv_iff x).1 (by simp [h, hm]))
  | false =>
    cases x <;> simp [Imap.MessageDataItem.noModSeq] at hm
    simp only [Imap.MessageDataItem.valid, Bool.and_eq_true] at h
    exact ⟨h.1, (nz64_iff _).1 h.2, nofun⟩

theorem NamespaceExt.mono {x : NamespaceExt} (h : NamespaceExt.Inv L x) : NamespaceExt.Inv .inv x :=
  ⟨IString.mono h.1, h.2.mono fun _ => IString.mono⟩

theorem Namespace.mono {x : Namespace} (h : Namespace.Inv L x) : Namespace.Inv .inv x :=
  ⟨IString.mono h.1, h.2.1, h.2.2.mono fun _ => NamespaceExt.mono⟩

theorem MetadataResponse.mono {x : MetadataResponse} (h : MetadataResponse.Inv L x) : MetadataResponse.Inv .inv x := by
  cases x with
  | withValues => exact All1.mono (fun _ => EntryValue.mono) h
  | withoutValues => exact All1.mono (fun _ => AString.mono) h

theorem Data.mono {x : Data} (h : Data.Inv L x) : Data.Inv .inv x := by
  cases x with
  | capability => exact All1.mono (fun _ => Capability.mono) h
  | list => exact ⟨h.1, h.2.1, Mailbox.mono h.2.2⟩
  | lsub => exact ⟨h.1, h.2.1, Mailbox.mono h.2.2⟩
  | status => exact ⟨Mailbox.mono h.1, h.2⟩
  | thread => exact All.mono (fun _ h => ⟨h.1, by simp⟩) h
  | fetch => exact ⟨h.1, h.2.mono fun _ => MessageDataItem.mono⟩
  | quota => exact ⟨AString.mono h.1, h.2⟩
  | quotaRoot => exact ⟨Mailbox.mono h.1, h.2.mono fun _ => AString.mono⟩
  | id_ => exact ⟨h.1, Opt.mono (fun _ => IdParams.mono) h.2⟩
  | metadata => exact ⟨h.1, Mailbox.mono h.2.1, MetadataResponse.mono h.2.2⟩
  | namespace_ =>
    exact ⟨h.1, h.2.1.mono fun _ => Namespace.mono, h.2.2.1.mono fun _ => Namespace.mono, h.2.2.2.mono fun _ => Namespace.mono⟩
  | _ => exact h

/-- Without the condition on MODSEQ. -/
theorem Data.inv_of_valid {x : Data} (h : x.valid = true) : Data.Inv .inv x := by
  cases hm : x.noModSeq with
  | true => exact Data.mono ((Data.inv_iff x).1 (by simp [h, hm]))
  | false =>
    cases x <;> simp [Imap.Data.noModSeq] at hm
    simp only [Imap.Data.valid, Bool.and_eq_true, Bool.not_eq_true', List.isEmpty_eq_false_iff, List.all_eq_true] at h
    exact ⟨(nz32_iff _).1 h.1.1, h.1.2, fun a ha => MessageDataItem.inv_of_valid (h.2 a ha)⟩

end

theorem Response.mono {x : Response} (h : Response.Inv L x) : Response.Inv .inv x := by
  cases x with
  | continue_ => exact ContinueReq.mono h
  | data => exact Data.mono h
  | status => exact Status.mono h

/-- Without the condition on MODSEQ. -/
theorem Response.inv_of_valid {x : Response} (h : x.valid = true) : Response.Inv .inv x := by
  cases x with
  | continue_ => exact ContinueReq.mono ((ContinueReq.inv_iff _).1 h)
  | data => exact Data.inv_of_valid h
  | status => exact Status.mono ((Status.inv_iff _).1 h)

end Imap.Spec

namespace Imap

/-- Supported messages are well-formed. -/
theorem Supported.wellFormed [Quirks] {k : Codec} {m : k.Message} (h : Supported k m) : WellFormed k m := by
  cases k with
  | greeting => exact Spec.RespText.mono h
  | command => exact Spec.Command.mono h
  | authenticateData => trivial
  | response => exact Spec.Response.mono h
  | idleDone => trivial

end Imap
