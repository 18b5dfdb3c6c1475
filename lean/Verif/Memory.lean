import Verif.MemorySpec
import Verif.SerdeTypes
import Verif.SizeParts
set_option maxRecDepth 10000
/-! How large the serialized value of a message is, compared with its encoding. -/
namespace Imap.Serde

open Imap

attribute [simp] Value.size sizeItems sizeEntries

theorem sizeItems_map {α : Type} (f : α → Value) (l : List α) : sizeItems (l.map f) = total (fun a => (f a).size) l := by
  induction l with
  | nil => simp
  | cons a l ih => simp [ih]

@[simp] theorem size_tagged_none (n : Bytes) : (tagged (n, none)).size = n.length + 6 := by simp [tagged]; omega
@[simp] theorem size_tagged_some (n : Bytes) (v : Value) : (tagged (n, some v)).size = n.length + v.size + 13 := by simp [tagged]; omega
@[simp] theorem size_opt_none {α : Type} (s : S α) : ((opt s).ser none).size = 1 := by simp [opt]
@[simp] theorem size_opt_some {α : Type} (s : S α) (a : α) : ((opt s).ser (some a)).size = (s.ser a).size := rfl
@[simp] theorem size_list {α : Type} (s : S α) (l : List α) : ((list s).ser l).size = total (fun a => (s.ser a).size) l + 1 := by
  simp [list, sizeItems_map]
@[simp] theorem size_tryFrom {α : Type} (s : S α) (c : α → Bool) (a : α) : ((s.tryFrom c).ser a).size = (s.ser a).size := rfl
@[simp] theorem size_newtype {α β : Type} (s : S β) (mk : β → α) (inner : α → β) (a : α) :
    ((s.newtype mk inner).ser a).size = (s.ser (inner a)).size := rfl
@[simp] theorem size_vec {α : Type} (n : Nat) (s : S α) (l : List α) : ((vec n s).ser l).size = total (fun a => (s.ser a).size) l + 1 :=
  size_list s l
@[simp] theorem size_pair {α β : Type} (s : S α) (t : S β) (x : α × β) : ((pair s t).ser x).size = (s.ser x.1).size + (t.ser x.2).size + 1 := by
  simp [pair]
@[simp] theorem size_record {β : Type} (fs : Fields β) (b : β) : ((record fs).ser b).size = sizeEntries (fs.names.zip (fs.ser b)) + 1 := by
  simp [record]
@[simp] theorem size_one {α : Type} (n : Bytes) (s : S α) (a : α) :
    sizeEntries ((Fields.one n s).names.zip ((Fields.one n s).ser a)) = n.length + (s.ser a).size := by
  simp [Fields.one]
@[simp] theorem size_cons {α β : Type} (n : Bytes) (s : S α) (fs : Fields β) (x : α × β) :
    sizeEntries ((Fields.cons n s fs).names.zip ((Fields.cons n s fs).ser x)) =
      n.length + (s.ser x.1).size + sizeEntries (fs.names.zip (fs.ser x.2)) := by
  simp [Fields.cons]
@[simp] theorem size_enum {α : Type} (ser : α → Bytes × Option Value) (vs : List (Variant α)) (a : α) :
    ((enum ser vs).ser a).size = (tagged (ser a)).size := rfl
@[simp] theorem size_names {α : Type} (ser : α → Bytes) (vs : List (Bytes × α)) (a : α) : ((names ser vs).ser a).size = (ser a).length + 1 := by
  simp [names]
@[simp] theorem size_string (s : Bytes) : (string.ser s).size = s.length + 1 := by simp [string]
@[simp] theorem size_uint (lo hi n : Nat) : ((uint lo hi).ser n).size = 1 := by simp [uint]
@[simp] theorem size_u32 (n : Nat) : (u32.ser n).size = 1 := size_uint ..
@[simp] theorem size_u64 (n : Nat) : (u64.ser n).size = 1 := size_uint ..
@[simp] theorem size_nz32 (n : Nat) : (nz32.ser n).size = 1 := size_uint ..
@[simp] theorem size_nz64 (n : Nat) : (nz64.ser n).size = 1 := size_uint ..
@[simp] theorem size_bool (b : Bool) : (bool.ser b).size = 1 := by simp [bool]
@[simp] theorem size_unit (u : Unit) : (unit.ser u).size = 1 := by simp [unit]
@[simp] theorem size_u8 (b : UInt8) : (u8.ser b).size = 1 := by simp [u8]

theorem total_const {α : Type} (c : Nat) (l : List α) : total (fun _ => c) l = c * l.length := by
  induction l with
  | nil => rfl
  | cons a l ih => simp [ih, Nat.mul_add]; omega

@[simp] theorem size_bytes (d : Bytes) : (bytes.ser d).size = d.length + 1 := by simp [bytes, total_const]
@[simp] theorem size_atom (s : Bytes) : (atom.ser s).size = s.length + 1 := by simp [atom]
@[simp] theorem size_atomExt (s : Bytes) : (atomExt.ser s).size = s.length + 1 := by simp [atomExt]
@[simp] theorem size_quoted (s : Bytes) : (quoted.ser s).size = s.length + 1 := by simp [quoted]
@[simp] theorem size_quotedUtf8 (s : Bytes) : (quotedUtf8.ser s).size = s.length + 1 := by simp [quotedUtf8]
@[simp] theorem size_tag (s : Bytes) : (tag.ser s).size = s.length + 1 := by simp [tag]
@[simp] theorem size_text (s : Bytes) : (text.ser s).size = s.length + 1 := by simp [text]
@[simp] theorem size_listCharString (s : Bytes) : (listCharString.ser s).size = s.length + 1 := by simp [listCharString]
@[simp] theorem size_quotedChar (b : UInt8) : (quotedChar.ser b).size = 2 := by simp [quotedChar]
@[simp] theorem size_naiveDate (d : NaiveDate) : (naiveDate.ser d).size = 1 := by simp [naiveDate]
@[simp] theorem size_dateTime (d : DateTime) : (dateTime.ser d).size = 1 := by simp [dateTime]
@[simp] theorem size_part (p : List NzU32) : (part.ser p).size = p.length + 1 := by simp [part, total_const]

/-- Elementwise bounds give a bound for the sum. -/
theorem total_bound {α : Type} {c d : α → Nat} (k : Nat) {e : Nat} (h : ∀ a, c a ≤ k * d a + e) (l : List α) : total c l ≤ k * total d l + e * l.length := by
  induction l with
  | nil => simp
  | cons a l ih =>
    have := h a
    simp only [total_cons, List.length_cons, Nat.mul_add]
    omega

theorem len_escape (s : Bytes) : s.length ≤ (escapeQuoted s).length := by
  rw [escapeQuoted_eq]
  induction s with
  | nil => simp
  | cons b s ih =>
    have : 1 ≤ (esc1 b).length := by revert b; exact forall_byte (by decide)
    simp only [List.flatMap_cons, List.length_append, List.length_cons]
    omega

/-- The same for a list whose encodings are separated by at least one byte. -/
theorem total_join {α : Type} {c : α → Nat} {f : α → List W} {e : Nat} (sep : Bytes) (h : ∀ a, c a ≤ 64 * len (f a) + e) (he : e ≤ 64)
    (hs : 1 ≤ sep.length) (l : List α) : total c l ≤ 64 * len (join sep (l.map f)) + e := by
  have h1 := total_bound 64 h l
  rw [len_join, total_map, List.length_map]
  cases l with
  | nil => simp
  | cons a l =>
    simp only [List.length_cons, Nat.add_sub_cancel, Nat.mul_add] at *
    have h2 : e * l.length ≤ 64 * l.length := Nat.mul_le_mul_right _ he
    have h3 : 1 * l.length ≤ sep.length * l.length := Nat.mul_le_mul_right _ hs
    omega

/-- A builder whose encoder does not normalize sequence sets. -/
class Raw [q : Quirks] : Prop where
  raw : q.alwaysNormalizeSequenceSets = false

/-! ### Core types -/

theorem mem_literal (l : Literal) : (literal.ser l).size ≤ 64 * len l.enc := by
  obtain ⟨d, m⟩ := l
  have := showNat_pos d.length
  cases m <;> simp [literal, literalMode, Literal.enc] <;> omega

theorem mem_literal8 (l : Literal8) : (literal8.ser l).size ≤ 64 * len l.enc := by
  obtain ⟨d, m⟩ := l
  have := showNat_pos d.length
  cases m <;> simp [literal8, literalMode, Literal8.enc] <;> omega

theorem mem_istring (s : IString) : (istring.ser s).size + 100 ≤ 64 * len s.enc := by
  cases s with
  | literal l =>
    obtain ⟨d, m⟩ := l
    have := showNat_pos d.length
    cases m <;> simp [istring, literal, literalMode, IString.enc, Literal.enc] <;> omega
  | quoted s => have := len_escape s; simp [istring, IString.enc, encQuoted]; omega
  | quotedUtf8 s => have := len_escape s; simp [istring, IString.enc, encQuoted]; omega

theorem mem_nstring (s : NString) : (nstring.ser s).size + 100 ≤ 64 * len (encNString s) := by
  cases s with
  | none => simp [nstring, encNString]
  | some s => exact mem_istring s

theorem mem_astring (s : AString) : (astring.ser s).size ≤ 64 * len s.enc + 18 := by
  cases s with
  | atom s => simp [astring, AString.enc]; omega
  | string s => have := mem_istring s; simp [astring, AString.enc]; omega

theorem mem_charset (s : Charset) : (charset.ser s).size ≤ 64 * len s.enc + 18 := by
  cases s with
  | atom s => simp [charset, Charset.enc]; omega
  | quoted s => have := len_escape s; simp [charset, Charset.enc, encQuoted]; omega

theorem mem_literalOrLiteral8 (l : LiteralOrLiteral8) : (literalOrLiteral8.ser l).size ≤ 64 * len l.enc + 22 := by
  cases l with
  | literal l => have := mem_literal l; simp [literalOrLiteral8, LiteralOrLiteral8.enc]; omega
  | literal8 l => have := mem_literal8 l; simp [literalOrLiteral8, LiteralOrLiteral8.enc]; omega

theorem mem_nstring8 (l : NString8) : (nstring8.ser l).size ≤ 64 * len l.enc + 21 := by
  cases l with
  | nstring l => have := mem_nstring l; simp [nstring8, NString8.enc]; omega
  | literal8 l => have := mem_literal8 l; simp [nstring8, NString8.enc]; omega

theorem mem_seqOrUid (a : SeqOrUid) : (seqOrUid.ser a).size + 45 ≤ 64 * len a.enc := by
  cases a with
  | value n => have := showNat_pos n; simp [seqOrUid, SeqOrUid.enc]; omega
  | asterisk => simp [seqOrUid, SeqOrUid.enc]

theorem mem_sequence [q : Quirks] [h : Raw] (s : Sequence) : (sequence.ser s).size + 26 ≤ 64 * len s.enc := by
  cases s with
  | single a => have := mem_seqOrUid a; simp [sequence, Sequence.enc, h.raw]; omega
  | range a b => have := mem_seqOrUid a; have := mem_seqOrUid b; simp [sequence, Sequence.enc, h.raw]; omega

theorem mem_sequenceSet [q : Quirks] [h : Raw] (s : SequenceSet) : (sequenceSet.ser s).size ≤ 64 * len (encSet s) + 1 := by
  have h1 : ∀ a, (sequence.ser a).size ≤ 64 * len (Sequence.enc a) + 0 := fun a => by have := mem_sequence a; omega
  have := total_join b!"," h1 (by decide) (by decide) s
  simp [sequenceSet, encSet, normSet, h.raw]
  omega

/-- A sequence set that is not empty. -/
theorem mem_sequenceSet_ne [q : Quirks] [h : Raw] (s : SequenceSet) : (sequenceSet.ser s).size ≤ 64 * len (encSet s) ∨ s = [] := by
  cases s with
  | nil => exact .inr rfl
  | cons a s =>
    refine .inl ?_
    have h1 : ∀ a, (sequence.ser a).size ≤ 64 * len (Sequence.enc a) + 0 := fun a => by have := mem_sequence a; omega
    have h1 := total_bound 64 h1 s
    have h2 := mem_sequence a
    simp [sequenceSet, encSet, normSet, h.raw, len_join]
    omega

theorem mem_flag (f : Flag) : (flag.ser f).size ≤ 64 * len f.enc + 21 := by
  cases f <;> simp [flag, Flag.enc] <;> omega

theorem mem_flagFetch (f : FlagFetch) : (flagFetch.ser f).size ≤ 64 * len f.enc + 38 := by
  cases f with
  | flag f => have := mem_flag f; simp [flagFetch, FlagFetch.enc]; omega
  | recent => simp [flagFetch, FlagFetch.enc]

theorem mem_flagPerm (f : FlagPerm) : (flagPerm.ser f).size ≤ 64 * len f.enc + 38 := by
  cases f with
  | flag f => have := mem_flag f; simp [flagPerm, FlagPerm.enc]; omega
  | asterisk => simp [flagPerm, FlagPerm.enc]

theorem mem_flagNameAttribute (f : FlagNameAttribute) : (flagNameAttribute.ser f).size ≤ 64 * len f.enc := by
  cases f <;> simp [flagNameAttribute, FlagNameAttribute.enc]; omega

theorem mem_mailbox (m : Mailbox) : (mailbox.ser m).size ≤ 64 * len m.enc + 36 := by
  cases m with
  | inbox => simp [mailbox, Mailbox.enc]
  | other s => have := mem_astring s; simp [mailbox, mailboxOther, Mailbox.enc]; omega

theorem mem_listMailbox (m : ListMailbox) : (listMailbox.ser m).size ≤ 64 * len m.enc + 19 := by
  cases m with
  | token s => simp [listMailbox, ListMailbox.enc]; omega
  | string s => have := mem_istring s; simp [listMailbox, ListMailbox.enc]; omega

theorem mem_authMechanism (m : AuthMechanism) : (authMechanism.ser m).size ≤ 64 * len m.enc + 19 := by
  cases m <;> simp [authMechanism, AuthMechanism.enc, AuthMechanism.name]; omega

theorem len_b64 (d : Bytes) : d.length ≤ (b64Encode d).length := by
  fun_induction b64Encode d <;> simp_all; omega

theorem mem_authenticateData (d : AuthenticateData) : (authenticateData.ser d).size ≤ 64 * len d.enc := by
  cases d with
  | continue_ d => have := len_b64 d; simp [authenticateData, AuthenticateData.enc]; omega
  | cancel => simp [authenticateData, AuthenticateData.enc]

/-! ### Fetch and search -/

theorem mem_parts (p : List NzU32) : p.length ≤ 64 * len (encPart p) := by
  have h1 : ∀ n, (fun _ => 1) n ≤ 64 * len (encNat n) + 0 := fun n => by have := showNat_pos n; simp [encNat]; omega
  have := total_join b!"." h1 (by decide) (by decide) p
  rw [total_const] at this
  simp [encPart]
  omega

theorem mem_partDot (p : Option (List NzU32)) : ((opt part).ser p).size ≤ 64 * len (encPartDot p) + 1 := by
  cases p with
  | none => simp [encPartDot]
  | some p => have := mem_parts p; simp [encPartDot]; omega

theorem mem_astrings (l : List AString) : total (fun a => (astring.ser a).size) l ≤ 64 * len (join b!" " (l.map AString.enc)) + 18 :=
  total_join _ mem_astring (by decide) (by decide) l

theorem mem_section (s : Section) : (section_.ser s).size ≤ 64 * len s.enc + 18 := by
  cases s with
  | part p => have := mem_parts p; simp [section_, Section.enc]; omega
  | header p => have := mem_partDot p; simp [section_, Section.enc]; omega
  | headerFields p l => have := mem_partDot p; have := mem_astrings l; simp [section_, Section.enc]; omega
  | headerFieldsNot p l => have := mem_partDot p; have := mem_astrings l; simp [section_, Section.enc]; omega
  | text p => have := mem_partDot p; simp [section_, Section.enc]; omega
  | mime p => have := mem_parts p; simp [section_, Section.enc]; omega

theorem mem_sectionOpt (s : Option Section) : ((opt section_).ser s).size ≤ 64 * len (encSectionOpt s) + 18 := by
  cases s with
  | none => simp
  | some s => exact mem_section s

theorem mem_partial (p : Option (Nat × NzU32)) : ((opt (pair u32 nz32)).ser p).size ≤ 64 * len (encPartial p) + 1 := by
  cases p <;> simp [encPartial]; omega

theorem mem_messageDataItemName (n : MessageDataItemName) : (messageDataItemName.ser n).size ≤ 64 * len n.enc := by
  cases n with
  | bodyExt s p k =>
    have := mem_sectionOpt s
    have := mem_partial p
    cases k <;> simp [messageDataItemName, MessageDataItemName.enc] <;> omega
  | binary s p k =>
    have := mem_parts s
    have := mem_partial p
    cases k <;> simp [messageDataItemName, MessageDataItemName.enc, total_const] <;> omega
  | binarySize s => have := mem_parts s; simp [messageDataItemName, MessageDataItemName.enc, total_const]; omega
  | _ => simp [messageDataItemName, MessageDataItemName.enc]

theorem mem_macroOrNames (n : MacroOrNames) : (macroOrNames.ser n).size ≤ 64 * len n.enc + 34 := by
  cases n with
  | macro_ m => cases m <;> simp [macroOrNames, macro_, MacroOrNames.enc]
  | names l =>
    have := total_join (e := 0) b!" " mem_messageDataItemName (by decide) (by decide) l
    match l with
    | [] => simp [macroOrNames, MacroOrNames.enc, join]
    | [n] => have := mem_messageDataItemName n; simp [macroOrNames, MacroOrNames.enc]; omega
    | n :: m :: l => simp only [macroOrNames, MacroOrNames.enc, size_enum, size_tagged_some, size_list, len_append]; simp only [List.length_cons, List.length_nil]; omega

theorem mem_attributeFlag (f : AttributeFlag) : (attributeFlag.ser f).size ≤ 64 * f.enc.length + 23 := by
  cases f <;> simp [attributeFlag, AttributeFlag.enc] <;> omega

theorem mem_modSequence (e : Option (AttributeFlag × EntryTypeReq)) (n : Nat) :
    ((record modSequenceFields).ser (e, n)).size + 24 ≤ 64 * len (encModSequence e n) := by
  have := showNat_pos n
  match e with
  | none => simp [encModSequence]; omega
  | some (f, t) => have := mem_attributeFlag f; cases t <;> simp [encModSequence, entryTypeReq, EntryTypeReq.enc] <;> omega

theorem go_length [Quirks] (l : List SearchKey) : (SearchKey.enc.go l).length = l.length := by
  induction l with
  | nil => rfl
  | cons k l ih => simp [SearchKey.enc.go, ih]

mutual

theorem mem_key [Quirks] [Raw] : ∀ k : SearchKey, (serKey k).size ≤ 64 * len k.enc + 25
  | .and l => by
    have := mem_keys l
    have h1 := go_length l
    simp [serKey, SearchKey.enc, len_join] at *
    cases l <;> simp at * <;> omega
  | .sequenceSet s => by have := mem_sequenceSet s; simp [serKey, SearchKey.enc]; omega
  | .uid s => by have := mem_sequenceSet s; simp [serKey, SearchKey.enc]; omega
  | .not k => by have := mem_key k; simp [serKey, SearchKey.enc]; omega
  | .or a b => by have := mem_key a; have := mem_key b; simp [serKey, SearchKey.enc]; omega
  | .modSequence e n => by
    have := mem_modSequence e n
    simp only [serKey, SearchKey.enc, size_tagged_some]
    simp only [List.length_cons, List.length_nil]
    omega
  | .bcc s | .body s | .cc s | .from_ s | .subject s | .text s | .to s => by have := mem_astring s; simp [serKey, SearchKey.enc]; omega
  | .before d | .on d | .sentBefore d | .sentOn d | .sentSince d | .since d => by simp [serKey, SearchKey.enc] <;> omega
  | .header n v => by have := mem_astring n; have := mem_astring v; simp [serKey, SearchKey.enc]; omega
  | .keyword a | .unkeyword a => by simp [serKey, SearchKey.enc]; omega
  | .larger n | .smaller n => by simp [serKey, SearchKey.enc] <;> omega
  | .all | .answered | .deleted | .draft | .flagged | .new | .old | .recent | .seen | .unanswered | .undeleted | .undraft
  | .unflagged | .unseen => by simp [serKey, SearchKey.enc]

theorem mem_keys [Quirks] [Raw] : ∀ l : List SearchKey, sizeItems (serKeys l) ≤ 64 * total len (SearchKey.enc.go l) + 25 * l.length
  | [] => by simp [serKeys]
  | k :: l => by
    have := mem_key k
    have := mem_keys l
    simp [serKeys, SearchKey.enc.go, Nat.mul_add]
    omega

end

theorem mem_searchKeys [Quirks] [Raw] (l : List SearchKey) : total (fun a => (searchKey.ser a).size) l ≤ 64 * len (encKeys l) + 25 :=
  total_join _ mem_key (by decide) (by decide) l

/-! ### Commands -/

theorem mem_selectParameter [Quirks] [Raw] (p : SelectParameter) : (selectParameter.ser p).size ≤ 64 * len p.enc := by
  match p with
  | .condStore => simp [selectParameter, SelectParameter.enc]
  | .qresync u m none none => simp [selectParameter, SelectParameter.enc]; omega
  | .qresync u m (some k) none => have := mem_sequenceSet k; simp [selectParameter, SelectParameter.enc]; omega
  | .qresync u m none (some (a, b)) =>
    have := mem_sequenceSet a; have := mem_sequenceSet b; simp [selectParameter, SelectParameter.enc]; omega
  | .qresync u m (some k) (some (a, b)) =>
    have := mem_sequenceSet k; have := mem_sequenceSet a; have := mem_sequenceSet b; simp [selectParameter, SelectParameter.enc]; omega

theorem mem_fetchModifier (p : FetchModifier) : (fetchModifier.ser p).size ≤ 64 * len p.enc := by
  cases p <;> simp [fetchModifier, FetchModifier.enc]; omega

theorem mem_storeModifier (n : StoreModifier) : (storeModifier.ser n).size ≤ 64 * len (encStoreModifier n) := by
  simp [storeModifier, encStoreModifier]; omega

theorem mem_statusDataItemName (n : StatusDataItemName) : (statusDataItemName.ser n).size ≤ 64 * len n.enc := by
  cases n <;> simp [statusDataItemName, StatusDataItemName.enc]

theorem mem_capabilityEnable (c : CapabilityEnable) : (capabilityEnable.ser c).size ≤ 64 * len c.enc + 19 := by
  cases c <;> simp [capabilityEnable, utf8Kind, CapabilityEnable.enc, CapabilityEnable.name]; omega

theorem mem_resource (r : Resource) : (resource.ser r).size ≤ 64 * r.name.length + 19 := by
  cases r <;> simp [resource, Resource.name]; omega

theorem mem_quotaSet (q : QuotaSet) : (quotaSet.ser q).size ≤ 64 * len q.enc := by
  have := mem_resource q.resource
  simp [quotaSet, QuotaSet.enc]
  omega

theorem mem_sortCriterion (c : SortCriterion) : (sortCriterion.ser c).size ≤ 64 * len c.enc := by
  obtain ⟨r, k⟩ := c
  cases r <;> cases k <;> simp [sortCriterion, sortKey, SortCriterion.enc, SortKey.name]

theorem mem_threadingAlgorithm (a : ThreadingAlgorithm) : (threadingAlgorithm.ser a).size ≤ 64 * a.name.length + 19 := by
  cases a <;> simp [threadingAlgorithm, ThreadingAlgorithm.name]; omega

theorem mem_idParam (x : IString × NString) : ((pair istring nstring).ser x).size ≤ 64 * len (encIdParam x) := by
  have := mem_istring x.1
  have := mem_nstring x.2
  simp [encIdParam]
  omega

theorem mem_idParams [q : Quirks] (x : Option IdParams) : ((opt idParams).ser x).size ≤ 64 * len (encIdParams x) := by
  match x with
  | none => simp [encIdParams]
  | some [] => simp [encIdParams, idParams]; split <;> simp
  | some (a :: l) =>
    have := total_join (e := 0) b!" " mem_idParam (by decide) (by decide) (a :: l)
    simp only [encIdParams, idParams, size_opt_some, size_list, len_append, len_wr, List.length_cons, List.length_nil, List.cons_append]
    omega

theorem mem_entryValue (e : EntryValue) : (entryValue.ser e).size ≤ 64 * len e.enc := by
  have := mem_astring e.entry
  have := mem_nstring8 e.value
  simp [entryValue, entry, EntryValue.enc]
  omega

theorem mem_getMetadataOption (o : GetMetadataOption) : (getMetadataOption.ser o).size ≤ 64 * len o.enc := by
  cases o <;> simp [getMetadataOption, depth, GetMetadataOption.enc]; omega

theorem mem_params {α : Type} {c : α → Nat} {f : α → List W} {e : Nat} (h : ∀ a, c a ≤ 64 * len (f a) + e) (he : e ≤ 64) (l : List α) :
    total c l ≤ 64 * len (encParams (l.map f)) := by
  have h1 := total_join b!" " h he (by decide) l
  cases l with
  | nil => simp
  | cons a l => simp [encParams] at *; omega

theorem mem_entries (l : List Entry) : total (fun a => (entry.ser a).size) l ≤ 64 * len (encEntries l) + 18 := by
  have : total (fun a => (entry.ser a).size) l ≤ 64 * len (join b!" " (l.map AString.enc)) + 18 := mem_astrings l
  unfold encEntries
  split
  · simpa [join] using this
  · simp at *; omega

theorem mem_commandBody [Quirks] [Raw] (c : CommandBody) : (commandBody.ser c).size ≤ 64 * len c.enc := by
  cases c with
  | authenticate m r =>
    have := mem_authMechanism m
    have : ((opt bytes).ser r).size ≤ 64 * len (encInitialResponse r) + 1 := by
      cases r with
      | none => simp
      | some d => have := len_b64 d; cases d <;> simp [encInitialResponse] at *; omega
    simp [commandBody, CommandBody.enc]
    omega
  | login u p => have := mem_astring u; have := mem_astring p; simp [commandBody, CommandBody.enc]; omega
  | select m l => have := mem_mailbox m; have := mem_params (e := 0) mem_selectParameter (by decide) l; simp [commandBody, CommandBody.enc]; omega
  | examine m l => have := mem_mailbox m; have := mem_params (e := 0) mem_selectParameter (by decide) l; simp [commandBody, CommandBody.enc]; omega
  | create m => have := mem_mailbox m; simp [commandBody, CommandBody.enc]; omega
  | delete m => have := mem_mailbox m; simp [commandBody, CommandBody.enc]; omega
  | subscribe m => have := mem_mailbox m; simp [commandBody, CommandBody.enc]; omega
  | unsubscribe m => have := mem_mailbox m; simp [commandBody, CommandBody.enc]; omega
  | getQuotaRoot m => have := mem_mailbox m; simp [commandBody, CommandBody.enc]; omega
  | getQuota m => have := mem_astring m; simp [commandBody, CommandBody.enc]; omega
  | rename a b => have := mem_mailbox a; have := mem_mailbox b; simp [commandBody, CommandBody.enc]; omega
  | list r w => have := mem_mailbox r; have := mem_listMailbox w; simp [commandBody, CommandBody.enc]; omega
  | lsub r w => have := mem_mailbox r; have := mem_listMailbox w; simp [commandBody, CommandBody.enc]; omega
  | status m l =>
    have := mem_mailbox m
    have := total_join (e := 0) b!" " mem_statusDataItemName (by decide) (by decide) l
    simp [commandBody, CommandBody.enc]; omega
  | append m f d x =>
    have := mem_mailbox m
    have := mem_params mem_flag (by decide) f
    have := mem_literalOrLiteral8 x
    have : ((opt dateTime).ser d).size = 1 := by cases d <;> simp
    simp [commandBody, CommandBody.enc]; omega
  | expungeUid s => have := mem_sequenceSet s; simp [commandBody, CommandBody.enc]; omega
  | search c l u =>
    have := mem_searchKeys l
    have : ((opt charset).ser c).size ≤ 64 * len (encCharsetOpt c) + 1 := by
      cases c with
      | none => simp
      | some c => have := mem_charset c; simp [encCharsetOpt]; omega
    cases u <;> simp [commandBody, CommandBody.enc, encUid] <;> omega
  | sort s c l u =>
    have := mem_searchKeys l
    have := mem_charset c
    have := total_join (e := 0) b!" " mem_sortCriterion (by decide) (by decide) s
    cases u <;> simp [commandBody, CommandBody.enc, encUid] <;> omega
  | thread a c l u =>
    have := mem_searchKeys l
    have := mem_charset c
    have := mem_threadingAlgorithm a
    cases u <;> simp [commandBody, CommandBody.enc, encUid] <;> omega
  | fetch s i u m =>
    have := mem_sequenceSet s
    have := mem_macroOrNames i
    have := mem_params (e := 0) mem_fetchModifier (by decide) m
    cases u <;> simp [commandBody, CommandBody.enc, encUid] <;> omega
  | store s k r f u m =>
    have := mem_sequenceSet s
    have := total_join b!" " mem_flag (by decide) (by decide) f
    have h1 := total_join (c := fun n => (storeModifier.ser n).size) (f := encStoreModifier) (e := 0) b!" " mem_storeModifier (by decide) (by decide) m
    have : total (fun a => (storeModifier.ser a).size) m ≤ 64 * len (encStoreModifiers m) := by
      unfold encStoreModifiers
      split
      · simp_all
      · simp; omega
    cases u <;> cases k <;> cases r <;>
      simp [commandBody, CommandBody.enc, encUid, storeType, storeResponse, StoreType.enc, StoreResponse.enc] <;> omega
  | copy s m u => have := mem_sequenceSet s; have := mem_mailbox m; cases u <;> simp [commandBody, CommandBody.enc, encUid] <;> omega
  | move s m u => have := mem_sequenceSet s; have := mem_mailbox m; cases u <;> simp [commandBody, CommandBody.enc, encUid] <;> omega
  | enable l => have := total_join b!" " mem_capabilityEnable (by decide) (by decide) l; simp [commandBody, CommandBody.enc]; omega
  | setQuota r l =>
    have := mem_astring r
    have := total_join (e := 0) b!" " mem_quotaSet (by decide) (by decide) l
    simp [commandBody, CommandBody.enc]; omega
  | id p => have := mem_idParams p; simp [commandBody, CommandBody.enc]; omega
  | setMetadata m l =>
    have := mem_mailbox m
    have := total_join (e := 0) b!" " mem_entryValue (by decide) (by decide) l
    simp [commandBody, CommandBody.enc]; omega
  | getMetadata o m l =>
    have := mem_mailbox m
    have := mem_params (e := 0) mem_getMetadataOption (by decide) o
    have := mem_entries l
    simp [commandBody, CommandBody.enc]; omega
  | compress => simp [commandBody, CommandBody.enc, compressionAlgorithm]
  | _ => simp [commandBody, CommandBody.enc]

theorem mem_command [Quirks] [Raw] (c : Command) : (command.ser c).size ≤ 64 * len c.enc := by
  have := mem_commandBody c.body
  simp [command, Command.enc]
  omega

end Imap.Serde
